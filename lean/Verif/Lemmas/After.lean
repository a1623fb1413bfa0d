import Verif.Lemmas.Hiding
import Verif.Spec.After
import Verif.Lemmas.Accept
import Verif.Lemmas.Lockstep
/-! Transcripts of provers and verifiers that both succeed. -/
set_option linter.unusedSectionVars false
namespace Zksql
open Spec PTracker
variable {F C B : Type} [Field F]

theorem aft_bind_inv {α β : Type} {x : Res α} {f : α → Res β} {b : β} (h : x >>= f = .ok b) : ∃ a, x = .ok a ∧ f a = .ok b := by
  rcases x with e | a
  · simp at h
  · exact ⟨a, rfl, h⟩

theorem takeChallenge_chals {st : ProverState F} {ch : Option F} {chals : List F} {ts : List (Mle F)} (h : takeChallenge st ch = .ok (chals, ts)) :
    chals = st.challenges ++ ch.toList := by
  unfold takeChallenge at h
  rcases ch with _ | c
  · simp only at h
    split at h
    · simp at h
    · rw [← (Prod.mk.inj (Except.ok.inj h)).1]; simp
  · simp only at h
    split at h
    · simp at h
    · obtain ⟨r, _, h⟩ := aft_bind_inv h
      obtain ⟨t, _, h⟩ := aft_bind_inv h
      rw [← (Prod.mk.inj (Except.ok.inj h)).1]; simp

theorem proveRound_chals {st st' : ProverState F} {ch : Option F} {msg : List F} (h : proveRound st ch = .ok (msg, st')) :
    st'.challenges = st.challenges ++ ch.toList := by
  unfold proveRound at h
  split at h
  · simp at h
  · obtain ⟨⟨chals, ts⟩, h1, h⟩ := aft_bind_inv h
    obtain ⟨m, _, h⟩ := aft_bind_inv h
    rw [← (Prod.mk.inj (Except.ok.inj h)).2]
    exact takeChallenge_chals h1

theorem proveLoop_chals {H : Oracle F C} : ∀ {n : Nat} {st st' : ProverState F} {ch ch' : Option F} {tr tr' : Transcript F C} {msgs : List (List F)},
    proveLoop H n st ch tr = .ok (msgs, st', ch', tr') → msgs.length = n ∧ tr' = (roundChals H msgs tr).2 ∧
      st'.challenges ++ ch'.toList = st.challenges ++ ch.toList ++ (roundChals H msgs tr).1
  | 0, st, st', ch, ch', tr, tr', msgs, h => by
    simp only [proveLoop, Except.ok.injEq, Prod.mk.injEq] at h
    obtain ⟨rfl, rfl, rfl, rfl⟩ := h
    simp [roundChals]
  | n + 1, st, st', ch, ch', tr, tr', msgs, h => by
    unfold proveLoop at h
    obtain ⟨⟨msg, s1⟩, h1, h⟩ := aft_bind_inv h
    simp only [challenge_append, ok_bind] at h
    obtain ⟨⟨ms, s2, c2, t2⟩, h2, h⟩ := aft_bind_inv h
    simp only [Except.ok.injEq, Prod.mk.injEq] at h
    obtain ⟨rfl, rfl, rfl, rfl⟩ := h
    obtain ⟨a, b, c⟩ := proveLoop_chals h2
    refine ⟨by simp [a], ?_, ?_⟩
    · rw [b]; simp [roundChals]
    · rw [c, proveRound_chals h1]; simp [roundChals]

/-- The point and the transcript of a sumcheck proof are what drawing a challenge after each message gives. -/
theorem sumcheckProve_chals {H : Oracle F C} {vp : VirtPoly F} {tr tr' : Transcript F C} {pf : IOPProof F} (h : sumcheckProve H vp tr = .ok (pf, tr')) :
    pf.proofs.length = vp.numVariables ∧ vp.numVariables ≠ 0 ∧
      (pf.point, tr') = roundChals H pf.proofs (tr.append "aux info" (.aux vp.maxDegree vp.numVariables)) := by
  unfold sumcheckProve at h
  obtain ⟨st, h1, h⟩ := aft_bind_inv h
  obtain ⟨⟨ms, s2, c2, t2⟩, h2, h⟩ := aft_bind_inv h
  simp only [Except.ok.injEq, Prod.mk.injEq] at h
  obtain ⟨rfl, rfl⟩ := h
  obtain ⟨a, b, c⟩ := proveLoop_chals h2
  have hs : st.challenges = [] ∧ vp.numVariables ≠ 0 := by
    unfold proverInit at h1
    split at h1
    · simp at h1
    · next hv => exact ⟨by rw [← Except.ok.inj h1], hv⟩
  refine ⟨a, hs.2, ?_⟩
  rw [hs.1] at c
  simp only [Option.toList_none, List.append_nil, List.nil_append] at c
  rw [← Prod.eta (roundChals H _ _), ← c, ← b]
  rcases c2 with _ | c2 <;> simp

/-- The same for the verifier. -/
theorem sumcheckVerify_chals [DecidableEq F] {H : Oracle F C} {claim : F} {pf : IOPProof F} {d n : Nat} {tr tr' : Transcript F C} {sub : SubClaim F}
    (h : sumcheckVerify H claim pf d n tr = .ok (sub, tr')) : 0 < n ∧ n ≤ pf.proofs.length ∧
      (sub.point, tr') = roundChals H (pf.proofs.take n) (tr.append "aux info" (.aux d n)) := by
  by_cases hn0 : n = 0
  · subst hn0
    simp [sumcheckVerify, verifyLoop, verifierInit, checkAndGenerateSubclaim] at h
  by_cases hlen : n ≤ pf.proofs.length
  · have h1 := verifyLoop_ok H pf n d n 0 (by simp) (by omega) hlen [] [] (tr.append "aux info" (.aux d n))
    simp only [List.drop_zero, List.nil_append, Nat.zero_add] at h1
    simp only [sumcheckVerify, verifierInit, h1, ok_bind] at h
    obtain ⟨s, h2, h⟩ := aft_bind_inv h
    simp only [Except.ok.injEq, Prod.mk.injEq] at h
    obtain ⟨rfl, rfl⟩ := h
    refine ⟨by omega, hlen, ?_⟩
    have : s.point = (roundChals H (pf.proofs.take n) (tr.append "aux info" (.aux d n))).1 := by
      unfold checkAndGenerateSubclaim at h2
      split at h2
      · simp at h2
      split at h2
      · simp at h2
      obtain ⟨e, _, h2⟩ := aft_bind_inv h2
      obtain ⟨_, _, h2⟩ := aft_bind_inv h2
      obtain ⟨l, _, h2⟩ := aft_bind_inv h2
      rw [← Except.ok.inj h2]
    rw [this]
  · have := verifyLoop_short H pf n d n 0 (by simp) (by omega) (by omega) [] [] (tr.append "aux info" (.aux d n))
    simp only [Nat.zero_add] at this
    simp only [sumcheckVerify, verifierInit, this] at h
    simp at h

/-- A sumcheck proof and an accepting run on it end with the same transcript, at the same point. -/
theorem sumcheck_same [DecidableEq F] {H : Oracle F C} {vp : VirtPoly F} {tr trp trv : Transcript F C} {pf : IOPProof F} {claim : F} {sub : SubClaim F}
    (hp : sumcheckProve H vp tr = .ok (pf, trp)) (hv : sumcheckVerify H claim pf vp.maxDegree vp.numVariables tr = .ok (sub, trv)) :
    sub.point = pf.point ∧ trv = trp := by
  obtain ⟨a, _, b⟩ := sumcheckProve_chals hp
  obtain ⟨_, _, c⟩ := sumcheckVerify_chals hv
  rw [← a, List.take_length, a, ← b] at c
  exact Prod.mk.inj c

/-! ### Batch openings -/

theorem addLoop_meta : ∀ (l : List (ArcMle F)) (vp vp' : VirtPoly F) (acc idx : List Nat), VirtPoly.addLoop vp l acc = (.ok idx, vp') →
    vp'.maxDegree = vp.maxDegree ∧ vp'.numVariables = vp.numVariables := by
  intro l
  induction l with
  | nil =>
    intro vp vp' acc idx h
    obtain ⟨-, rfl⟩ := Prod.mk.inj h
    exact ⟨rfl, rfl⟩
  | cons a as ih =>
    intro vp vp' acc idx h
    unfold VirtPoly.addLoop at h
    split at h
    · simp at h
    · split at h
      · exact ih _ _ _ _ h
      · have := ih _ _ _ _ h
        exact this

theorem addMleList_meta {vp vp' : VirtPoly F} {l : List (ArcMle F)} {c : F} (h : tryState (vp.addMleList l c) = .ok vp') :
    vp'.maxDegree = max vp.maxDegree l.length ∧ vp'.numVariables = vp.numVariables := by
  unfold VirtPoly.addMleList at h
  split at h
  · simp [tryState] at h
  · split at h
    · simp [tryState] at h
    · next hl =>
      obtain ⟨a, b⟩ := addLoop_meta _ _ _ _ _ hl
      simp only [tryState, Except.ok.injEq] at h
      subst h
      exact ⟨a, b⟩

theorem buildBatchPoly_meta {nv : Nat} {pairs : List (Mle F × Mle F)} {vp : VirtPoly F} (hne : pairs ≠ []) (h : buildBatchPoly nv pairs = .ok vp) :
    vp.maxDegree = 2 ∧ vp.numVariables = nv := by
  have gen : ∀ (l : List (Mle F × Mle F)) (k : Nat) (vp vp' : VirtPoly F), vp.maxDegree ≤ 2 → (l.zipIdx k).foldlM (init := vp) (fun vp pj =>
      tryState (vp.addMleList [⟨2 * pj.2, pj.1.1⟩, ⟨2 * pj.2 + 1, pj.1.2⟩] 1)) = .ok vp' →
      vp'.maxDegree = (if l = [] then vp.maxDegree else 2) ∧ vp'.numVariables = vp.numVariables := by
    intro l
    induction l with
    | nil =>
      intro k vp vp' _ h
      obtain rfl := Except.ok.inj h
      simp
    | cons x l ih =>
      intro k vp vp' h2 h
      rw [List.zipIdx_cons, List.foldlM_cons] at h
      obtain ⟨v1, h1, h⟩ := aft_bind_inv h
      obtain ⟨a, b⟩ := addMleList_meta h1
      have a' : v1.maxDegree = 2 := by rw [a]; simp; omega
      obtain ⟨c, d⟩ := ih (k + 1) v1 vp' (by omega) h
      rw [c, d, b, a']
      simp
  have := gen pairs 0 _ _ (by simp [VirtPoly.new]) h
  rw [if_neg hne] at this
  exact this

theorem mergeLoop_length [DecidableEq F] (dd : List (List F)) : ∀ (l : List ((Mle F × List F) × F)) (gs gs' : List (Mle F)), mergeLoop dd l gs = .ok gs' → gs'.length = gs.length
  | [], gs, gs', h => by
    obtain rfl := Except.ok.inj h
    rfl
  | ((p, x), c) :: rest, gs, gs', h => by
    unfold mergeLoop at h
    obtain ⟨o, _, h⟩ := aft_bind_inv h
    obtain ⟨n, _, h⟩ := aft_bind_inv h
    rw [mergeLoop_length dd rest _ _ h]
    simp

theorem dedupPoints_ne [DecidableEq F] : ∀ (ps acc : List (List F)), (acc ≠ [] ∨ ps ≠ []) → dedupPoints acc ps ≠ []
  | [], acc, h => by simpa [dedupPoints] using h
  | p :: ps, acc, _ => by
    unfold dedupPoints
    split
    · next hm => exact dedupPoints_ne ps acc (Or.inl (List.ne_nil_of_mem hm))
    · exact dedupPoints_ne ps _ (Or.inl (by simp))

theorem aft_mapM_length {α β : Type} {f : α → Res β} : ∀ {l : List α} {l' : List β}, l.mapM f = .ok l' → l'.length = l.length
  | [], l', h => by
    simp only [List.mapM_nil] at h
    obtain rfl := Except.ok.inj h
    rfl
  | x :: l, l', h => by
    rw [List.mapM_cons] at h
    obtain ⟨y, _, h⟩ := aft_bind_inv h
    obtain ⟨ys, h2, h⟩ := aft_bind_inv h
    obtain rfl := Except.ok.inj h
    simp [aft_mapM_length h2]

/-- A batch opening and a run of the batch verifier on it, for as many commitments, end with the same transcript. -/
theorem batch_same [DecidableEq F] {E : Curve F} {H : Oracle F E.G1} {pp : ProverParam E} {vk : VerifierParam E} {polys : List (Mle F)} {points points' : List (List F)} {evals : List F}
    {tr trp trv : Transcript F E.G1} {bp : BatchProof E} {comms : List E.G1} {b : Bool} (hpt : points ≠ []) (hl : comms.length = polys.length)
    (hp : multiOpen H pp polys points evals tr = .ok (bp, trp)) (hv : batchVerify H vk comms points' bp tr = .ok (b, trv)) : trv = trp := by
  unfold multiOpen at hp
  obtain ⟨p0, _, hp⟩ := aft_bind_inv hp
  obtain ⟨⟨t, tr1⟩, h1, hp⟩ := aft_bind_inv hp
  obtain ⟨eqT, _, hp⟩ := aft_bind_inv hp
  obtain ⟨merged, h3, hp⟩ := aft_bind_inv hp
  obtain ⟨tes, h4, hp⟩ := aft_bind_inv hp
  obtain ⟨vp, h5, hp⟩ := aft_bind_inv hp
  obtain ⟨⟨pf, tr2⟩, h6, hp⟩ := aft_bind_inv hp
  have hdd := dedupPoints_ne points [] (Or.inr hpt)
  have hm : merged.length = (dedupPoints [] points).length := by rw [mergeLoop_length _ _ _ _ h3]; simp
  have ht : tes.length = (dedupPoints [] points).length := aft_mapM_length h4
  obtain ⟨m1, m2⟩ := buildBatchPoly_meta (by
    rintro e
    have := congrArg List.length e
    rw [List.length_zip, hm, ht] at this
    simp at this
    exact hdd this) h5
  simp only at hp
  split at hp
  · simp at hp
  obtain ⟨g', _, hp⟩ := aft_bind_inv hp
  obtain ⟨⟨gp, _⟩, _, hp⟩ := aft_bind_inv hp
  simp only [Except.ok.injEq, Prod.mk.injEq] at hp
  obtain ⟨rfl, rfl⟩ := hp
  unfold batchVerify at hv
  obtain ⟨⟨t', tr1'⟩, k1, hv⟩ := aft_bind_inv hv
  obtain ⟨eqT', _, hv⟩ := aft_bind_inv hv
  obtain ⟨gc, _, hv⟩ := aft_bind_inv hv
  obtain ⟨terms, _, hv⟩ := aft_bind_inv hv
  obtain ⟨⟨sub, tr2'⟩, k2, hv⟩ := aft_bind_inv hv
  obtain ⟨res, _, hv⟩ := aft_bind_inv hv
  simp only [Except.ok.injEq, Prod.mk.injEq] at hv
  obtain ⟨rfl, rfl⟩ := hv
  rw [hl, h1] at k1
  obtain ⟨rfl, rfl⟩ := Prod.mk.inj (Except.ok.inj k1)
  have q := sumcheckProve_chals (wrapSumcheck_ok h6)
  have hlen : pf.point.length = vp.numVariables := by
    rw [← q.1, ← roundChals_length H pf.proofs (tr1.append "aux info" (.aux vp.maxDegree vp.numVariables)), ← q.2.2]
  have k3 := wrapSumcheck_ok k2
  simp only at k3
  rw [hlen, ← m1] at k3
  exact (sumcheck_same (wrapSumcheck_ok h6) k3).2

/-! ### The states after compiling and verifying -/

/-- Two calls that keep the sides level when both succeed. -/
def Abreast {α β : Type} (m : Act (PTracker F C) α) (v : Act (VSt F C B) β) (Q : α → β → Prop) : Prop :=
  ∀ t s a b t' s', Level t s → m t = (.ok a, t') → v s = (.ok b, s') → Level t' s' ∧ s'.own.proof = s.own.proof ∧ Q a b

namespace Abreast
variable {α β α' β' : Type} [DecidableEq F]

theorem bind {m : Act (PTracker F C) α} {v : Act (VSt F C B) β} {f : α → Act (PTracker F C) α'} {g : β → Act (VSt F C B) β'} {Q : α → β → Prop} {R : α' → β' → Prop}
    (h1 : Abreast m v Q) (h2 : ∀ a b, Q a b → Abreast (f a) (g b) R) : Abreast (m >>= f) (v >>= g) R := by
  intro t s a b t' s' hl e1 e2
  obtain ⟨x, t1, k1, k2⟩ := Act.bind_eq_ok.1 e1
  obtain ⟨y, s1, l1, l2⟩ := Act.bind_eq_ok.1 e2
  obtain ⟨a1, a2, a3⟩ := h1 t s x y t1 s1 hl k1 l1
  obtain ⟨b1, b2, b3⟩ := h2 x y a3 t1 s1 a b t' s' a1 k2 l2
  exact ⟨b1, b2.trans a2, b3⟩

/-- A step of the prover alone. -/
theorem left {m : Act (PTracker F C) α} {f : α → Act (PTracker F C) α'} {v : Act (VSt F C B) β} {R : α' → β → Prop} (h1 : Eff 0 m) (h2 : ∀ a, Abreast (f a) v R) :
    Abreast (m >>= f) v R := by
  intro t s a b t' s' hl e1 e2
  obtain ⟨x, t1, k1, k2⟩ := Act.bind_eq_ok.1 e1
  obtain ⟨a1, a2, a3, a4, a5⟩ := h1 t x t1 k1
  exact h2 x t1 s a b t' s' ⟨by rw [a1]; exact hl.counter, by rw [a2]; exact hl.transcript, by rw [a3]; exact hl.comms, by rw [a4]; exact hl.sums,
    by rw [a5]; exact hl.zeros⟩ k2 e2

theorem pure {a : α} {b : β} {Q : α → β → Prop} (h : Q a b) : Abreast (Pure.pure a : Act (PTracker F C) α) (Pure.pure b : Act (VSt F C B) β) Q := by
  intro t s x y t' s' hl e1 e2
  obtain ⟨k1, rfl⟩ := Prod.mk.inj e1
  obtain ⟨k2, rfl⟩ := Prod.mk.inj e2
  obtain rfl := Except.ok.inj k1
  obtain rfl := Except.ok.inj k2
  exact ⟨hl, rfl, h⟩

/-- Both sides issue one identifier. -/
theorem issue {m : Act (PTracker F C) Nat} {c : VComm F} (h1 : Eff 1 m) (h2 : ∀ t a t', m t = (.ok a, t') → a = t.idCounter) :
    Abreast m (VSt.trackVirtual c : Act (VSt F C B) Nat) Eq := by
  intro t s a b t' s' hl e1 e2
  obtain ⟨a1, a2, a3, a4, a5⟩ := h1 t a t' e1
  have ha := h2 t a t' e1
  obtain ⟨k, rfl⟩ := Prod.mk.inj e2
  refine ⟨⟨?_, ?_, ?_, ?_, ?_⟩, rfl, ?_⟩
  · rw [a1, ← hl.counter]
  · rw [a2, ← hl.transcript]
  · rw [a3, ← hl.comms]
  · rw [a4, ← hl.sums]
  · rw [a5, ← hl.zeros]
  · rw [ha, ← Except.ok.inj k, ← hl.counter]

theorem id_trackMat {p : Mle F} {t t' : PTracker F C} {a : Nat} (h : PTracker.trackMat p t = (.ok a, t')) : a = t.idCounter := by
  obtain ⟨h, -⟩ := Prod.mk.inj h
  exact (Except.ok.inj h).symm

/-- Both sides read the same thing. -/
theorem reads {f : PTracker F C → Res α} {g : VSt F C B → Res β} {Q : α → β → Prop} (h : ∀ t s a b, Level t s → f t = .ok a → g s = .ok b → Q a b) :
    Abreast (Act.reads f) (Act.reads g) Q := by
  intro t s a b t' s' hl e1 e2
  obtain ⟨k1, rfl⟩ := Prod.mk.inj e1
  obtain ⟨k2, rfl⟩ := Prod.mk.inj e2
  exact ⟨hl, rfl, h _ _ a b hl k1 k2⟩

theorem challengeU (H : Oracle F C) (label : String) : Abreast (PTracker.challengeU H label) (VSt.challengeU H label : Act (VSt F C B) F) Eq := by
  intro t s a b t' s' hl e1 e2
  unfold PTracker.challengeU Act.expect PTracker.challenge at e1
  unfold VSt.challengeU Act.expect VSt.challenge at e2
  rw [hl.transcript] at e2
  rcases hc : t.transcript.challenge H label with e | ⟨c, tr⟩ <;> rw [hc] at e1 e2
  · simp at e1
  · obtain ⟨k1, rfl⟩ := Prod.mk.inj e1
    obtain ⟨k2, rfl⟩ := Prod.mk.inj e2
    exact ⟨⟨hl.counter, rfl, hl.comms, hl.sums, hl.zeros⟩, rfl, by rw [← Except.ok.inj k1, ← Except.ok.inj k2]⟩

theorem challengesU (H : Oracle F C) (label : String) (n : Nat) : Abreast (PTracker.challengesU H label n) (VSt.challengesU H label n : Act (VSt F C B) _) Eq := by
  intro t s a b t' s' hl e1 e2
  unfold PTracker.challengesU at e1
  unfold VSt.challengesU at e2
  rw [hl.transcript] at e2
  rcases hc : t.transcript.challenges H label n with e | ⟨c, tr⟩ <;> rw [hc] at e1 e2
  · simp at e1
  · obtain ⟨k1, rfl⟩ := Prod.mk.inj e1
    obtain ⟨k2, rfl⟩ := Prod.mk.inj e2
    exact ⟨⟨hl.counter, rfl, hl.comms, hl.sums, hl.zeros⟩, rfl, by rw [← Except.ok.inj k1, ← Except.ok.inj k2]⟩

theorem foldZero (H : Oracle F C) (cs : List Nat) (agg : Nat) :
    Abreast (PTracker.foldZeroClaims H cs agg) (VSt.foldZeroClaims H cs agg : Act (VSt F C B) Nat) Eq := by
  induction cs generalizing agg with
  | nil => exact pure rfl
  | cons c cs ih =>
    refine (challengeU H _).bind ?_
    rintro ch _ rfl
    refine (issue (eff_mulScalar _ _) fun _ _ _ => id_mulScalar).bind ?_
    rintro p _ rfl
    refine (issue (eff_addSub _ _ _) fun _ _ _ => id_addSub).bind ?_
    rintro p _ rfl
    exact ih _

theorem foldSum (H : Oracle F C) (cs : List (Nat × F)) (agg : Nat) (x : F) :
    Abreast (PTracker.foldSumClaims H cs agg x) (VSt.foldSumClaims H cs agg x : Act (VSt F C B) (Nat × F)) Eq := by
  induction cs generalizing agg x with
  | nil => exact pure rfl
  | cons c cs ih =>
    refine (challengeU H _).bind ?_
    rintro ch _ rfl
    refine (issue (eff_mulScalar _ _) fun _ _ _ => id_mulScalar).bind ?_
    rintro p _ rfl
    refine (issue (eff_addSub _ _ _) fun _ _ _ => id_addSub).bind ?_
    rintro p _ rfl
    exact ih _ _

theorem addSumClaim (i : Nat) (v : F) : Abreast (PTracker.addSumClaim i v : Act (PTracker F C) Unit) (VSt.addSumClaim i v : Act (VSt F C B) Unit) fun _ _ => True := by
  intro t s a b t' s' hl e1 e2
  obtain ⟨k1, rfl⟩ := Prod.mk.inj e1
  obtain ⟨k2, rfl⟩ := Prod.mk.inj e2
  exact ⟨⟨hl.counter, hl.transcript, hl.comms, by show s.own.sumClaims ++ _ = t.sumClaims ++ _; rw [hl.sums], hl.zeros⟩, rfl, trivial⟩

theorem eff_expect {k : Nat} {m : Act (PTracker F C) α} (h : Eff k m) : Eff k (Act.expect m) := by
  intro t b t' e
  unfold Act.expect at e
  rcases em : m t with ⟨er | a, s⟩ <;> rw [em] at e
  · simp at e
  · obtain ⟨-, rfl⟩ := Prod.mk.inj e
    exact h t a _ em

theorem convertZero (H : Oracle F C) (nv : Nat) : Abreast (PTracker.convertZero H nv) (VSt.convertZero H nv : Act (VSt F C B) Unit) fun _ _ => True := by
  refine left (eff_lift _) fun z => ?_
  refine (issue (PTracker.eff_trackMat _) fun _ _ _ => id_trackMat).bind ?_
  rintro agg0 _ rfl
  refine (reads (Q := Eq) fun t s a b hl h1 h2 => ?_).bind ?_
  · rw [← Except.ok.inj h1, ← Except.ok.inj h2, hl.zeros]
  rintro claims _ rfl
  refine (foldZero H _ _).bind ?_
  rintro agg _ rfl
  refine (challengesU H _ _).bind ?_
  rintro r _ rfl
  refine left (eff_expect (eff_lift _)) fun e => ?_
  refine (issue (PTracker.eff_trackMat _) fun _ _ _ => id_trackMat).bind ?_
  rintro eqId _ rfl
  refine (issue (PTracker.eff_mul _ _) fun _ _ _ => id_mul).bind ?_
  rintro p _ rfl
  exact addSumClaim _ _

/-- The prover's aggregation after the sizes have been made equal, and the verifier's. -/
theorem rest (H : Oracle F C) (nv : Nat) :
    Abreast (do
        PTracker.convertZero H nv
        let z ← Act.lift (zeroMle nv)
        let agg0 ← PTracker.trackMat z
        let claims ← Act.reads fun t => .ok t.sumClaims
        PTracker.foldSumClaims H claims agg0 0)
      (do
        VSt.convertZero H nv
        let agg0 ← VSt.trackVirtual (.fn fun _ => .ok 0)
        let claims ← Act.reads fun s : VSt F C B => .ok s.own.sumClaims
        VSt.foldSumClaims H claims agg0 0) Eq := by
  refine (convertZero H nv).bind fun _ _ _ => ?_
  refine left (eff_lift _) fun z => ?_
  refine (issue (PTracker.eff_trackMat _) fun _ _ _ => id_trackMat).bind ?_
  rintro agg0 _ rfl
  refine (reads (Q := Eq) fun t s a b hl h1 h2 => ?_).bind ?_
  · rw [← Except.ok.inj h1, ← Except.ok.inj h2, hl.sums]
  rintro claims _ rfl
  exact foldSum H _ _ _

end Abreast

/-- An aggregation that succeeds had a table with a variable. -/
theorem aggregate_mats {H : Oracle F C} {t t' : PTracker F C} {r : Nat × F} (h : PTracker.aggregate H t = (.ok r, t')) : ∃ e ∈ t.mats, e.2.mle.numVars ≠ 0 := by
  unfold PTracker.aggregate at h
  obtain ⟨N, te, h1, h⟩ := Act.bind_eq_ok.1 h
  obtain ⟨_, t2, h2, _⟩ := Act.bind_eq_ok.1 h
  have hN : N ≠ 0 := by
    rintro rfl
    unfold PTracker.convertZero at h2
    obtain ⟨z, s1, _, h2⟩ := Act.bind_eq_ok.1 h2
    obtain ⟨a0, s2, _, h2⟩ := Act.bind_eq_ok.1 h2
    obtain ⟨cl, s3, _, h2⟩ := Act.bind_eq_ok.1 h2
    obtain ⟨ag, s4, _, h2⟩ := Act.bind_eq_ok.1 h2
    obtain ⟨r, s5, h5, h2⟩ := Act.bind_eq_ok.1 h2
    obtain ⟨e, s6, h6, h2⟩ := Act.bind_eq_ok.1 h2
    have hr : r = [] := by
      unfold PTracker.challengesU at h5
      split at h5
      · next hc =>
        obtain ⟨k, -⟩ := Prod.mk.inj h5
        obtain rfl := Except.ok.inj k
        unfold Transcript.challenges at hc
        split at hc
        · simp at hc
        · simpa using (Prod.mk.inj (Except.ok.inj hc)).1.symm
      · simp at h5
    subst hr
    simp [Act.expect, buildEq, buildEqVec, buildEqHelper] at h6
  unfold PTracker.equalize at h1
  obtain ⟨M, s1, k1, h1⟩ := Act.bind_eq_ok.1 h1
  have hM : N = M := by
    obtain ⟨_, _, _, h1⟩ := Act.bind_eq_ok.1 h1
    obtain ⟨_, _, _, h1⟩ := Act.bind_eq_ok.1 h1
    obtain ⟨_, _, _, h1⟩ := Act.bind_eq_ok.1 h1
    obtain ⟨_, _, _, h1⟩ := Act.bind_eq_ok.1 h1
    obtain ⟨_, _, _, h1⟩ := Act.bind_eq_ok.1 h1
    exact (Except.ok.inj (Prod.mk.inj h1).1).symm
  subst hM
  have hmx := (Prod.mk.inj k1).1
  have hne : t.mats ≠ [] := by
    rintro e
    simp [maxMatNv, e] at hmx
  obtain ⟨N', q1, _, e, he, q2⟩ := maxMatNv_spec hne
  rw [q1] at hmx
  exact ⟨e, he, by rw [q2, Except.ok.inj hmx]; exact hN⟩

/-- A prover that compiled a proof and a verifier, in step with it before, that accepted it are level: same counter, same transcript, same commitments,
the same claims with the same values. -/
theorem level_after [DecidableEq F] {E : Curve F} {H : Oracle F E.G1} {g : E.G1} {h : E.G2} {T : List F} {debug : Bool} {R : Mle F → E.G1 → Prop}
    {t t' : PTracker F E.G1} {p : CompiledProof F E.G1 (BatchProof E)} {s s' : VSt F E.G1 (BatchProof E)} (hI : t.Inv R)
    (hne : t.transcript.isEmpty = false) (hs : ∀ c ∈ t.sumClaims, ∃ nv, t.HasNv c.1 nv) (hz : ∀ c ∈ t.zeroClaims, ∃ nv, t.HasNv c nv)
    (ht : Together t s) (hsp : s.own.proof = p) (hc : compile debug (kzgOf H g h T) H t = (.ok p, t')) (hv : VSt.verifyClaims (kzgOf H g h T) H s = (.ok (), s')) :
    Level t' s' ∧ s'.own.proof = p := by
  unfold compile at hc
  obtain ⟨agg, ta, h1, hc⟩ := Act.bind_eq_ok.1 hc
  obtain ⟨_, s2, h2, hc⟩ := Act.bind_eq_ok.1 hc
  obtain ⟨vp, s3, h3, hc⟩ := Act.bind_eq_ok.1 hc
  obtain ⟨h3v, rfl⟩ := Prod.mk.inj h3
  obtain ⟨pf, s4, h4, hc⟩ := Act.bind_eq_ok.1 hc
  obtain ⟨ids, s5, h5, hc⟩ := Act.bind_eq_ok.1 hc
  obtain ⟨e5, rfl⟩ := Prod.mk.inj h5
  obtain rfl := Except.ok.inj e5
  obtain ⟨polys, s6, h6, hc⟩ := Act.bind_eq_ok.1 hc
  obtain ⟨h6v, rfl⟩ := Prod.mk.inj h6
  obtain ⟨evals, s7, h7, hc⟩ := Act.bind_eq_ok.1 hc
  obtain ⟨h7v, rfl⟩ := Prod.mk.inj h7
  obtain ⟨bp, s8, h8, hc⟩ := Act.bind_eq_ok.1 hc
  obtain ⟨e, rfl⟩ := Prod.mk.inj hc
  have e := Except.ok.inj e
  -- the aggregation
  have hm := aggregate_mats h1
  have hm' : t.mats ≠ [] := by
    obtain ⟨e0, he0, _⟩ := hm
    exact List.ne_nil_of_mem he0
  obtain ⟨N, te, cs, tr1, r, tr2, ds, tr3, agg', ta', hN, heq, _, _, _, _, _, _, _, hagg, hI', hk, _, _, hcm, _, hsc, hnv, _, _, _⟩ := aggregate_run H hI hm hne hs hz
  rw [hagg] at h1
  obtain ⟨k, rfl⟩ := Prod.mk.inj h1
  obtain rfl := Except.ok.inj k
  obtain ⟨N', t1, te', _, _, hE, _, heq', _, hpe, q1, q2, q3, q4, q5, _⟩ := equalize_run hI hm' hs
  rw [heq] at heq'
  obtain ⟨eN, rfl⟩ := Prod.mk.inj heq'
  obtain rfl := Except.ok.inj eN
  have hrest := hagg
  unfold PTracker.aggregate at hrest
  rw [Act.bind_ok heq] at hrest
  -- the debug check
  have hd : s2.idCounter = ta'.idCounter ∧ s2.transcript = ta'.transcript ∧ s2.comms = ta'.comms ∧ s2.sumClaims = ta'.sumClaims ∧ s2.zeroClaims = ta'.zeroClaims ∧
      PTracker.Inv PTracker.anyR s2 ∧ s2.HasNv agg' N := by
    unfold debugCheck at h2
    by_cases hb : debug = true
    · rw [if_pos hb] at h2
      obtain ⟨e, s2', k1, k2⟩ := Act.bind_eq_ok.1 h2
      obtain ⟨_, rfl⟩ := Prod.mk.inj k2
      obtain ⟨a1, a2, a3, a4, a5⟩ := eff_evaluations agg' _ _ _ k1
      rw [evaluations_run hI' hnv] at k1
      obtain ⟨_, rfl⟩ := Prod.mk.inj k1
      obtain ⟨b1, b2, _⟩ := matSt_spec hI' hnv
      exact ⟨a1, a2, a3, a4, a5, b1, b2.nv _ _ hnv⟩
    · rw [if_neg hb] at h2
      obtain ⟨_, rfl⟩ := Prod.mk.inj h2
      exact ⟨rfl, rfl, rfl, rfl, rfl, hI', hnv⟩
  obtain ⟨d1, d2, d3, d4, d5, hI2, hnv2⟩ := hd
  obtain ⟨vp', v1, _, v2, _⟩ := toArith_spec hI2 hnv2
  beta_reduce at h3v
  rw [v1] at h3v
  obtain rfl := Except.ok.inj h3v
  -- the two sumchecks and openings of the prover
  unfold proveSumcheck at h4
  rcases e4 : sumcheckProve H vp' s2.transcript with e | ⟨pf', tr4⟩ <;> rw [e4] at h4
  · simp at h4
  obtain ⟨k, rfl⟩ := Prod.mk.inj h4
  obtain rfl := Except.ok.inj k
  unfold openBatch at h8
  rcases e8 : (kzgOf H g h T).multiOpen polys ((sortedIds s2.comms).map fun _ => pf'.point) evals tr4 with (_ | _) | ⟨bp', tr5⟩ <;> rw [e8] at h8
  · simp at h8
  · simp at h8
  obtain ⟨k, rfl⟩ := Prod.mk.inj h8
  obtain rfl := Except.ok.inj k
  subst e
  -- the claims of the verifier
  have hids : te.sumClaims.map (·.1) = t.sumClaims.map (·.1) := by rw [q5, List.map_map]; rfl
  set extra := t.idCounter + 2 * t.zeroClaims.length + 2 with hex
  have hlt : ∀ c ∈ te.sumClaims, c.1 < t.idCounter := by
    intro c hc
    have : c.1 ∈ t.sumClaims.map (·.1) := hids ▸ List.mem_map.2 ⟨c, hc, rfl⟩
    obtain ⟨c', hc', e⟩ := List.mem_map.1 this
    obtain ⟨nv, hnv⟩ := hs c' hc'
    rw [← e]
    exact hnv.lt hI
  set f : Nat → F := fun id => if id = extra then 0 else t1.tsum N id with hf
  have hfc : ∀ c ∈ te.sumClaims ++ [(extra, 0)], c.2 = f c.1 := by
    intro c hc
    rcases List.mem_append.1 hc with hc | hc
    · have := hlt c hc
      simp only [hf]
      rw [if_neg (by omega)]
      rw [q5] at hc
      obtain ⟨c0, _, rfl⟩ := List.mem_map.1 hc
      rfl
    · obtain rfl : c = _ := by simpa using hc
      simp [hf]
  have hsum : s.own.sumClaims = te.sumClaims := by
    refine claims_ext f (ht.sums.trans hids.symm) ?_ fun c hc => hfc c (List.mem_append_left _ hc)
    intro c hc
    have h1 := ht.read c hc
    rw [hsp] at h1
    change (claimMap s2.sumClaims).lookup c.1 = some c.2 at h1
    rw [d4, hsc, claimMap_lookup _ f hfc, if_pos] at h1
    · exact (Option.some.inj h1).symm
    rw [List.map_append, hids]
    exact List.mem_append_left _ (ht.sums ▸ List.mem_map.2 ⟨c, hc, rfl⟩)
  have hlev : Level te s := ⟨ht.counter.trans q1.symm, ht.transcript.trans q2.symm, ht.comms.trans q3.symm, hsum, ht.zeros.trans q4.symm⟩
  -- the verifier
  unfold VSt.verifyClaims at hv
  obtain ⟨aggv, u1, w1, hv⟩ := Act.bind_eq_ok.1 hv
  obtain ⟨sub, u2, w2, hv⟩ := Act.bind_eq_ok.1 hv
  obtain ⟨ids, u3, w3, hv⟩ := Act.bind_eq_ok.1 hv
  obtain ⟨w3v, rfl⟩ := Prod.mk.inj w3
  obtain rfl := Except.ok.inj w3v
  obtain ⟨comms, u4, w4, hv⟩ := Act.bind_eq_ok.1 hv
  obtain ⟨w4v, rfl⟩ := Prod.mk.inj w4
  obtain ⟨bpv, u5, w5, hv⟩ := Act.bind_eq_ok.1 hv
  obtain ⟨w5v, rfl⟩ := Prod.mk.inj w5
  obtain ⟨b, u6, w6, hv⟩ := Act.bind_eq_ok.1 hv
  obtain ⟨_, rfl⟩ := Prod.mk.inj hv
  unfold VSt.aggregate at w1
  rw [Act.reads_bind, hsp] at w1
  change (VSt.convertZero H vp'.numVariables >>= _) s = _ at w1
  rw [v2] at w1
  obtain ⟨l1, l2, rfl⟩ := Abreast.rest H N te s _ _ ta' u1 hlev hrest w1
  rw [hsp] at l2
  unfold VSt.checkSumcheck at w2
  rw [l2] at w2
  dsimp only at w2
  rcases ew : sumcheckVerify H _ pf' vp'.maxDegree vp'.numVariables u1.own.transcript with (_ | _) | ⟨sub', trv⟩ <;> rw [ew] at w2
  · simp at w2
  · simp at w2
  obtain ⟨k, rfl⟩ := Prod.mk.inj w2
  obtain rfl := Except.ok.inj k
  rw [l1.transcript, ← d2] at ew
  obtain ⟨_, rfl⟩ := sumcheck_same e4 ew
  unfold VSt.checkBatch at w6
  beta_reduce at w4v w5v w6
  dsimp only at w4v w5v w6
  rw [l2] at w4v w5v w6
  obtain rfl : bpv = bp' := by
    simpa [idx] using w5v.symm
  rcases eb : (kzgOf H g h T).batchVerify comms ((sortedIds s2.comms).map fun _ => sub'.point) bpv trv with e | ⟨b', tr6⟩
  · rw [eb] at w6
    exact absurd (Prod.mk.inj w6).1 (by simp)
  rw [eb] at w6
  obtain ⟨_, rfl⟩ := Prod.mk.inj w6
  have hpl : polys.length = (sortedIds s2.comms).length := aft_mapM_length h6v
  have hcl : comms.length = (sortedIds s2.comms).length := aft_mapM_length w4v
  have hpt : ((sortedIds s2.comms).map fun _ => pf'.point) ≠ [] := by
    intro e0
    have e0' : polys = [] := by
      rw [← List.length_eq_zero_iff, hpl]
      simpa using e0
    rw [e0'] at e8
    change multiOpen H _ [] _ evals trv = _ at e8
    unfold multiOpen at e8
    simp [idx] at e8
  obtain rfl := batch_same hpt (hcl.trans hpl.symm) e8 eb
  exact ⟨⟨l1.counter.trans d1.symm, rfl, l1.comms.trans d3.symm, l1.sums.trans d4.symm, l1.zeros.trans d5.symm⟩, rfl⟩

/-- A proof is compiled only when there are commitments. -/
theorem compile_comms_ne [DecidableEq F] {E : Curve F} {H : Oracle F E.G1} {g : E.G1} {h : E.G2} {T : List F} {debug : Bool} {t t' : PTracker F E.G1}
    {p : CompiledProof F E.G1 (BatchProof E)} (hc : compile debug (kzgOf H g h T) H t = (.ok p, t')) : t.comms ≠ [] := by
  rw [← compile_comms hc]
  unfold compile at hc
  obtain ⟨agg, ta, h1, hc⟩ := Act.bind_eq_ok.1 hc
  obtain ⟨_, s2, h2, hc⟩ := Act.bind_eq_ok.1 hc
  obtain ⟨vp, s3, h3, hc⟩ := Act.bind_eq_ok.1 hc
  obtain ⟨h3v, rfl⟩ := Prod.mk.inj h3
  obtain ⟨pf, s4, h4, hc⟩ := Act.bind_eq_ok.1 hc
  obtain ⟨ids, s5, h5, hc⟩ := Act.bind_eq_ok.1 hc
  obtain ⟨e5, rfl⟩ := Prod.mk.inj h5
  obtain rfl := Except.ok.inj e5
  obtain ⟨polys, s6, h6, hc⟩ := Act.bind_eq_ok.1 hc
  obtain ⟨h6v, rfl⟩ := Prod.mk.inj h6
  obtain ⟨evals, s7, h7, hc⟩ := Act.bind_eq_ok.1 hc
  obtain ⟨h7v, rfl⟩ := Prod.mk.inj h7
  obtain ⟨bp, s8, h8, hc⟩ := Act.bind_eq_ok.1 hc
  obtain ⟨e, rfl⟩ := Prod.mk.inj hc
  have e := Except.ok.inj e
  unfold openBatch at h8
  rcases e8 : (kzgOf H g h T).multiOpen polys ((sortedIds s4.comms).map fun _ => pf.point) evals s4.transcript with (_ | _) | ⟨bp', tr5⟩ <;> rw [e8] at h8
  · simp at h8
  · simp at h8
  obtain ⟨k, rfl⟩ := Prod.mk.inj h8
  subst e
  intro e0
  change s4.comms = [] at e0
  have hpl : polys.length = (sortedIds s4.comms).length := aft_mapM_length h6v
  have e0' : polys = [] := by
    rw [← List.length_eq_zero_iff, hpl, e0]
    rfl
  rw [e0'] at e8
  change multiOpen H _ [] _ evals s4.transcript = _ at e8
  unfold multiOpen at e8
  simp [idx] at e8

/-- A compiled proof carries the commitments and a value for every claimed sum. -/
theorem compile_carries [DecidableEq F] {E : Curve F} {H : Oracle F E.G1} {g : E.G1} {h : E.G2} {T : List F} {debug : Bool} {R : Mle F → E.G1 → Prop}
    {t t' : PTracker F E.G1} {p : CompiledProof F E.G1 (BatchProof E)} (hI : t.Inv R)
    (hne : t.transcript.isEmpty = false) (hs : ∀ c ∈ t.sumClaims, ∃ nv, t.HasNv c.1 nv) (hz : ∀ c ∈ t.zeroClaims, ∃ nv, t.HasNv c nv)
    (hc : compile debug (kzgOf H g h T) H t = (.ok p, t')) : Carries p t := by
  refine ⟨fun id c hid => by rw [compile_comms hc]; exact hid, ?_⟩
  unfold compile at hc
  obtain ⟨agg, ta, h1, hc⟩ := Act.bind_eq_ok.1 hc
  obtain ⟨_, s2, h2, hc⟩ := Act.bind_eq_ok.1 hc
  obtain ⟨vp, s3, h3, hc⟩ := Act.bind_eq_ok.1 hc
  obtain ⟨h3v, rfl⟩ := Prod.mk.inj h3
  obtain ⟨pf, s4, h4, hc⟩ := Act.bind_eq_ok.1 hc
  obtain ⟨ids, s5, h5, hc⟩ := Act.bind_eq_ok.1 hc
  obtain ⟨e5, rfl⟩ := Prod.mk.inj h5
  obtain rfl := Except.ok.inj e5
  obtain ⟨polys, s6, h6, hc⟩ := Act.bind_eq_ok.1 hc
  obtain ⟨h6v, rfl⟩ := Prod.mk.inj h6
  obtain ⟨evals, s7, h7, hc⟩ := Act.bind_eq_ok.1 hc
  obtain ⟨h7v, rfl⟩ := Prod.mk.inj h7
  obtain ⟨bp, s8, h8, hc⟩ := Act.bind_eq_ok.1 hc
  obtain ⟨e, rfl⟩ := Prod.mk.inj hc
  have e := Except.ok.inj e
  have hm := aggregate_mats h1
  have hm' : t.mats ≠ [] := by
    obtain ⟨e0, he0, _⟩ := hm
    exact List.ne_nil_of_mem he0
  obtain ⟨N, te, cs, tr1, r, tr2, ds, tr3, agg', ta', hN, heq, _, _, _, _, _, _, _, hagg, hI', hk, _, _, hcm, _, hsc, hnv, _, _, _⟩ := aggregate_run H hI hm hne hs hz
  rw [hagg] at h1
  obtain ⟨k, rfl⟩ := Prod.mk.inj h1
  obtain rfl := Except.ok.inj k
  obtain ⟨N', t1, te', _, _, hE, _, heq', _, hpe, q1, q2, q3, q4, q5, _⟩ := equalize_run hI hm' hs
  rw [heq] at heq'
  obtain ⟨eN, rfl⟩ := Prod.mk.inj heq'
  obtain rfl := Except.ok.inj eN
  have d4 : s2.sumClaims = ta'.sumClaims := by
    unfold debugCheck at h2
    by_cases hb : debug = true
    · rw [if_pos hb] at h2
      obtain ⟨e, s2', k1, k2⟩ := Act.bind_eq_ok.1 h2
      obtain ⟨_, rfl⟩ := Prod.mk.inj k2
      exact (eff_evaluations agg' _ _ _ k1).2.2.2.1
    · rw [if_neg hb] at h2
      obtain ⟨_, rfl⟩ := Prod.mk.inj h2
      rfl
  unfold proveSumcheck at h4
  rcases e4 : sumcheckProve H vp s2.transcript with e | ⟨pf', tr4⟩ <;> rw [e4] at h4
  · simp at h4
  obtain ⟨k, rfl⟩ := Prod.mk.inj h4
  unfold openBatch at h8
  rcases e8 : (kzgOf H g h T).multiOpen polys ((sortedIds s2.comms).map fun _ => pf.point) evals tr4 with (_ | _) | ⟨bp', tr5⟩ <;> rw [e8] at h8
  · simp at h8
  · simp at h8
  obtain ⟨k, rfl⟩ := Prod.mk.inj h8
  subst e
  intro c hcm
  set extra := t.idCounter + 2 * t.zeroClaims.length + 2 with hex
  have hids : te.sumClaims.map (·.1) = t.sumClaims.map (·.1) := by rw [q5, List.map_map]; rfl
  have hlt : ∀ c ∈ te.sumClaims, c.1 < t.idCounter := by
    intro c hc
    have : c.1 ∈ t.sumClaims.map (·.1) := hids ▸ List.mem_map.2 ⟨c, hc, rfl⟩
    obtain ⟨c', hc', e⟩ := List.mem_map.1 this
    obtain ⟨nv, hnv⟩ := hs c' hc'
    rw [← e]
    exact hnv.lt hI
  set f : Nat → F := fun id => if id = extra then 0 else t1.tsum N id with hf
  have hfc : ∀ c ∈ te.sumClaims ++ [(extra, 0)], c.2 = f c.1 := by
    intro c hc
    rcases List.mem_append.1 hc with hc | hc
    · have := hlt c hc
      simp only [hf]
      rw [if_neg (by omega)]
      rw [q5] at hc
      obtain ⟨c0, _, rfl⟩ := List.mem_map.1 hc
      rfl
    · obtain rfl : c = _ := by simpa using hc
      simp [hf]
  refine ⟨f c.1, ?_⟩
  change (claimMap s2.sumClaims).lookup c.1 = _
  rw [d4, hsc, claimMap_lookup _ f hfc, if_pos]
  rw [List.map_append, hids]
  exact List.mem_append_left _ (List.mem_map.2 ⟨c, hcm, rfl⟩)

end Zksql
