import Verif.Lemmas.ZeroCheck
import Verif.Props.VirtualPoly
/-!
# Properties C16-C26: sumcheck, zerocheck and the transcript

Vocabulary (`partialSum`, `IndivDegree`, `IsRoundPoly`, `IsMessagePoly`, `Accepted`) is in Verif/Spec/SumCheck.lean.  Polynomials are given
by histories of API calls (`Spec.VpHist`) or, for soundness, by any function of bounded individual degree.
-/
set_option linter.unusedSectionVars false
namespace Zksql
open Spec Polynomial
variable {F C : Type} [Field F]

theorem partialSum_congr (f g : List F → F) (n : Nat) (pre : List F) (hpre : pre.length ≤ n)
    (h : ∀ x, x.length = n → f x = g x) : partialSum f n pre = partialSum g n pre := by
  unfold partialSum cubeSum
  apply Finset.sum_congr rfl
  intro i _
  exact h _ (by simp; omega)

/-! ## C16 -/

/-- C16: the honest proof of any polynomial with at least one variable and one product exists; if no challenge is one of the nodes
`0..d` it verifies against the true sum, and the subclaim is the polynomial's value at the proof's point. -/
theorem C16_completeness [DecidableEq F] (heap : Nat → Mle F) (h : VpHist F) (hc : h.Consistent heap) (vp : VirtPoly F)
    (hr : h.run = .ok vp) (hnv : 0 < h.nv) (hd : 0 < vp.maxDegree) (hchar : NatsNonzero F vp.maxDegree)
    (H : Oracle F C) (tr : Transcript F C) :
    ∃ pf tr', sumcheckProve H vp tr = .ok (pf, tr') ∧ pf.point.length = h.nv ∧
      ((∀ c ∈ pf.point, ∀ i ≤ vp.maxDegree, c ≠ (i : F)) →
        sumcheckVerify H (cubeSum h.nv fun i => h.value (boolPt h.nv i)) pf vp.maxDegree h.nv tr =
          .ok (⟨pf.point, h.value pf.point⟩, tr')) := by
  obtain ⟨h1, h2, h3⟩ := VpHist_run_inv heap h hc vp hr
  have hp := sumcheckProve_ok h1 hchar (by omega) H tr
  refine ⟨_, _, hp, ?_, ?_⟩
  · simp only [roundChals_length, honestMsgs_length, h2]
  · intro havoid
    have hv := sumcheck_complete_inv h1 hchar hd (by omega) H tr _ _ hp havoid
    rw [← h2, ← h3]
    rw [← hv]
    congr 1
    unfold partialSum
    simp only [List.length_nil, Nat.sub_zero, List.nil_append]
    congr 1
    funext i
    rw [h3]

/-- C16: `extract_sum` of the honest proof is the true sum. -/
theorem C16_extract_sum (heap : Nat → Mle F) (h : VpHist F) (hc : h.Consistent heap) (vp : VirtPoly F)
    (hr : h.run = .ok vp) (hnv : 0 < h.nv) (hd : 0 < vp.maxDegree) (hchar : NatsNonzero F vp.maxDegree)
    (H : Oracle F C) (tr tr' : Transcript F C) (pf : IOPProof F) (hp : sumcheckProve H vp tr = .ok (pf, tr')) :
    extractSum pf = .ok (cubeSum h.nv fun i => h.value (boolPt h.nv i)) := by
  obtain ⟨h1, h2, h3⟩ := VpHist_run_inv heap h hc vp hr
  have hp' := sumcheckProve_ok h1 hchar (by omega) H tr
  simp only at hp'
  rw [hp'] at hp
  injection hp with hp
  injection hp with e1 _
  subst e1
  obtain ⟨k, hk⟩ : ∃ k, vp.numVariables = k + 1 := ⟨vp.numVariables - 1, by omega⟩
  have hm0 : idx (honestMsgs H vp.polyVal vp.numVariables vp.maxDegree vp.numVariables []
      (tr.append "aux info" (.aux vp.maxDegree vp.numVariables))) 0 =
      .ok (honestMsg vp.polyVal vp.numVariables vp.maxDegree []) := by
    conv_lhs => rw [hk]
    simp only [honestMsgs]
    rw [hk]
    rfl
  have hent : ∀ t ≤ vp.maxDegree, idx (honestMsg vp.polyVal vp.numVariables vp.maxDegree []) t =
      .ok (partialSum vp.polyVal vp.numVariables [(t : F)]) := by
    intro t ht
    rw [honestMsg, idx, List.getElem?_map, List.getElem?_range (by omega)]
    simp
  simp only [extractSum, hm0, ok_bind, hent 0 (by omega), hent 1 (by omega)]
  have hs := partialSum_step vp.polyVal vp.numVariables [] (by simp; omega)
  simp only [List.nil_append] at hs
  rw [Nat.cast_zero, Nat.cast_one, ← hs]
  unfold partialSum
  simp only [List.length_nil, Nat.sub_zero, List.nil_append, h2]
  congr 2
  funext i
  rw [h3]

/-- The oracle that always answers 5, which is not a node of the example polynomial of degree 4. -/
def exOracle : Oracle (ZMod 7) Nat := fun _ _ => 5

theorem exHist_consistent : exHist.Consistent exHeap := by
  simp [exHist, VpHist.Consistent, exHeap, Mle.WF]

theorem natsNonzero_seven : NatsNonzero (ZMod 7) 4 := by
  intro i h1 h2
  have : i = 1 ∨ i = 2 ∨ i = 3 ∨ i = 4 := by omega
  rcases this with rfl | rfl | rfl | rfl <;> decide

example : (exHist.run.bind fun vp => sumcheckProve exOracle vp (Transcript.new "t")).toOption.map (fun r => r.1.point) = some [5] ∧
    exHist.run.toOption.map (·.maxDegree) = some 4 ∧ 0 < exHist.nv := by decide +kernel

/-! ## C17 -/

/-- A run of the interactive verifier: each round the prover, seeing the challenges so far, sends a message and the verifier
records it together with a fresh challenge. -/
def interact (P : List F → List F) : VerifierState F → List F → VerifierState F
  | st, [] => st
  | st, c :: cs => interact P (st.push (P st.challenges) c) cs

theorem interact_eq (P : List F → List F) (d n : Nat) (cs : List F) (i : Nat) (hi : i + cs.length = n) (hpos : cs ≠ [])
    (ms : List (List F)) (pre : List F) :
    interact P ⟨i + 1, n, d, false, ms, pre⟩ cs = ⟨n, n, d, true, ms ++ stratMsgs P pre cs, pre ++ cs⟩ := by
  induction cs generalizing i ms pre with
  | nil => exact absurd rfl hpos
  | cons c cs ih =>
    rw [interact, stratMsgs]
    simp only [List.length_cons] at hi
    by_cases h0 : cs = []
    · subst h0
      simp only [List.length_nil] at hi
      have : i + 1 = n := by omega
      simp [VerifierState.push, interact, stratMsgs, this]
    · have hl : 0 < cs.length := List.length_pos_iff.2 h0
      have hne : ¬ (i + 1 = n) := by omega
      simp only [VerifierState.push, hne, if_false]
      rw [ih (i + 1) (by omega) h0]
      simp

theorem stratMsgs_length (P : List F → List F) (pre cs : List F) : (stratMsgs P pre cs).length = cs.length := by
  induction cs generalizing pre with
  | nil => rfl
  | cons c cs ih => simp [stratMsgs, ih]

/-- C17: if the claimed sum is wrong then, whatever the prover's strategy, at most `n d |F|^(n-1)` of the `|F|^n` challenge vectors
lead the verifier to a subclaim that is true of the polynomial. -/
theorem C17_soundness [Fintype F] [DecidableEq F] (f : List F → F) (n d : Nat) (hn : 0 < n) (hd : 0 < d)
    (hf : IndivDegree f n d) (hchar : NatsNonzero F d) (claim : F)
    (hfalse : claim ≠ cubeSum n fun i => f (boolPt n i)) (P : List F → List F) :
    (Finset.univ.filter fun r : Fin n → F =>
      ∃ v, checkAndGenerateSubclaim (interact P (verifierInit d n) (List.ofFn r)) claim = .ok ⟨List.ofFn r, v⟩ ∧
        f (List.ofFn r) = v).card ≤ n * d * Fintype.card F ^ (n - 1) := by
  classical
  have hfalse' : claim ≠ partialSum f n [] := by simpa [partialSum] using hfalse
  refine le_trans (le_of_eq ?_) (sumcheck_count (good := fun r => ∃ v, checkAndGenerateSubclaim (interact P (verifierInit d n) (List.ofFn r)) claim = .ok ⟨List.ofFn r, v⟩ ∧
        f (List.ofFn r) = v) hchar hf P n [] (by simp) claim hfalse' ?_)
  · congr
  · rintro r ⟨v, hv, rfl⟩
    have hne : List.ofFn r ≠ [] := by
      intro h0
      have := congrArg List.length h0
      simp at this; omega
    rw [verifierInit, interact_eq P d n (List.ofFn r) 0 (by simp) hne] at hv
    simp only [List.nil_append] at hv
    have := (check_iff hd hchar (stratMsgs P [] (List.ofFn r)) (List.ofFn r) (by simp [stratMsgs_length]) (by simp) n claim _).1 hv
    simpa using this.2.2

/-- C17, for the verifier as it runs with the transcript: every accepted false claim whose subclaim is true of the polynomial has a round
`k` in which two distinct polynomials of degree at most `d`, the one sent and the true one, agree at the challenge. -/
theorem C17_bad_round [DecidableEq F] (f : List F → F) (n d : Nat) (hd : 0 < d)
    (hf : IndivDegree f n d) (hchar : NatsNonzero F d) (claim : F)
    (hfalse : claim ≠ cubeSum n fun i => f (boolPt n i)) (H : Oracle F C) (pf : IOPProof F) (tr tr' : Transcript F C)
    (sub : SubClaim F) (hv : sumcheckVerify H claim pf d n tr = .ok (sub, tr'))
    (htrue : f sub.point = sub.expectedEvaluation) :
    ∃ k m c q g, pf.proofs[k]? = some m ∧ sub.point[k]? = some c ∧ IsMessagePoly d m q ∧
      IsRoundPoly f n d (sub.point.take k) g ∧ q ≠ g ∧ q.eval c = g.eval c := by
  have hfalse' : claim ≠ partialSum f n [] := by simpa [partialSum] using hfalse
  obtain ⟨hn, hlen, h1, h2, h3, h4⟩ := (sumcheckVerify_iff H claim pf d n hd hchar tr tr' sub).1 hv
  rw [← h1] at h4
  have hpl : sub.point.length = n := by rw [h1, roundChals_length]; simp [hlen]
  rw [← htrue] at h4
  obtain ⟨k, m, c, q, g, a1, a2, a3, a4, a5, a6⟩ := accepted_bad_round hf _ sub.point [] (by simpa using hpl) claim (by simpa using h4) hfalse'
  refine ⟨k, m, c, q, g, ?_, a2, a3, by simpa using a4, a5, a6⟩
  rw [List.getElem?_take] at a1
  split at a1
  · exact a1
  · cases a1

/-- C17 applies to every polynomial built through the API. -/
theorem C17_applies (heap : Nat → Mle F) (h : VpHist F) (hc : h.Consistent heap) (vp : VirtPoly F)
    (hr : h.run = .ok vp) : IndivDegree h.value h.nv vp.maxDegree := by
  obtain ⟨h1, _, h3⟩ := VpHist_run_inv heap h hc vp hr
  have : h.value = vp.polyVal := funext fun pt => (h3 pt).symm
  rw [this]
  exact indivDegree_polyVal vp h1.deg_ok _

/-- A cheating prover against `f(x, y) = x y` over `ZMod 7` with claim 2 (the sum is 1), degree 1: when the first challenge is 2 the
lie survives, so the bound is not vacuous. -/
example : ∃ v, checkAndGenerateSubclaim (interact (F := ZMod 7) (fun pre => if pre = [] then [3, 6] else [0, pre.getD 0 0])
    (verifierInit 1 2) [2, 3]) 2 = .ok ⟨[2, 3], v⟩ ∧ (2 : ZMod 7) * 3 = v := by decide +kernel

/-! ## C18 -/

/-- C18: exactly which proofs the verifier accepts.  With enough messages the transcript determines `n` challenges, and the verifier accepts
with final value `v` exactly if no challenge is a node and the messages, all of `d + 1` entries, are consistent with the running claim
from the claimed sum down to `v`. -/
theorem C18_accepts_iff [DecidableEq F] (H : Oracle F C) (pf : IOPProof F) (d n : Nat) (hd : 0 < d)
    (hchar : NatsNonzero F d) (tr : Transcript F C) (hn : 0 < n) (hlen : n ≤ pf.proofs.length) :
    ∃ point tr', point.length = n ∧ ∀ claim sub tr'', sumcheckVerify H claim pf d n tr = .ok (sub, tr'') ↔
      sub.point = point ∧ tr'' = tr' ∧ (∀ c ∈ point, ∀ i ≤ d, c ≠ (i : F)) ∧
      Accepted d claim (pf.proofs.take n) point sub.expectedEvaluation := by
  refine ⟨(roundChals H (pf.proofs.take n) (tr.append "aux info" (.aux d n))).1,
    (roundChals H (pf.proofs.take n) (tr.append "aux info" (.aux d n))).2, ?_, fun claim sub tr'' => ?_⟩
  · rw [roundChals_length]; simp [hlen]
  · rw [sumcheckVerify_iff H claim pf d n hd hchar]
    constructor
    · rintro ⟨_, _, h⟩; exact h
    · intro h; exact ⟨hn, hlen, h⟩

/-- C18: nothing else is accepted: no rounds or too few messages. -/
theorem C18_accepts_needs_rounds [DecidableEq F] (H : Oracle F C) (claim : F) (pf : IOPProof F) (d n : Nat) (hd : 0 < d)
    (hchar : NatsNonzero F d) (tr tr' : Transcript F C) (sub : SubClaim F)
    (h : sumcheckVerify H claim pf d n tr = .ok (sub, tr')) : 0 < n ∧ n ≤ pf.proofs.length :=
  let r := (sumcheckVerify_iff H claim pf d n hd hchar tr tr' sub).1 h
  ⟨r.1, r.2.1⟩

/-- C18: a message of the wrong length is rejected, wherever it is. -/
theorem C18_wrong_length [DecidableEq F] (H : Oracle F C) (claim : F) (pf : IOPProof F) (d n : Nat) (hd : 0 < d)
    (hchar : NatsNonzero F d) (tr : Transcript F C) (k : Nat) (m : List F) (hk : k < n) (hm : pf.proofs[k]? = some m)
    (hl : m.length ≠ d + 1) : ∃ e, sumcheckVerify H claim pf d n tr = .error e := by
  rcases h : sumcheckVerify H claim pf d n tr with e | ⟨sub, tr'⟩
  · exact ⟨e, rfl⟩
  · exfalso
    obtain ⟨_, hlen, _, _, _, hacc⟩ := (sumcheckVerify_iff H claim pf d n hd hchar tr tr' sub).1 h
    have hm' : (pf.proofs.take n)[k]? = some m := by rw [List.getElem?_take, if_pos hk, hm]
    revert hacc hm'
    generalize (roundChals H (pf.proofs.take n) (tr.append "aux info" (.aux d n))).1 = cs
    generalize pf.proofs.take n = ms
    clear h hm hk hlen
    intro hacc hm'
    induction ms generalizing k cs claim with
    | nil => simp at hm'
    | cons m' ms ih =>
      cases cs with
      | nil => simp [Accepted] at hacc
      | cons c cs =>
        simp only [Accepted] at hacc
        obtain ⟨q, hq, _, hrest⟩ := hacc
        cases k with
        | zero =>
          obtain rfl : m' = m := by simpa using hm'
          exact hl hq.2.1
        | succ k => exact ih _ k _ hrest (by simpa using hm')

/-- C18: a first round that does not add up to the claim is rejected. -/
theorem C18_wrong_sum [DecidableEq F] (H : Oracle F C) (claim : F) (pf : IOPProof F) (d n : Nat) (hd : 0 < d)
    (hchar : NatsNonzero F d) (tr : Transcript F C) (m : List F) (hm : pf.proofs[0]? = some m)
    (hs : m.getD 0 0 + m.getD 1 0 ≠ claim) : ∃ e, sumcheckVerify H claim pf d n tr = .error e := by
  rcases h : sumcheckVerify H claim pf d n tr with e | ⟨sub, tr'⟩
  · exact ⟨e, rfl⟩
  · exfalso
    obtain ⟨hn, hlen, _, _, _, hacc⟩ := (sumcheckVerify_iff H claim pf d n hd hchar tr tr' sub).1 h
    obtain ⟨ms, hms⟩ : ∃ ms, pf.proofs.take n = m :: ms := by
      obtain ⟨k, rfl⟩ : ∃ k, n = k + 1 := ⟨n - 1, by omega⟩
      cases hp : pf.proofs with
      | nil => rw [hp] at hm; simp at hm
      | cons a l =>
        rw [hp] at hm
        obtain rfl : a = m := by simpa using hm
        exact ⟨l.take k, by simp⟩
    rw [hms] at hacc
    simp only [roundChals, Accepted] at hacc
    obtain ⟨q, hq, hsum, _⟩ := hacc
    apply hs
    rw [← hq.2.2 0 (by omega), ← hq.2.2 1 (by omega), Nat.cast_zero, Nat.cast_one]
    exact hsum

/-- C18: too few messages panic. -/
theorem C18_short_panics [DecidableEq F] (H : Oracle F C) (claim : F) (pf : IOPProof F) (d n : Nat)
    (tr : Transcript F C) (hl : pf.proofs.length < n) : sumcheckVerify H claim pf d n tr = .error .panic := by
  have h1 := verifyLoop_short H pf n d n 0 (by simp) hl (by omega) [] [] (tr.append "aux info" (.aux d n))
  simp only [Nat.zero_add] at h1
  simp only [sumcheckVerify, verifierInit, h1, error_bind]

/-- C18: checking before the last round, or without rounds, is refused; so is any further round afterwards. -/
theorem C18_unfinished [DecidableEq F] (H : Oracle F C) (st : VerifierState F) (claim : F) (msg : List F) (tr : Transcript F C) :
    (st.finished = false → checkAndGenerateSubclaim st claim = .error (.err .invalidVerifier)) ∧
    (st.finished = true → verifyRound H st msg tr = .error (.err .invalidVerifier)) ∧
    (st.polynomialsReceived.length ≠ st.numVars → checkAndGenerateSubclaim st claim = .error (.err .invalidVerifier)) := by
  refine ⟨fun h => by simp [checkAndGenerateSubclaim, h], fun h => by simp [verifyRound, h], fun h => ?_⟩
  simp [checkAndGenerateSubclaim, h]

example : sumcheckVerify exOracle (3 : ZMod 7) ⟨[], [[1, 2]]⟩ 1 1 (Transcript.new "t") =
    .ok (⟨[5], 6⟩, ⟨"t", [.absorb "aux info" (.aux 1 1), .absorb "prover msg" (.elems [1, 2]), .squeeze "Internal round",
      .absorb "Internal round" (.elem 5)], false⟩) := by decide +kernel

/-! ## C19, C20 -/

/-- C19: outside the nodes the code computes the value of the unique polynomial of degree at most `d` through the message, for every
message length: in particular the 64- and 128-bit branches never overflow. -/
theorem C19_interpolation [DecidableEq F] (d : Nat) (hchar : NatsNonzero F d) (msg : List F) (hl : msg.length = d + 1) (x : F)
    (hx : ∀ i ≤ d, x ≠ (i : F)) :
    ∃! q : F[X], IsMessagePoly d msg q ∧ interpolateUniPoly msg x = .ok (q.eval x) := by
  obtain ⟨q, hq⟩ := exists_messagePoly hchar msg hl
  refine ⟨q, ⟨hq, (interpolate_iff hchar hq x _).2 ⟨hx, rfl⟩⟩, ?_⟩
  rintro q' ⟨hq', _⟩
  exact messagePoly_unique hchar hq' hq

example : interpolateUniPoly ([1, 3, 0] : List (ZMod 7)) 4 = .ok 0 ∧ NatsNonzero (ZMod 7) 2 :=
  ⟨by decide +kernel, natsNonzero_seven.mono (by omega)⟩

/-- C20 as stated: interpolation returns for every challenge. -/
def C20_statement (F : Type) [Field F] [DecidableEq F] : Prop :=
  ∀ (msg : List F) (x : F), msg ≠ [] → NatsNonzero F (msg.length - 1) → ∃ v, interpolateUniPoly msg x = .ok v

/-- C20 is false of the code, over every field: a challenge equal to one of the nodes divides by zero. -/
theorem C20_violated [DecidableEq F] : ¬ C20_statement F := by
  intro h
  obtain ⟨v, hv⟩ := h [0] 0 (by simp) (by intro i h1 h2; simp at h2; omega)
  have := interpolateUniPoly_node ([0] : List F) 0 (by simp)
  rw [Nat.cast_zero] at this
  rw [this] at hv
  cases hv

/-- C20: exactly the challenges at a node panic. -/
theorem C20_total_off_nodes_partial [DecidableEq F] (msg : List F) (x : F) (hne : msg ≠ [])
    (hchar : NatsNonzero F (msg.length - 1)) :
    ((∃ v, interpolateUniPoly msg x = .ok v) ↔ ∀ i < msg.length, x ≠ (i : F)) ∧
    (∀ i < msg.length, interpolateUniPoly msg (i : F) = .error .panic) := by
  have hpos : 0 < msg.length := List.length_pos_iff.2 hne
  refine ⟨?_, fun i hi => interpolateUniPoly_node msg i hi⟩
  obtain ⟨q, hq⟩ := exists_messagePoly hchar msg (by omega)
  constructor
  · rintro ⟨v, hv⟩ i hi
    exact ((interpolate_iff hchar hq x v).1 hv).1 i (by omega)
  · intro hx
    exact ⟨q.eval x, (interpolate_iff hchar hq x _).2 ⟨fun i hi => hx i (by omega), rfl⟩⟩

example : interpolateUniPoly ([1, 3, 0] : List (ZMod 7)) 1 = .error .panic := by decide +kernel

/-! ## C21, C22 -/

/-- The prover driven by a list of challenges: one round without challenge, then one per challenge. -/
def proveRounds (st : ProverState F) : Option F → List F → Res (List (List F) × ProverState F)
  | ch, [] => do
    let r ← proveRound st ch
    .ok ([r.1], r.2)
  | ch, c :: cs => do
    let r ← proveRound st ch
    let rest ← proveRounds r.2 (some c) cs
    .ok (r.1 :: rest.1, rest.2)

theorem proveRounds_ok {vp : VirtPoly F} (hn : NatsNonzero F vp.maxDegree)
    (hidx : ∀ p ∈ vp.products, ∀ i ∈ p.2, i < vp.flat.length)
    (hdeg : ∀ p ∈ vp.products, p.2.length ≤ vp.maxDegree) (hne : ∀ p ∈ vp.products, p.2 ≠ [])
    (cs : List F) (st : ProverState F) (ch : Option F) (pre : List F) (h : Ready vp st ch pre)
    (hl : pre.length + cs.length < vp.numVariables) :
    ∃ st', proveRounds st ch cs = .ok ((List.range (cs.length + 1)).map fun k =>
      honestMsg vp.polyVal vp.numVariables vp.maxDegree (pre ++ cs.take k), st') := by
  induction cs generalizing st ch pre with
  | nil =>
    obtain ⟨st1, h1, _, _⟩ := proveRound_ok hn hidx hdeg hne h (by simpa using hl)
    exact ⟨st1, by simp [proveRounds, h1]⟩
  | cons c cs ih =>
    simp only [List.length_cons] at hl
    obtain ⟨st1, h1, hs, hr⟩ := proveRound_ok hn hidx hdeg hne h (by omega)
    obtain ⟨st2, h2⟩ := ih st1 (some c) (pre ++ [c]) ⟨pre, hs, by simp [hr], Or.inr ⟨c, rfl, rfl⟩⟩ (by simp; omega)
    refine ⟨st2, ?_⟩
    simp only [proveRounds, h1, ok_bind, h2]
    congr 2
    rw [List.length_cons, List.range_succ_eq_map (n := cs.length + 1), List.map_cons, List.map_map]
    congr 1
    · simp
    · apply List.map_congr_left
      intro k _
      simp

/-- C21: for every polynomial and every sequence of challenges shorter than the number of variables, the prover's message number `k` has
`d + 1` entries and entry `t` is the sum of the polynomial over the points `(r_1, .., r_k, t, b)`, `b` Boolean. -/
theorem C21_messages_are_partial_sums (heap : Nat → Mle F) (h : VpHist F) (hc : h.Consistent heap) (vp : VirtPoly F)
    (hr : h.run = .ok vp) (hchar : NatsNonzero F vp.maxDegree) (cs : List F) (hl : cs.length < h.nv) :
    ∃ st0 st', proverInit vp = .ok st0 ∧
      proveRounds st0 none cs = .ok ((List.range (cs.length + 1)).map fun k =>
        (List.range (vp.maxDegree + 1)).map fun t : Nat => partialSum h.value h.nv (cs.take k ++ [(t : F)]), st') := by
  obtain ⟨h1, h2, h3⟩ := VpHist_run_inv heap h hc vp hr
  obtain ⟨st0, hi, hready⟩ := proverInit_ok h1 (by omega)
  obtain ⟨st', hst'⟩ := proveRounds_ok hchar h1.idx_ok h1.deg_ok h1.ne_ok cs st0 none [] hready (by simp; omega)
  refine ⟨st0, st', hi, ?_⟩
  rw [hst']
  have : h.value = vp.polyVal := funext fun pt => (h3 pt).symm
  rw [this, ← h2]
  simp [honestMsg]

example : (exHist.run.bind fun vp => (proverInit vp).bind fun st => proveRounds st none []).toOption.map (·.1) =
    some [[(List.range 5).map fun t : Nat => partialSum exHist.value 1 [(t : ZMod 7)]]].head? := by decide +kernel

/-- C22: calls out of order are refused, in every state. -/
theorem C22_refusals (vp : VirtPoly F) (st : ProverState F) (c : F) (ch : Option F) :
    (vp.numVariables = 0 → proverInit vp = .error (.err .invalidParameters)) ∧
    (st.round = 0 → st.poly.numVariables ≠ 0 → proveRound st (some c) = .error (.err .invalidProver)) ∧
    (0 < st.round → proveRound st none = .error (.err .invalidProver)) ∧
    (st.poly.numVariables ≤ st.round → proveRound st ch = .error (.err .invalidProver)) := by
  refine ⟨fun h => by simp [proverInit, h], fun h h0 => ?_, fun h => ?_, fun h => by simp [proveRound, h]⟩
  · unfold proveRound
    rw [if_neg (by omega)]
    simp [takeChallenge, h]
  · unfold proveRound
    split
    · rfl
    · simp [takeChallenge, h]

/-- C22: calls in order succeed, in every round, and the next one past the last is refused. -/
theorem C22_in_order (heap : Nat → Mle F) (h : VpHist F) (hc : h.Consistent heap) (vp : VirtPoly F)
    (hr : h.run = .ok vp) (hchar : NatsNonzero F vp.maxDegree) (cs : List F) :
    ∀ st0, proverInit vp = .ok st0 → ((∃ r, proveRounds st0 none cs = .ok r) ↔ cs.length < h.nv) := by
  intro st0 hi
  obtain ⟨h1, h2, h3⟩ := VpHist_run_inv heap h hc vp hr
  constructor
  · rintro ⟨r, hok⟩
    by_contra hle
    have hround : ∀ (cs : List F) (st : ProverState F) (ch : Option F), st.poly.numVariables ≤ st.round + cs.length →
        ∀ r, proveRounds st ch cs ≠ .ok r := by
      intro cs
      induction cs with
      | nil =>
        intro st ch hs r hok
        simp only [List.length_nil, Nat.add_zero] at hs
        rw [proveRounds, (C22_refusals vp st 0 ch).2.2.2 hs] at hok
        cases hok
      | cons c cs ih =>
        intro st ch hs r hok
        rw [proveRounds] at hok
        rcases hp : proveRound st ch with e | ⟨m, st1⟩
        · rw [hp] at hok; cases hok
        · rw [hp, ok_bind] at hok
          rcases hq : proveRounds st1 (some c) cs with e | r'
          · rw [hq] at hok; cases hok
          · refine ih st1 (some c) ?_ r' hq
            have hst : st1.round = st.round + 1 ∧ st1.poly.numVariables = st.poly.numVariables := by
              unfold proveRound at hp
              split at hp
              · cases hp
              · rcases hE : takeChallenge st ch with e | ⟨a, b⟩
                · rw [hE] at hp; cases hp
                · rw [hE] at hp
                  simp only [ok_bind] at hp
                  rcases hE2 : (st.poly.products.foldlM (init := List.replicate (st.poly.maxDegree + 1) (0 : F)) fun acc cp => do
                    let m ← productMsg st.extrapolationAux st.poly.maxDegree b (2 ^ (st.poly.numVariables - (st.round + 1))) cp
                    (Except.ok ((List.range acc.length).map fun i => acc.getD i 0 + m.getD i 0) : Res (List F))) with e | w
                  · rw [hE2] at hp; cases hp
                  · rw [hE2, ok_bind] at hp
                    injection hp with hp
                    injection hp with _ hp
                    subst hp
                    exact ⟨rfl, rfl⟩
            rw [hst.1, hst.2]
            simp only [List.length_cons] at hs
            omega
    have hst0 : st0.round = 0 ∧ st0.poly = vp := by
      unfold proverInit at hi
      split at hi
      · cases hi
      · injection hi with hi
        subst hi
        exact ⟨rfl, rfl⟩
    exact hround cs st0 none (by rw [hst0.1, hst0.2, h2]; omega) r hok
  · intro hl
    obtain ⟨st0', st', hi', hok⟩ := C21_messages_are_partial_sums heap h hc vp hr hchar cs hl
    rw [hi] at hi'
    injection hi' with hi'
    subst hi'
    exact ⟨_, hok⟩

example : exHist.nv = 1 ∧ ∃ st0, (exHist.run.bind proverInit).toOption = some st0 := ⟨rfl, _, rfl⟩

/-! ## C23 -/

/-- C23: from equal transcripts, verifying an honest proof uses the prover's challenges: the subclaim's point is the proof's point and the
final transcripts are equal.  This holds for every claimed sum and degree bound under which the verifier gets that far. -/
theorem C23_same_challenges [DecidableEq F] (heap : Nat → Mle F) (h : VpHist F) (hc : h.Consistent heap) (vp : VirtPoly F)
    (hr : h.run = .ok vp) (hd : 0 < vp.maxDegree) (hchar : NatsNonzero F vp.maxDegree)
    (H : Oracle F C) (tr trp trv : Transcript F C) (pf : IOPProof F) (hp : sumcheckProve H vp tr = .ok (pf, trp))
    (claim : F) (sub : SubClaim F)
    (hv : sumcheckVerify H claim pf vp.maxDegree vp.numVariables tr = .ok (sub, trv)) :
    sub.point = pf.point ∧ trv = trp := by
  obtain ⟨h1, h2, h3⟩ := VpHist_run_inv heap h hc vp hr
  obtain ⟨hn, hlen, a, b, _⟩ := (sumcheckVerify_iff H claim pf vp.maxDegree vp.numVariables hd hchar tr trv sub).1 hv
  have hp' := sumcheckProve_ok h1 hchar (by omega) H tr
  simp only at hp'
  rw [hp'] at hp
  injection hp with hp
  injection hp with e1 e2
  subst e1; subst e2
  simp only [List.take_of_length_le (honestMsgs_length ..).le] at a b
  exact ⟨a, b⟩

example : (exHist.run.bind fun vp => (sumcheckProve exOracle vp (Transcript.new "t")).bind fun r =>
    sumcheckVerify exOracle (cubeSum 1 fun i => exHist.value (boolPt 1 i)) r.1 4 1 (Transcript.new "t")).toOption.map
      (fun r => (r.1.point, decide (r.1.expectedEvaluation = exHist.value [5]))) = some ([5], true) := by decide +kernel

/-! ## C24, C25 -/

/-- C24: for a polynomial that vanishes on the hypercube the honest zerocheck proof exists; if no challenge is a node and `eq(point, r) ≠ 0`
it verifies and the subclaim is the polynomial's value at the point. -/
theorem C24_zerocheck_completeness [DecidableEq F] (heap : Nat → Mle F) (h : VpHist F) (hc : h.Consistent heap) (vp : VirtPoly F)
    (hr : h.run = .ok vp) (hnv : 0 < h.nv) (hchar : NatsNonzero F (vp.maxDegree + 1))
    (hzero : ∀ i < 2 ^ h.nv, h.value (boolPt h.nv i) = 0)
    (fresh : Nat) (hf : ∀ a ∈ vp.flat, a.ptr ≠ fresh) (H : Oracle F C) (tr : Transcript F C) (hne : tr.isEmpty = false) :
    ∃ pf r tr', zerocheckProve H vp fresh tr = .ok (pf, tr') ∧
      (∃ tr1, tr.challenges H "0check r" h.nv = .ok (r, tr1)) ∧
      ((∀ c ∈ pf.point, ∀ i ≤ vp.maxDegree + 1, c ≠ (i : F)) → eqPoly pf.point r ≠ 0 →
        zerocheckVerify H pf vp.maxDegree h.nv tr = .ok (⟨pf.point, h.value pf.point, r⟩, tr')) := by
  obtain ⟨h1, h2, h3⟩ := VpHist_run_inv heap h hc vp hr
  obtain ⟨pf, r, tr', a, b, _, _, e⟩ := zerocheck_complete_inv h1 hchar (by omega)
    (fun i hi => by rw [h3, h2]; exact hzero i (by rwa [h2] at hi)) H tr hne fresh hf
  rw [h2, h3] at e
  rw [h2] at b
  exact ⟨pf, r, tr', a, b, e⟩

/-- C24: the zerocheck of a polynomial on a fresh transcript is refused. -/
theorem C24_empty_transcript (H : Oracle F C) (vp : VirtPoly F) (fresh : Nat) (tr : Transcript F C) (hne : tr.isEmpty = true) :
    zerocheckProve H vp fresh tr = .error (.err .invalidTranscript) := by
  simp [zerocheckProve, Transcript.challenges, hne]

/-- `(x - a)(a)` with tables `[0, 3]` and `[5, 0]`: vanishes on the hypercube without being zero. -/
def exZero : VpHist (ZMod 7) := .addList (.empty 1) [⟨0, ⟨1, [0, 3]⟩⟩, ⟨1, ⟨1, [5, 0]⟩⟩] 1

example : (∀ i < 2 ^ exZero.nv, exZero.value (boolPt 1 i) = 0) ∧ exZero.value [2] ≠ 0 ∧
    (exZero.run.bind fun vp =>
      let tr : Transcript (ZMod 7) Nat := (Transcript.new "t").append "a" (.bytes [])
      (zerocheckProve exOracle vp 9 tr).bind fun r => zerocheckVerify exOracle r.1 2 1 tr).toOption.map (·.1) =
      some ⟨[5], exZero.value [5], [5]⟩ := by decide +kernel

/-- C25: if a polynomial does not vanish on the hypercube, at most `n |F|^(n-1)` of the `|F|^n` vectors `r` make the `eq(., r)`-weighted sum
zero. -/
theorem C25_zerocheck_soundness [Fintype F] [DecidableEq F] (f : List F → F) (n : Nat)
    (hne : ∃ i < 2 ^ n, f (boolPt n i) ≠ 0) :
    (Finset.univ.filter fun r : Fin n → F =>
      cubeSum n (fun i => f (boolPt n i) * eqPoly (boolPt n i) (List.ofFn r)) = 0).card ≤ n * Fintype.card F ^ (n - 1) := by
  have : (fun r : Fin n → F => cubeSum n (fun i => f (boolPt n i) * eqPoly (boolPt n i) (List.ofFn r)) = 0) =
      fun r : Fin n → F => mle (fun i => f (boolPt n i)) (List.ofFn r) = 0 := by
    funext r
    rw [cubeSum_eqPoly n f _ (by simp)]
  simp only [this]
  exact mle_zero_count n _ hne

theorem indivDegree_mul_eq (f : List F → F) (n d : Nat) (hf : IndivDegree f n d) (r : List F) :
    IndivDegree (fun x => f x * mle (eqWeight r) x) n (d + 1) := by
  intro a b hab
  obtain ⟨q, hq, hqe⟩ := hf a b hab
  obtain ⟨q', hq', hqe'⟩ := indivDegree_mle (eqWeight r) n a b hab
  refine ⟨q * q', ?_, fun x => by rw [eval_mul, ← hqe, ← hqe']⟩
  exact natDegree_mul_le.trans (by omega)

/-- C25, for the verifier as it runs with the transcript: if it accepts and the subclaim is true of a polynomial that does not vanish on
the hypercube, then the drawn `r` is one of the few that cancel the sum, or some round's challenge is one of the at most `d + 1` points
where two distinct polynomials agree. -/
theorem C25_zerocheck_bad_event [DecidableEq F] (f : List F → F) (n d : Nat)
    (hf : IndivDegree f n d) (hchar : NatsNonzero F (d + 1)) (H : Oracle F C) (pf : IOPProof F) (tr tr' : Transcript F C)
    (sub : ZeroSubClaim F) (hv : zerocheckVerify H pf d n tr = .ok (sub, tr'))
    (htrue : f sub.point = sub.expectedEvaluation) :
    sub.initChallenge.length = n ∧
    (cubeSum n (fun i => f (boolPt n i) * eqPoly (boolPt n i) sub.initChallenge) = 0 ∨
     ∃ k m c q g, pf.proofs[k]? = some m ∧ sub.point[k]? = some c ∧ IsMessagePoly (d + 1) m q ∧
      IsRoundPoly (fun x => f x * mle (eqWeight sub.initChallenge) x) n (d + 1) (sub.point.take k) g ∧ q ≠ g ∧ q.eval c = g.eval c) := by
  unfold zerocheckVerify at hv
  rcases h0 : idx pf.proofs 0 with e | m0
  · rw [h0] at hv; cases hv
  rw [h0, ok_bind] at hv
  rcases h1 : idx m0 0 with e | a
  · rw [h1] at hv; cases hv
  rw [h1, ok_bind] at hv
  rcases h2 : idx m0 1 with e | b
  · rw [h2] at hv; cases hv
  rw [h2, ok_bind] at hv
  split at hv
  · cases hv
  by_cases hemp : tr.isEmpty = true
  · simp [Transcript.challenges, hemp] at hv
  have hemp' : tr.isEmpty = false := by simpa using hemp
  obtain ⟨r, tr1, hr, hrl, _⟩ := challenges_ok H "0check r" n tr hemp'
  simp only [hr, ok_bind] at hv
  rcases hs : sumcheckVerify H 0 pf (d + 1) n tr1 with e | ⟨s, tr2⟩
  · rw [hs] at hv; cases hv
  simp only [hs, ok_bind] at hv
  obtain ⟨hn, hlen, p1, p2, p3, p4⟩ := (sumcheckVerify_iff H 0 pf (d + 1) n (by omega) hchar tr1 tr2 s).1 hs
  have hpl : s.point.length = n := by rw [p1, roundChals_length]; simp [hlen]
  rw [eqEval_eq _ _ (by rw [hpl, hrl]), ok_bind] at hv
  unfold fdiv at hv
  split at hv
  · cases hv
  next heq =>
  rw [ok_bind] at hv
  injection hv with hv
  injection hv with e1 e2
  subst e1
  simp only at htrue ⊢
  refine ⟨hrl, ?_⟩
  by_cases hz : cubeSum n (fun i => f (boolPt n i) * eqPoly (boolPt n i) r) = 0
  · exact Or.inl hz
  · right
    apply C17_bad_round _ n (d + 1) (by omega) (indivDegree_mul_eq f n d hf r) hchar 0 ?_ H pf tr1 tr2 s hs
    · rw [htrue, mle_eqWeight r _ (by rw [hpl, hrl]), div_mul_cancel₀ _ heq]
    · intro h
      apply hz
      rw [h]
      unfold cubeSum
      apply Finset.sum_congr rfl
      intro i _
      beta_reduce
      rw [mle_eqWeight r _ (by simp [hrl])]

example : ∃ i < 2 ^ 2, (fun pt : List (ZMod 7) => pt.getD 0 0 * pt.getD 1 0) (boolPt 2 i) ≠ 0 := ⟨3, by decide, by decide⟩

/-! ## C26 -/

/-- An operation on a transcript. -/
inductive TOp (F C : Type) where
  | append (label : String) (d : TItem F C)
  | challenge (label : String)
  | challenges (label : String) (len : Nat)

/-- Running operations; the answers are the challenges obtained. -/
def TOp.run (H : Oracle F C) : List (TOp F C) → Transcript F C → Res (List F × Transcript F C)
  | [], tr => .ok ([], tr)
  | .append l d :: ops, tr => TOp.run H ops (tr.append l d)
  | .challenge l :: ops, tr => do
    let (c, tr) ← tr.challenge H l
    let (cs, tr) ← TOp.run H ops tr
    .ok (c :: cs, tr)
  | .challenges l n :: ops, tr => do
    let (c, tr) ← tr.challenges H l n
    let (cs, tr) ← TOp.run H ops tr
    .ok (c ++ cs, tr)

/-- C26: a challenge is refused exactly while nothing has been appended. -/
theorem C26_refused_iff_empty (H : Oracle F C) (ops : List (TOp F C)) (name : String) (cs : List F) (tr : Transcript F C)
    (hr : TOp.run H ops (Transcript.new name) = .ok (cs, tr)) (label : String) (n : Nat) :
    (tr.challenge H label = .error (.err .invalidTranscript) ↔ tr.events = []) ∧
    (tr.challenges H label n = .error (.err .invalidTranscript) ↔ tr.events = []) := by
  have inv : ∀ (ops : List (TOp F C)) (t : Transcript F C), (t.isEmpty = true ↔ t.events = []) → ∀ cs tr, TOp.run H ops t = .ok (cs, tr) →
      (tr.isEmpty = true ↔ tr.events = []) := by
    intro ops
    induction ops with
    | nil => intro t ht cs tr h; cases h; exact ht
    | cons op ops ih =>
      intro t ht cs tr h
      cases op with
      | append l d => exact ih _ (by simp [Transcript.append]) _ _ h
      | challenge l =>
        rw [TOp.run] at h
        by_cases he : t.isEmpty = true
        · simp [Transcript.challenge, he] at h
        · rw [challenge_ok H t l (by simpa using he)] at h
          simp only [ok_bind] at h
          rcases hx : TOp.run H ops (chalStep H t l).2 with e | ⟨a, b⟩
          · rw [hx] at h; cases h
          · rw [hx] at h
            cases h
            exact ih _ (by simp [chalStep, Transcript.append]) _ _ hx
      | challenges l n =>
        rw [TOp.run] at h
        by_cases he : t.isEmpty = true
        · simp [Transcript.challenges, he] at h
        · have he' : t.isEmpty = false := by simpa using he
          have hloop : ∀ n (t : Transcript F C), t.isEmpty = false → t.events ≠ [] → ∀ c t', t.challengeLoop H l n = .ok (c, t') →
              t'.isEmpty = false ∧ t'.events ≠ [] := by
            intro n
            induction n with
            | zero => intro t h1 h2 c t' h; cases h; exact ⟨h1, h2⟩
            | succ n ihn =>
              intro t h1 h2 c t' h
              simp only [Transcript.challengeLoop, challenge_ok H t l h1, ok_bind] at h
              rcases hx : Transcript.challengeLoop H (chalStep H t l).2 l n with e | ⟨a, b⟩
              · rw [hx] at h; cases h
              · rw [hx] at h
                cases h
                exact ihn _ rfl (by simp [chalStep, Transcript.append]) _ _ hx
          obtain ⟨r, t', hok, _, _⟩ := challenges_ok H l n t he'
          rw [hok] at h
          simp only [ok_bind] at h
          rcases hx : TOp.run H ops t' with e | ⟨a, b⟩
          · rw [hx] at h; cases h
          · rw [hx] at h
            cases h
            refine ih t' ?_ _ _ hx
            have hne : t.events ≠ [] := fun h0 => he (ht.2 h0)
            have := hloop n t he' hne r t' (by simpa [Transcript.challenges, he'] using hok)
            simp [this.1, this.2]
  have hiff := inv ops (Transcript.new name) (by simp [Transcript.new]) cs tr hr
  constructor
  · rw [← hiff]
    by_cases he : tr.isEmpty = true
    · simp [Transcript.challenge, he]
    · simp [Transcript.challenge, he]
  · rw [← hiff]
    by_cases he : tr.isEmpty = true
    · simp [Transcript.challenges, he]
    · obtain ⟨r, t', hok, _⟩ := challenges_ok H label n tr (by simpa using he)
      rw [hok]
      simp [he]

/-- C26: a challenge is a function of the transcript's name and the ordered labelled history, ending with the request itself, and is
absorbed together with the request. -/
theorem C26_challenge_absorbed (H : Oracle F C) (tr tr' : Transcript F C) (label : String) (c : F)
    (hr : tr.challenge H label = .ok (c, tr')) :
    c = H tr.label (tr.events ++ [.squeeze label]) ∧
      tr'.events = tr.events ++ [.squeeze label, .absorb label (.elem c)] ∧ tr'.label = tr.label := by
  unfold Transcript.challenge at hr
  split at hr
  · cases hr
  · injection hr with hr
    injection hr with h1 h2
    subst h1; subst h2
    simp [Transcript.append]

/-- Number of history entries an operation adds. -/
def TOp.size : TOp F C → Nat
  | .append _ _ => 1
  | .challenge _ => 2
  | .challenges _ n => 2 * n

theorem TOp_run_events (H : Oracle F C) (ops : List (TOp F C)) (t tr : Transcript F C) (cs : List F)
    (hr : TOp.run H ops t = .ok (cs, tr)) :
    ∃ s, tr.events = t.events ++ s ∧ s.length = (ops.map TOp.size).sum := by
  induction ops generalizing t cs with
  | nil => cases hr; exact ⟨[], by simp, rfl⟩
  | cons op ops ih =>
    cases op with
    | append l d =>
      obtain ⟨s, h1, h2⟩ := ih _ _ hr
      exact ⟨.absorb l d :: s, by simp [h1, Transcript.append], by simp [h2, TOp.size, Nat.add_comm]⟩
    | challenge l =>
      rw [TOp.run] at hr
      rcases hc : t.challenge H l with e | ⟨c, t1⟩
      · rw [hc] at hr; cases hr
      rw [hc] at hr
      simp only [ok_bind] at hr
      rcases hx : TOp.run H ops t1 with e | ⟨a, b⟩
      · rw [hx] at hr; cases hr
      rw [hx] at hr
      cases hr
      obtain ⟨s, h1, h2⟩ := ih _ _ hx
      obtain ⟨_, h3, _⟩ := C26_challenge_absorbed H t t1 l c hc
      exact ⟨[.squeeze l, .absorb l (.elem c)] ++ s, by rw [h1, h3]; simp, by simp [h2, TOp.size]; omega⟩
    | challenges l n =>
      rw [TOp.run] at hr
      have hloop : ∀ n (t : Transcript F C) c t', t.challengeLoop H l n = .ok (c, t') →
          ∃ s, t'.events = t.events ++ s ∧ s.length = 2 * n := by
        intro n
        induction n with
        | zero => intro t c t' h; cases h; exact ⟨[], by simp, rfl⟩
        | succ n ihn =>
          intro t c t' h
          rw [Transcript.challengeLoop] at h
          rcases hc : t.challenge H l with e | ⟨c1, t1⟩
          · rw [hc] at h; cases h
          rw [hc] at h
          simp only [ok_bind] at h
          rcases hx : t1.challengeLoop H l n with e | ⟨a, b⟩
          · rw [hx] at h; cases h
          rw [hx] at h
          cases h
          obtain ⟨s, h1, h2⟩ := ihn _ _ _ hx
          obtain ⟨_, h3, _⟩ := C26_challenge_absorbed H t t1 l c1 hc
          exact ⟨[.squeeze l, .absorb l (.elem c1)] ++ s, by rw [h1, h3]; simp, by simp [h2]; omega⟩
      rcases hc : t.challenges H l n with e | ⟨c, t1⟩
      · rw [hc] at hr; cases hr
      rw [hc] at hr
      simp only [ok_bind] at hr
      rcases hx : TOp.run H ops t1 with e | ⟨a, b⟩
      · rw [hx] at hr; cases hr
      rw [hx] at hr
      cases hr
      obtain ⟨s, h1, h2⟩ := ih _ _ hx
      unfold Transcript.challenges at hc
      split at hc
      · cases hc
      obtain ⟨s', h3, h4⟩ := hloop n t c t1 hc
      exact ⟨s' ++ s, by rw [h1, h3]; simp, by simp [h2, h4, TOp.size]⟩

/-- C26: nothing is forgotten: the same operations applied to transcripts with different histories give different histories. -/
theorem C26_nothing_forgotten (H : Oracle F C) (ops : List (TOp F C)) (t₁ t₂ tr₁ tr₂ : Transcript F C) (c₁ c₂ : List F)
    (h₁ : TOp.run H ops t₁ = .ok (c₁, tr₁)) (h₂ : TOp.run H ops t₂ = .ok (c₂, tr₂)) (hne : t₁.events ≠ t₂.events) :
    tr₁.events ≠ tr₂.events := by
  obtain ⟨s₁, e₁, l₁⟩ := TOp_run_events H ops t₁ tr₁ c₁ h₁
  obtain ⟨s₂, e₂, l₂⟩ := TOp_run_events H ops t₂ tr₂ c₂ h₂
  intro h
  rw [e₁, e₂] at h
  exact hne (List.append_inj_left' h (by rw [l₁, l₂]))

/-- C26: answers depend on the name and history only. -/
theorem C26_deterministic (H : Oracle F C) (ops : List (TOp F C)) (t₁ t₂ : Transcript F C)
    (hl : t₁.label = t₂.label) (he : t₁.events = t₂.events) (hE : t₁.isEmpty = t₂.isEmpty) :
    TOp.run H ops t₁ = TOp.run H ops t₂ := by
  obtain ⟨a, b, c⟩ := t₁
  obtain ⟨a', b', c'⟩ := t₂
  simp only at hl he hE
  subst hl; subst he; subst hE
  rfl

example : ∃ cs tr, TOp.run exOracle [.append "a" (.elem 3), .challenge "b", .challenges "c" 2] (Transcript.new "t") = .ok (cs, tr) ∧
    cs = [5, 5, 5] := ⟨_, _, rfl, rfl⟩

end Zksql
