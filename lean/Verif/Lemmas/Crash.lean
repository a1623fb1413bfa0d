import Verif.Lemmas.VerifyRun
import Verif.Lemmas.Forgery
import Verif.Spec.Crash
/-!
Where verification can panic.
-/
set_option linter.unusedSectionVars false
namespace Zksql
open Spec
variable {F C B : Type} [Field F] [DecidableEq F]

theorem Spec.NoPanic.bind {α β : Type} {r : Res α} {f : α → Res β} (h : NoPanic r) (hf : ∀ a, r = .ok a → NoPanic (f a)) : NoPanic (r >>= f) := by
  rcases r with e | a
  · intro hc
    apply h
    rw [error_bind] at hc
    injection hc with hc
    rw [hc]
  · exact hf a rfl

theorem noPanic_ok {α : Type} (a : α) : NoPanic (.ok a : Res α) := by
  intro h
  cases h

theorem noPanic_idx {α : Type} {l : List α} {i : Nat} (h : i < l.length) : NoPanic (idx l i) := by
  unfold idx
  rw [List.getElem?_eq_getElem h]
  exact noPanic_ok _

theorem noPanic_mapM {α β : Type} (f : α → Res β) (l : List α) (h : ∀ a ∈ l, NoPanic (f a)) : NoPanic (l.mapM f) := by
  induction l with
  | nil => exact noPanic_ok _
  | cons a l ih =>
    rw [List.mapM_cons]
    exact (h a List.mem_cons_self).bind fun b _ => (ih fun x hx => h x (List.mem_cons_of_mem _ hx)).bind fun _ _ => noPanic_ok _

theorem noPanic_deferred (ms : List (List F)) (es : List F) (h : ∀ m ∈ ms, 2 ≤ m.length) : NoPanic (deferredChecks ms es) := by
  induction ms generalizing es with
  | nil => exact noPanic_ok _
  | cons m ms ih =>
    cases es with
    | nil => exact noPanic_ok _
    | cons e es =>
      have hm := h m List.mem_cons_self
      show NoPanic (idx m 0 >>= fun a => idx m 1 >>= fun b => if a + b ≠ e then .error (.err .invalidProof) else deferredChecks ms es)
      refine (noPanic_idx (by omega)).bind fun a _ => (noPanic_idx (by omega)).bind fun b _ => ?_
      split
      · intro hc; cases hc
      · exact ih es fun m' hm' => h m' (List.mem_cons_of_mem _ hm')

theorem mapM_ok_all {α β : Type} (f : α → Res β) (l : List α) (r : List β) (h : l.mapM f = .ok r) : ∀ a ∈ l, ∃ b, f a = .ok b := by
  induction l generalizing r with
  | nil => intro a ha; exact (List.not_mem_nil ha).elim
  | cons x l ih =>
    obtain ⟨b, bs, h1, h2, _⟩ := (mapM_cons_ok f x l r).1 h
    intro a ha
    rcases List.mem_cons.1 ha with rfl | ha
    · exact ⟨b, h1⟩
    · exact ih bs h2 a ha

theorem mapM_ok_length {α β : Type} (f : α → Res β) (l : List α) (r : List β) (h : l.mapM f = .ok r) : r.length = l.length := by
  induction l generalizing r with
  | nil =>
    rw [List.mapM_nil] at h
    injection h with h
    subst h; rfl
  | cons x l ih =>
    obtain ⟨b, bs, h1, h2, rfl⟩ := (mapM_cons_ok f x l r).1 h
    simp [ih bs h2]

theorem noPanic_sumcheck (H : Oracle F C) (claim : F) (pf : IOPProof F) (d n : Nat) (hd : 1 ≤ d) (hn : NatsNonzero F d) (tr : Transcript F C)
    (hlen : n ≤ pf.proofs.length) (hav : FutureAvoids H tr d) : NoPanic (sumcheckVerify H claim pf d n tr) := by
  by_cases hn0 : n = 0
  · subst hn0
    intro hc
    simp [sumcheckVerify, verifyLoop, verifierInit, checkAndGenerateSubclaim] at hc
  have h1 := verifyLoop_ok H pf n d n 0 (by simp) (by omega) hlen [] [] (tr.append "aux info" (.aux d n))
  simp only [List.drop_zero, List.nil_append, Nat.zero_add] at h1
  simp only [sumcheckVerify, verifierInit, h1, ok_bind]
  set rc := roundChals H (pf.proofs.take n) (tr.append "aux info" (.aux d n)) with hrc
  have hcl : rc.1.length = n := by rw [hrc, roundChals_length]; simp [hlen]
  refine Spec.NoPanic.bind ?_ fun _ _ => noPanic_ok _
  unfold checkAndGenerateSubclaim
  rw [if_neg (by simp), if_neg (by simp [hlen])]
  refine Spec.NoPanic.bind (noPanic_mapM _ _ ?_) fun ex hex => ?_
  · rintro ⟨m, c⟩ hmc
    have hc : c ∈ rc.1 := (List.of_mem_zip hmc).2
    by_cases hm : m.length = d + 1
    · rw [if_neg (by simp [hm])]
      obtain ⟨q, hq⟩ := exists_messagePoly hn m hm
      have : interpolateUniPoly m c = .ok (q.eval c) := (interpolate_iff hn hq c _).2 ⟨fun i hi => by
        obtain ⟨f1, _, _⟩ := roundChals_from H (pf.proofs.take n) (tr.append "aux info" (.aux d n))
        obtain ⟨evs, e1, rfl⟩ := f1 c hc
        exact hav evs (lt_of_le_of_lt (by simp [Transcript.append]) e1) i hi, rfl⟩
      rw [this]
      exact noPanic_ok _
    · rw [if_pos hm]
      intro hc; cases hc
  · have hall := mapM_ok_all _ _ _ hex
    have hml : ∀ m ∈ pf.proofs.take n, 2 ≤ m.length := by
      intro m hm
      obtain ⟨i, hi, rfl⟩ := List.getElem_of_mem hm
      have hi' : i < rc.1.length := by rw [hcl]; simp at hi; omega
      have hz : (pf.proofs.take n).zip rc.1 = (pf.proofs.take n).zip rc.1 := rfl
      have : ((pf.proofs.take n)[i], rc.1[i]) ∈ (pf.proofs.take n).zip rc.1 := by
        rw [List.mem_iff_getElem]
        exact ⟨i, by simp only [List.length_zip]; omega, by simp⟩
      obtain ⟨b, hb⟩ := hall _ this
      dsimp only at hb
      split at hb
      · cases hb
      · rename_i hne
        have := not_not.1 hne
        omega
    refine Spec.NoPanic.bind (noPanic_deferred _ _ fun m hm => hml m (List.mem_of_mem_take hm)) fun _ _ => ?_
    refine Spec.NoPanic.bind (noPanic_idx ?_) fun _ _ => noPanic_ok _
    have := mapM_ok_length _ _ _ hex
    simp only [List.length_cons, this, List.length_zip, hcl, List.length_take]
    show n < _
    omega

theorem Spec.FutureAvoids.mono {H : Oracle F C} {tr tr' : Transcript F C} {d d' : Nat} (h : FutureAvoids H tr d) (hl : tr'.label = tr.label)
    (he : tr.events.length ≤ tr'.events.length) (hd : d' ≤ d) : FutureAvoids H tr' d' := by
  intro evs hevs i hi
  rw [hl]
  exact h evs (lt_of_le_of_lt he hevs) i (hi.trans hd)

theorem noPanic_eqEval (x y : List F) : NoPanic (eqEval x y) := by
  unfold eqEval
  split
  · intro h; cases h
  · exact noPanic_ok _

theorem noPanic_buildEqVec (r : List F) : NoPanic (buildEqVec r) := by
  by_cases h : r = []
  · subst h
    intro hc
    simp [buildEqVec, buildEqHelper] at hc
  · unfold buildEqVec
    rw [buildEqHelper_spec r h]
    exact noPanic_ok _

theorem buildEqVec_length {r e : List F} (h : buildEqVec r = .ok e) : e.length = 2 ^ r.length := by
  by_cases hr : r = []
  · subst hr
    simp [buildEqVec, buildEqHelper] at h
  · unfold buildEqVec at h
    rw [buildEqHelper_spec r hr] at h
    injection h with h
    subst h
    simp

theorem noPanic_kzgVerify {E : Curve F} (vp : VerifierParam E) (hm : vp.hMask.length = vp.numVars) (c : E.G1) (pt : List F) (v : F) (pf : List E.G1) :
    NoPanic (kzgVerify vp c pt v pf) := by
  unfold kzgVerify
  split
  · intro h; cases h
  · rename_i hlt
    refine Spec.NoPanic.bind (noPanic_mapM _ _ fun i hi => ?_) fun _ _ => noPanic_ok _
    have hi := List.mem_range.1 hi
    exact (noPanic_idx (by omega)).bind fun _ _ => (noPanic_idx hi).bind fun _ _ => noPanic_ok _

theorem noPanic_batch {E : Curve F} (H : Oracle F E.G1) (vp : VerifierParam E) (hm : vp.hMask.length = vp.numVars) (comms : List E.G1) (points : List (List F))
    (hp : points.length = comms.length) (proof : BatchProof E) (he : comms.length ≤ proof.evals.length)
    (hr : proof.sumCheckProof.point.length ≤ proof.sumCheckProof.proofs.length) (hn : NatsNonzero F 2) (tr : Transcript F E.G1) (hav : FutureAvoids H tr 2) :
    NoPanic (batchVerify H vp comms points proof tr) := by
  unfold batchVerify
  have hch : NoPanic (tr.challenges H "t" (log2Ceil comms.length)) := by
    unfold Transcript.challenges
    rcases hne : tr.isEmpty with _ | _
    · obtain ⟨r, tr', h2, _⟩ := challengeLoop_ok H "t" (log2Ceil comms.length) tr hne
      rw [h2]
      exact noPanic_ok _
    · intro hc; cases hc
  refine hch.bind ?_
  rintro ⟨t, tr1⟩ h1
  have hfr := challenges_from _ _ _ _ _ _ h1
  have htl : t.length = log2Ceil comms.length := by
    rcases hne : tr.isEmpty with _ | _
    · obtain ⟨r, tr', h2, h3, _⟩ := challenges_ok H "t" (log2Ceil comms.length) tr hne
      rw [h1] at h2
      obtain ⟨rfl, rfl⟩ := Prod.mk.inj (Except.ok.inj h2)
      exact h3
    · unfold Transcript.challenges at h1
      rw [hne] at h1
      simp at h1
  refine (noPanic_buildEqVec t).bind fun eqT hT => ?_
  have hTl : comms.length ≤ eqT.length := by
    rw [buildEqVec_length hT, htl]
    exact le_two_pow_log2Ceil _
  refine Spec.NoPanic.bind ?_ fun gc _ => Spec.NoPanic.bind (noPanic_mapM _ _ ?_) fun terms _ => ?_
  · unfold gPrimeCommit
    refine Spec.NoPanic.bind (noPanic_mapM _ _ ?_) fun _ _ => noPanic_ok _
    rintro ⟨pt, i⟩ hi
    have hi : i < points.length := by
      have := (List.mem_zipIdx hi).2.1
      omega
    exact (noPanic_eqEval _ _).bind fun _ _ => (noPanic_idx (show i < eqT.length by omega)).bind fun _ _ =>
      (noPanic_idx (show i < comms.length by omega)).bind fun _ _ => noPanic_ok _
  · rintro ⟨x, i⟩ hi
    have hi : i < (eqT.take comms.length).length := by
      have := (List.mem_zipIdx hi).2.1
      omega
    rw [List.length_take] at hi
    exact (noPanic_idx (show i < proof.evals.length by omega)).bind fun _ _ => noPanic_ok _
  · refine Spec.NoPanic.bind ?_ fun st _ => ?_
    · have := noPanic_sumcheck H terms.sum proof.sumCheckProof 2 proof.sumCheckProof.point.length (by decide) hn tr1 hr (hav.mono hfr.1 hfr.2 (le_refl 2))
      rcases hs : sumcheckVerify H terms.sum proof.sumCheckProof 2 proof.sumCheckProof.point.length tr1 with (e | _) | r
      · intro hc; cases hc
      · exact absurd hs this
      · exact noPanic_ok _
    · obtain ⟨sub, tr2⟩ := st
      exact (noPanic_kzgVerify vp hm _ _ _ _).bind fun _ _ => noPanic_ok _

/-- How verification ends, once the claims are folded. -/
theorem verifyClaims_result (pcs : Pcs F C B) (H : Oracle F C) {s s1 : VSt F C B} {agg : Nat} {sm : F} (ha : VSt.aggregate H s = (.ok (agg, sm), s1)) :
    (VSt.verifyClaims pcs H s).1 =
      match sumcheckVerify H sm s1.own.proof.scProof s1.own.proof.scMaxDegree s1.own.proof.scNumVars s1.own.transcript with
      | .error .panic => .error .panic
      | .error (.err _) => .error (.err .invalidVerifier)
      | .ok (sub, tr1) =>
        ((PTracker.sortedIds s1.own.proof.comms).mapM fun id => unwrap (s1.own.matComms.lookup id)) >>= fun comms =>
          idx s1.own.proof.pcsProof 0 >>= fun bp =>
            pcs.batchVerify comms ((PTracker.sortedIds s1.own.proof.comms).map fun _ => sub.point) bp tr1 >>= fun _ => .ok () := by
  unfold VSt.verifyClaims
  rw [Act.bind_ok ha]
  rcases hv : sumcheckVerify H sm s1.own.proof.scProof s1.own.proof.scMaxDegree s1.own.proof.scNumVars s1.own.transcript with (e | _) | ⟨sub, tr1⟩
  · rw [Act.bind_error (e := .err .invalidVerifier)
      (s' := { s1 with own := { s1.own with transcript := sumcheckVerifyTrail H s1.own.proof.scProof s1.own.proof.scMaxDegree s1.own.proof.scNumVars s1.own.transcript } })
      (by unfold VSt.checkSumcheck; rw [hv])]
  · rw [Act.bind_error (e := .panic)
      (s' := { s1 with own := { s1.own with transcript := sumcheckVerifyTrail H s1.own.proof.scProof s1.own.proof.scMaxDegree s1.own.proof.scNumVars s1.own.transcript } })
      (by unfold VSt.checkSumcheck; rw [hv])]
  · rw [Act.bind_ok (a := sub) (s' := { s1 with own := { s1.own with transcript := tr1 } }) (by unfold VSt.checkSumcheck; rw [hv]), Act.reads_bind]
    dsimp only
    rcases h2 : (PTracker.sortedIds s1.own.proof.comms).mapM fun id => unwrap (s1.own.matComms.lookup id) with e | comms
    · rw [Act.bind_error (e := e) (s' := { s1 with own := { s1.own with transcript := tr1 } }) (by rw [Act.reads_run, h2])]
      rfl
    rw [Act.bind_ok (a := comms) (s' := { s1 with own := { s1.own with transcript := tr1 } }) (by rw [Act.reads_run, h2])]
    rcases h3 : idx s1.own.proof.pcsProof 0 with e | bp
    · rw [Act.bind_error (e := e) (s' := { s1 with own := { s1.own with transcript := tr1 } }) (by rw [Act.reads_run, h3])]
      rfl
    rw [Act.bind_ok (a := bp) (s' := { s1 with own := { s1.own with transcript := tr1 } }) (by rw [Act.reads_run, h3])]
    rcases h4 : pcs.batchVerify comms ((PTracker.sortedIds s1.own.proof.comms).map fun _ => sub.point) bp tr1 with e | ⟨b, tr2⟩
    · rw [Act.bind_error (e := e) (s' := { s1 with own := { s1.own with transcript := pcs.checkTrail comms ((PTracker.sortedIds s1.own.proof.comms).map fun _ => sub.point) bp tr1 } })
        (by unfold VSt.checkBatch; rw [h4])]
      simp only [ok_bind, h4, error_bind]
    · rw [Act.bind_ok (a := b) (s' := { s1 with own := { s1.own with transcript := tr2 } }) (by unfold VSt.checkBatch; rw [h4])]
      simp only [ok_bind, h4]
      rfl

/-- Folding the claims does not depend on the proof, except for the number of variables, and leaves the transcript further on. -/
theorem aggregate_reach (H : Oracle F C) {vs : VState F C B} (hinv : VInv vs) (hne : vs.st.own.transcript.isEmpty = false) :
    ∃ agg sm s1, VSt.aggregate H vs.st = (.ok (agg, sm), s1) ∧ s1.own.proof = vs.st.own.proof ∧ s1.own.matComms = vs.st.own.matComms ∧
      s1.own.transcript.isEmpty = false ∧ s1.own.transcript.label = vs.st.own.transcript.label ∧
      vs.st.own.transcript.events.length ≤ s1.own.transcript.events.length := by
  obtain ⟨cs, tr1, r, tr2, ds, tr3, agg, s1, a1, _, a3, _, a5, _, a6, hagg, _, _, _, a8, a9, a10, _, _, _⟩ :=
    VSt.aggregate_run H (s := vs.st) rfl hinv.wf hne hinv.claims.2 hinv.claims.1
  obtain ⟨b1, b2⟩ := challengeLoop_from _ _ _ _ _ _ a1
  obtain ⟨c1, c2⟩ := challenges_from _ _ _ _ _ _ a3
  obtain ⟨d1, d2⟩ := challengeLoop_from _ _ _ _ _ _ a5
  exact ⟨agg, _, s1, hagg, a10, a9, by rw [a8]; exact a6, by rw [a8]; exact d1.trans (c1.trans b1), by rw [a8]; exact b2.trans (c2.trans d2)⟩

/-- The transcript after a sumcheck that checks. -/
theorem sumcheckVerify_tr (H : Oracle F C) (claim : F) (pf : IOPProof F) (d n : Nat) (hd : 1 ≤ d) (hn : NatsNonzero F d) (tr tr' : Transcript F C) (sub : SubClaim F)
    (h : sumcheckVerify H claim pf d n tr = .ok (sub, tr')) : tr'.label = tr.label ∧ tr.events.length ≤ tr'.events.length := by
  obtain ⟨_, _, _, rfl, _⟩ := (sumcheckVerify_iff H claim pf d n hd hn tr tr' sub).1 h
  obtain ⟨_, f2, f3⟩ := roundChals_from H (pf.proofs.take n) (tr.append "aux info" (.aux d n))
  exact ⟨f2, le_trans (by simp [Transcript.append]) f3⟩

/-- The shape of a sumcheck proof that checks. -/
theorem sumcheckVerify_shape (H : Oracle F C) (claim : F) (pf : IOPProof F) (d n : Nat) (tr tr' : Transcript F C) (sub : SubClaim F)
    (h : sumcheckVerify H claim pf d n tr = .ok (sub, tr')) : 0 < n ∧ n ≤ pf.proofs.length ∧ ∀ m ∈ pf.proofs.take n, m.length = d + 1 := by
  have hn0 : n ≠ 0 := by
    rintro rfl
    simp [sumcheckVerify, verifyLoop, verifierInit, checkAndGenerateSubclaim] at h
  have hlen : n ≤ pf.proofs.length := by
    by_contra hc
    have h1 := verifyLoop_short H pf n d n 0 (by simp) (by omega) (by omega) [] [] (tr.append "aux info" (.aux d n))
    simp only [Nat.zero_add] at h1
    simp only [sumcheckVerify, verifierInit, h1, error_bind] at h
    cases h
  refine ⟨by omega, hlen, ?_⟩
  have h1 := verifyLoop_ok H pf n d n 0 (by simp) (by omega) hlen [] [] (tr.append "aux info" (.aux d n))
  simp only [List.drop_zero, List.nil_append, Nat.zero_add] at h1
  simp only [sumcheckVerify, verifierInit, h1, ok_bind] at h
  set rc := roundChals H (pf.proofs.take n) (tr.append "aux info" (.aux d n)) with hrc
  have hcl : rc.1.length = n := by rw [hrc, roundChals_length]; simp [hlen]
  unfold checkAndGenerateSubclaim at h
  rw [if_neg (by simp), if_neg (by simp [hlen])] at h
  rcases hex : ((pf.proofs.take n).zip rc.1).mapM (fun pc => if pc.1.length ≠ d + 1 then (.error (.err .invalidVerifier) : Res F) else interpolateUniPoly pc.1 pc.2)
    with e | ex
  · dsimp only at h
    rw [hex, error_bind, error_bind] at h
    cases h
  · intro m hm
    obtain ⟨i, hi, rfl⟩ := List.getElem_of_mem hm
    have hi' : i < rc.1.length := by rw [hcl]; simp at hi; omega
    have : ((pf.proofs.take n)[i], rc.1[i]) ∈ (pf.proofs.take n).zip rc.1 := by
      rw [List.mem_iff_getElem]
      exact ⟨i, by simp only [List.length_zip]; omega, by simp⟩
    obtain ⟨b, hb⟩ := mapM_ok_all _ _ _ hex _ this
    dsimp only at hb
    split at hb
    · cases hb
    · rename_i hne
      exact not_not.1 hne

theorem onlyPanics_bind {α β : Type} {r : Res α} {f : α → Res β} (h : OnlyPanics r) (hf : ∀ a, OnlyPanics (f a)) : OnlyPanics (r >>= f) := by
  rcases h with ⟨a, rfl⟩ | rfl
  · exact hf a
  · exact Or.inr rfl

theorem onlyPanics_mapM {α β : Type} (f : α → Res β) (l : List α) (h : ∀ a ∈ l, OnlyPanics (f a)) : OnlyPanics (l.mapM f) := by
  induction l with
  | nil => exact Or.inl ⟨_, rfl⟩
  | cons a l ih =>
    rw [List.mapM_cons]
    exact onlyPanics_bind (h a List.mem_cons_self) fun b => onlyPanics_bind (ih fun x hx => h x (List.mem_cons_of_mem _ hx)) fun _ => Or.inl ⟨_, rfl⟩

theorem onlyPanics_interp_one (m : List F) (hm : m.length = 1) (c : F) : OnlyPanics (interpolateUniPoly m c) := by
  have hn : NatsNonzero F 0 := fun i a b => by omega
  obtain ⟨q, hq⟩ := exists_messagePoly hn m hm
  by_cases hc : c = 0
  · refine Or.inr ?_
    have := interpolateUniPoly_node m 0 (by omega)
    rw [Nat.cast_zero] at this
    rw [hc]; exact this
  · exact Or.inl ⟨_, (interpolate_iff hn hq c (q.eval c)).2 ⟨fun i hi => by
      obtain rfl : i = 0 := by omega
      simpa using hc, rfl⟩⟩

/-- A sumcheck of degree 0 with messages of one value. -/
theorem sumcheckVerify_degree_zero (H : Oracle F C) (claim : F) (pf : IOPProof F) (n : Nat) (tr : Transcript F C) (h0 : 0 < n) (hlen : n ≤ pf.proofs.length)
    (hm : ∀ m ∈ pf.proofs.take n, m.length = 1) : sumcheckVerify H claim pf 0 n tr = .error .panic := by
  have h1 := verifyLoop_ok H pf n 0 n 0 (by simp) (by omega) hlen [] [] (tr.append "aux info" (.aux 0 n))
  simp only [List.drop_zero, List.nil_append, Nat.zero_add] at h1
  simp only [sumcheckVerify, verifierInit, h1, ok_bind]
  set rc := roundChals H (pf.proofs.take n) (tr.append "aux info" (.aux 0 n)) with hrc
  have key : checkAndGenerateSubclaim ⟨n, n, 0, true, pf.proofs.take n, rc.1⟩ claim = .error .panic := by
    unfold checkAndGenerateSubclaim
    rw [if_neg (by simp), if_neg (by simp [hlen])]
    have hex : OnlyPanics (((pf.proofs.take n).zip rc.1).mapM
        (fun pc => if pc.1.length ≠ 0 + 1 then (.error (.err .invalidVerifier) : Res F) else interpolateUniPoly pc.1 pc.2)) := by
      refine onlyPanics_mapM _ _ ?_
      rintro ⟨m, c⟩ hmc
      have := hm m (List.of_mem_zip hmc).1
      rw [if_neg (by simp [this])]
      exact onlyPanics_interp_one m this c
    dsimp only
    rcases hex with ⟨ex, hex⟩ | hex
    · rw [hex, ok_bind]
      have : deferredChecks ((pf.proofs.take n).take n) (claim :: ex) = .error .panic := by
        rw [List.take_take, Nat.min_self]
        rcases hp : pf.proofs.take n with _ | ⟨m, ms⟩
        · have := congrArg List.length hp
          rw [List.length_take, List.length_nil] at this
          omega
        · have hml := hm m (by rw [hp]; exact List.mem_cons_self)
          show (idx m 0 >>= fun a => idx m 1 >>= fun b => if a + b ≠ claim then .error (.err .invalidProof) else deferredChecks ms ex) = _
          obtain ⟨x, rfl⟩ := List.length_eq_one_iff.1 hml
          rfl
      rw [this, error_bind]
    · rw [hex, error_bind]
  rw [key, error_bind]

/-- Batch verification of an opening without values. -/
theorem batchVerify_no_values {E : Curve F} (H : Oracle F E.G1) (vp : VerifierParam E) (comms : List E.G1) (points : List (List F)) (proof : BatchProof E)
    (tr tr' : Transcript F E.G1) (b : Bool) (h : batchVerify H vp comms points proof tr = .ok (b, tr')) :
    batchVerify H vp comms points { proof with evals := [] } tr = .error .panic := by
  unfold batchVerify at h ⊢
  dsimp only at h ⊢
  rcases h1 : tr.challenges H "t" (log2Ceil comms.length) with e | ⟨t, tr1⟩
  · rw [h1, error_bind] at h
    cases h
  rw [h1, ok_bind] at h
  rw [ok_bind]
  dsimp only at h ⊢
  rcases h2 : buildEqVec t with e | eqT
  · rw [h2, error_bind] at h
    cases h
  rw [h2, ok_bind] at h
  rw [ok_bind]
  rcases h3 : gPrimeCommit proof.sumCheckProof.point eqT comms points with e | gc
  · rw [h3, error_bind] at h
    cases h
  rw [ok_bind]
  have hk : 1 ≤ comms.length := by
    by_contra hc
    have h0 : comms.length = 0 := by omega
    rw [h0] at h1
    have : t = [] := by
      unfold Transcript.challenges at h1
      split at h1
      · cases h1
      · have : log2Ceil 0 = 0 := rfl
        rw [this] at h1
        simp only [Transcript.challengeLoop] at h1
        injection h1 with h1
        exact (Prod.mk.inj h1).1.symm
    subst this
    simp [buildEqVec, buildEqHelper] at h2
  rcases he : eqT with _ | ⟨x, xs⟩
  · have := buildEqVec_length h2
    rw [he, List.length_nil] at this
    exact absurd this.symm (by positivity)
  · obtain ⟨k, hk⟩ : ∃ k, comms.length = k + 1 := ⟨comms.length - 1, by omega⟩
    rw [hk, List.take_succ_cons, List.zipIdx_cons, List.mapM_cons]
    rfl

/-- Batch verification of an opening without messages. -/
theorem batchVerify_no_messages {E : Curve F} (H : Oracle F E.G1) (vp : VerifierParam E) (comms : List E.G1) (points : List (List F)) (proof : BatchProof E)
    (tr tr' : Transcript F E.G1) (b : Bool) (h : batchVerify H vp comms points proof tr = .ok (b, tr')) :
    batchVerify H vp comms points { proof with sumCheckProof := ⟨proof.sumCheckProof.point, []⟩ } tr = .error .panic := by
  unfold batchVerify at h ⊢
  dsimp only at h ⊢
  rcases h1 : tr.challenges H "t" (log2Ceil comms.length) with e | ⟨t, tr1⟩
  · rw [h1, error_bind] at h
    cases h
  rw [h1, ok_bind] at h
  rw [ok_bind]
  dsimp only at h ⊢
  rcases h2 : buildEqVec t with e | eqT
  · rw [h2, error_bind] at h
    cases h
  rw [h2, ok_bind] at h
  rw [ok_bind]
  rcases h3 : gPrimeCommit proof.sumCheckProof.point eqT comms points with e | gc
  · rw [h3, error_bind] at h
    cases h
  rw [h3, ok_bind] at h
  rw [ok_bind]
  rcases h4 : ((eqT.take comms.length).zipIdx.mapM fun ei => do
    let v ← idx proof.evals ei.2
    Except.ok (ei.1 * v)) with e | terms
  · rw [h4, error_bind] at h
    cases h
  rw [h4, ok_bind] at h
  rw [h4, ok_bind]
  rcases h5 : sumcheckVerify H terms.sum proof.sumCheckProof 2 proof.sumCheckProof.point.length tr1 with (e | _) | ⟨sub, tr2⟩
  · rw [h5] at h
    cases h
  · rw [h5] at h
    cases h
  · obtain ⟨hpos, _, _⟩ := sumcheckVerify_shape H _ _ _ _ _ _ _ h5
    have : sumcheckVerify H terms.sum ⟨proof.sumCheckProof.point, []⟩ 2 proof.sumCheckProof.point.length tr1 = .error .panic := by
      have h1 := verifyLoop_short H (⟨proof.sumCheckProof.point, []⟩ : IOPProof F) proof.sumCheckProof.point.length 2 proof.sumCheckProof.point.length 0 (by simp)
        (by simpa using hpos) (by omega) [] [] (tr1.append "aux info" (.aux 2 proof.sumCheckProof.point.length))
      simp only [Nat.zero_add] at h1
      simp only [sumcheckVerify, verifierInit, h1, error_bind]
    rw [this]
    rfl

end Zksql
