import Verif.Model.Trail
/-!
The transcript left by a call (Model/Trail) is the returned one when the call succeeds, and it always begins with the transcript before the call.
-/
namespace Zksql
variable {F C : Type} [Field F]

/-- Everything recorded in `a` is the beginning of what is recorded in `b`. -/
def Transcript.Begins (a b : Transcript F C) : Prop := a.label = b.label ∧ a.events <+: b.events

theorem Transcript.Begins.refl (a : Transcript F C) : a.Begins a := ⟨rfl, List.prefix_refl _⟩

theorem Transcript.Begins.trans {a b c : Transcript F C} (h : a.Begins b) (k : b.Begins c) : a.Begins c :=
  ⟨h.1.trans k.1, h.2.trans k.2⟩

theorem Transcript.begins_append (a : Transcript F C) (l : String) (d : TItem F C) : a.Begins (a.append l d) :=
  ⟨rfl, List.prefix_append _ _⟩

theorem Transcript.begins_challenge {H : Oracle F C} {a b : Transcript F C} {l : String} {c : F} (h : a.challenge H l = .ok (c, b)) : a.Begins b := by
  unfold Transcript.challenge at h
  split at h
  · simp at h
  · obtain ⟨_, rfl⟩ := Prod.mk.inj (Except.ok.inj h)
    exact ⟨rfl, by simp [Transcript.append, List.append_assoc]⟩

theorem Transcript.begins_challengeLoop {H : Oracle F C} {a b : Transcript F C} {l : String} {n : Nat} {c : List F} (h : a.challengeLoop H l n = .ok (c, b)) : a.Begins b := by
  induction n generalizing a c with
  | zero =>
    unfold Transcript.challengeLoop at h
    obtain ⟨_, rfl⟩ := Prod.mk.inj (Except.ok.inj h)
    exact .refl _
  | succ n ih =>
    unfold Transcript.challengeLoop at h
    rcases e : a.challenge H l with _ | ⟨x, t1⟩
    · rw [e] at h; simp at h
    rw [e] at h
    simp only [ok_bind] at h
    rcases e2 : t1.challengeLoop H l n with _ | ⟨xs, t2⟩
    · rw [e2] at h; simp at h
    rw [e2] at h
    obtain ⟨_, rfl⟩ := Prod.mk.inj (Except.ok.inj h)
    exact (Transcript.begins_challenge e).trans (ih e2)

theorem Transcript.begins_challenges {H : Oracle F C} {a b : Transcript F C} {l : String} {n : Nat} {c : List F} (h : a.challenges H l n = .ok (c, b)) : a.Begins b := by
  unfold Transcript.challenges at h
  split at h
  · simp at h
  · exact Transcript.begins_challengeLoop h

theorem proveTrail_begins (H : Oracle F C) : ∀ (n : Nat) (st : ProverState F) (ch : Option F) (tr : Transcript F C), tr.Begins (proveTrail H n st ch tr)
  | 0, _, _, tr => .refl tr
  | n + 1, st, ch, tr => by
    unfold proveTrail
    split
    · exact .refl _
    · rename_i msg st' e
      split
      · exact Transcript.begins_append _ _ _
      · rename_i c tr' e'
        exact ((Transcript.begins_append _ _ _).trans (Transcript.begins_challenge e')).trans (proveTrail_begins H n st' (some c) tr')

theorem sumcheckProveTrail_begins (H : Oracle F C) (vp : VirtPoly F) (tr : Transcript F C) : tr.Begins (sumcheckProveTrail H vp tr) := by
  unfold sumcheckProveTrail
  split
  · exact Transcript.begins_append _ _ _
  · exact (Transcript.begins_append _ _ _).trans (proveTrail_begins H _ _ _ _)

theorem verifyTrail_begins (H : Oracle F C) (pf : IOPProof F) : ∀ (n i : Nat) (st : VerifierState F) (tr : Transcript F C), tr.Begins (verifyTrail H pf n i st tr)
  | 0, _, _, tr => .refl tr
  | n + 1, i, st, tr => by
    unfold verifyTrail
    split
    · exact .refl _
    · rename_i msg e
      split
      · exact Transcript.begins_append _ _ _
      · rename_i c st' tr' e'
        refine ((Transcript.begins_append tr "prover msg" (.elems msg)).trans ?_).trans (verifyTrail_begins H pf n (i + 1) st' tr')
        unfold verifyRound at e'
        split at e'
        · simp at e'
        rcases k : (tr.append "prover msg" (.elems msg)).challenge H "Internal round" with _ | ⟨x, t1⟩
        · rw [k] at e'; simp at e'
        rw [k] at e'
        simp only [ok_bind] at e'
        obtain ⟨_, e2⟩ := Prod.mk.inj (Except.ok.inj e')
        obtain ⟨_, rfl⟩ := Prod.mk.inj e2
        exact Transcript.begins_challenge k

theorem sumcheckVerifyTrail_begins (H : Oracle F C) (pf : IOPProof F) (d n : Nat) (tr : Transcript F C) : tr.Begins (sumcheckVerifyTrail H pf d n tr) :=
  (Transcript.begins_append _ _ _).trans (verifyTrail_begins H pf _ _ _ _)

theorem multiOpenTrail_begins [DecidableEq F] (H : Oracle F C) (polys : List (Mle F)) (points : List (List F)) (tr : Transcript F C) :
    tr.Begins (multiOpenTrail H polys points tr) := by
  unfold multiOpenTrail
  split
  · exact .refl _
  split
  · exact .refl _
  · rename_i t tr' e
    split
    · exact Transcript.begins_challenges e
    · exact (Transcript.begins_challenges e).trans (sumcheckProveTrail_begins H _ _)

theorem batchVerifyTrail_begins {E : Curve F} (H : Oracle F E.G1) (comms : List E.G1) (points : List (List F)) (proof : BatchProof E) (tr : Transcript F E.G1) :
    tr.Begins (batchVerifyTrail H comms points proof tr) := by
  unfold batchVerifyTrail
  split
  · exact .refl _
  · rename_i t tr' e
    dsimp only
    split
    · exact Transcript.begins_challenges e
    · exact (Transcript.begins_challenges e).trans (sumcheckVerifyTrail_begins H _ _ _ _)

/-! ### On success -/

theorem proveTrail_ok {H : Oracle F C} : ∀ {n : Nat} {st : ProverState F} {ch : Option F} {tr : Transcript F C} {r : _},
    proveLoop H n st ch tr = .ok r → proveTrail H n st ch tr = r.2.2.2
  | 0, st, ch, tr, r, h => by
    unfold proveLoop at h
    obtain rfl := Except.ok.inj h
    rfl
  | n + 1, st, ch, tr, r, h => by
    unfold proveLoop at h
    unfold proveTrail
    rcases e : proveRound st ch with _ | ⟨msg, st'⟩
    · rw [e] at h; simp at h
    rw [e] at h
    simp only [ok_bind] at h
    rcases e2 : (tr.append "prover msg" (.elems msg)).challenge H "Internal round" with _ | ⟨c, tr'⟩
    · rw [e2] at h; simp at h
    rw [e2] at h
    simp only [ok_bind] at h
    rcases e3 : proveLoop H n st' (some c) tr' with _ | r'
    · rw [e3] at h; simp at h
    rw [e3] at h
    have := proveTrail_ok e3
    dsimp only
    rw [e2]
    obtain rfl := Except.ok.inj h
    exact this

theorem sumcheckProveTrail_ok {H : Oracle F C} {vp : VirtPoly F} {tr tr' : Transcript F C} {pf : IOPProof F} (h : sumcheckProve H vp tr = .ok (pf, tr')) :
    sumcheckProveTrail H vp tr = tr' := by
  unfold sumcheckProve at h
  unfold sumcheckProveTrail
  rcases e : proverInit vp with _ | st
  · rw [e] at h; simp at h
  rw [e] at h
  simp only [ok_bind] at h
  rcases e2 : proveLoop H vp.numVariables st none (tr.append "aux info" (.aux vp.maxDegree vp.numVariables)) with _ | r
  · rw [e2] at h; simp at h
  rw [e2] at h
  obtain ⟨_, rfl⟩ := Prod.mk.inj (Except.ok.inj h)
  exact proveTrail_ok e2

theorem verifyTrail_ok {H : Oracle F C} {pf : IOPProof F} : ∀ {n i : Nat} {st : VerifierState F} {tr : Transcript F C} {r : _},
    verifyLoop H pf n i st tr = .ok r → verifyTrail H pf n i st tr = r.2
  | 0, i, st, tr, r, h => by
    unfold verifyLoop at h
    obtain rfl := Except.ok.inj h
    rfl
  | n + 1, i, st, tr, r, h => by
    unfold verifyLoop at h
    unfold verifyTrail
    rcases e : idx pf.proofs i with _ | msg
    · rw [e] at h; simp at h
    rw [e] at h
    simp only [ok_bind] at h
    rcases e2 : verifyRound H st msg (tr.append "prover msg" (.elems msg)) with _ | ⟨c, st', tr'⟩
    · rw [e2] at h; simp at h
    rw [e2] at h
    simp only [ok_bind] at h
    dsimp only
    rw [e2]
    exact verifyTrail_ok h

theorem sumcheckVerifyTrail_ok [DecidableEq F] {H : Oracle F C} {s : F} {pf : IOPProof F} {d n : Nat} {tr tr' : Transcript F C} {sub : SubClaim F}
    (h : sumcheckVerify H s pf d n tr = .ok (sub, tr')) : sumcheckVerifyTrail H pf d n tr = tr' := by
  unfold sumcheckVerify at h
  unfold sumcheckVerifyTrail
  rcases e : verifyLoop H pf n 0 (verifierInit d n) (tr.append "aux info" (.aux d n)) with _ | ⟨st, t1⟩
  · simp only [e] at h; simp at h
  simp only [e, ok_bind] at h
  rcases e2 : checkAndGenerateSubclaim st s with _ | sub'
  · rw [e2] at h; simp at h
  rw [e2] at h
  obtain ⟨_, rfl⟩ := Prod.mk.inj (Except.ok.inj h)
  exact verifyTrail_ok e

/-- When `multi_open` returns, the transcript it leaves is the one it reports. -/
theorem multiOpenTrail_ok [DecidableEq F] {E : Curve F} {H : Oracle F E.G1} {pp : ProverParam E} {polys : List (Mle F)} {points : List (List F)} {evals : List F}
    {tr tr' : Transcript F E.G1} {bp : BatchProof E} (h : multiOpen H pp polys points evals tr = .ok (bp, tr')) : multiOpenTrail H polys points tr = tr' := by
  unfold multiOpen at h
  unfold multiOpenTrail
  rcases e1 : idx polys 0 with _ | p0
  · rw [e1] at h; simp at h
  rw [e1] at h
  simp only [ok_bind] at h
  rcases e2 : tr.challenges H "t" (log2Ceil polys.length) with _ | ⟨t, t1⟩
  · rw [e2] at h; simp at h
  rw [e2] at h
  simp only [ok_bind] at h
  have e3 : ∃ vp, batchPoly polys points p0.numVars t = .ok vp ∧ ∃ pf, sumcheckProve H vp t1 = .ok (pf, tr') := by
    unfold batchPoly
    rcases k1 : buildEqVec t with _ | eqT
    · rw [k1] at h; simp at h
    rw [k1] at h
    simp only [ok_bind] at h ⊢
    rcases k2 : mergeLoop (dedupPoints [] points) ((polys.zip points).zip eqT) (List.replicate (dedupPoints [] points).length Mle.zero) with _ | merged
    · rw [k2] at h; simp at h
    rw [k2] at h
    simp only [ok_bind] at h ⊢
    rcases k3 : ((dedupPoints [] points).mapM fun point => do
        let e ← unwrap (buildEqVec point).toOption
        Mle.fromEvals p0.numVars e : Res (List (Mle F))) with _ | tildeEqs
    · rw [k3] at h; simp at h
    rw [k3] at h
    simp only [ok_bind] at h ⊢
    rcases k4 : buildBatchPoly p0.numVars (merged.zip tildeEqs) with _ | vp
    · rw [k4] at h; simp at h
    rw [k4] at h
    simp only [ok_bind] at h
    refine ⟨vp, rfl, ?_⟩
    rcases k5 : sumcheckProve H vp t1 with (_ | _) | ⟨pf, t2⟩
    · rw [k5] at h; simp [wrapSumcheck] at h
    · rw [k5] at h; simp [wrapSumcheck] at h
    rw [k5] at h
    simp only [wrapSumcheck, ok_bind] at h
    split at h
    · simp at h
    rcases k6 : gPrimeLoop (pf.point.take p0.numVars) (merged.zip (dedupPoints [] points)) Mle.zero with _ | g
    · rw [k6] at h; simp at h
    rw [k6] at h
    simp only [ok_bind] at h
    rcases k7 : kzgOpen pp g (pf.point.take p0.numVars) with _ | ⟨gp, v⟩
    · rw [k7] at h; simp at h
    rw [k7] at h
    obtain ⟨_, rfl⟩ := Prod.mk.inj (Except.ok.inj h)
    exact ⟨pf, rfl⟩
  obtain ⟨vp, e3, pf, e4⟩ := e3
  dsimp only
  rw [e3]
  exact sumcheckProveTrail_ok e4

/-- When `batch_verify` returns, the transcript it leaves is the one it reports. -/
theorem batchVerifyTrail_ok [DecidableEq F] {E : Curve F} {H : Oracle F E.G1} {vp : VerifierParam E} {comms : List E.G1} {points : List (List F)} {proof : BatchProof E}
    {tr tr' : Transcript F E.G1} {b : Bool} (h : batchVerify H vp comms points proof tr = .ok (b, tr')) : batchVerifyTrail H comms points proof tr = tr' := by
  unfold batchVerify at h
  unfold batchVerifyTrail
  rcases e2 : tr.challenges H "t" (log2Ceil comms.length) with _ | ⟨t, t1⟩
  · simp only [e2] at h; simp at h
  simp only [e2, ok_bind] at h ⊢
  rcases k1 : buildEqVec t with _ | eqT
  · rw [k1] at h; simp at h
  rw [k1] at h
  simp only [ok_bind] at h ⊢
  rcases k2 : gPrimeCommit proof.sumCheckProof.point eqT comms points with _ | gc
  · rw [k2] at h; simp at h
  rw [k2] at h
  simp only [ok_bind] at h ⊢
  rcases k3 : ((eqT.take comms.length).zipIdx.mapM fun ei => do
      let v ← idx proof.evals ei.2
      .ok (ei.1 * v) : Res (List F)) with _ | terms
  · rw [k3] at h; simp at h
  rw [k3] at h
  simp only [ok_bind] at h
  rcases k5 : sumcheckVerify H terms.sum proof.sumCheckProof 2 proof.sumCheckProof.point.length t1 with (_ | _) | ⟨sub, t2⟩
  · rw [k5] at h; simp [wrapSumcheck] at h
  · rw [k5] at h; simp [wrapSumcheck] at h
  rw [k5] at h
  simp only [wrapSumcheck, ok_bind] at h
  rcases k6 : kzgVerify vp gc proof.sumCheckProof.point sub.expectedEvaluation proof.gPrimeProof with _ | res
  · rw [k6] at h; simp at h
  rw [k6] at h
  obtain ⟨_, rfl⟩ := Prod.mk.inj (Except.ok.inj h)
  rw [k3]
  exact sumcheckVerifyTrail_ok k5

end Zksql
