import Verif.Lemmas.Schedule
import Verif.Props.VirtualPoly
/-!
C97: how the parallel loops are divided among threads, and in which order the pieces run.
-/
namespace Zksql
variable {F C B : Type} [Field F]

/-- However the threads are scheduled, the computation comes to `r`. -/
def AlwaysComesTo {α : Type} (m : Outcomes α) (r : Res α) : Prop := ∀ x, m x ↔ x = r

theorem alwaysComesTo_of {α : Type} {m : Outcomes α} {r : Res α} (h : m = Outcomes.of r) : AlwaysComesTo m r := by
  subst h
  exact fun x => Iff.rfl

/-- C97, tables: fixing variables, evaluating and building the table of eq come to the same for every schedule, namely to what one thread finds. -/
theorem C97_tables (p : Mle F) (pt r : List F) :
    AlwaysComesTo (Par.fixVariables p pt) (fixVariables p pt) ∧
    AlwaysComesTo (Par.fixLastVariables p pt) (fixLastVariables p pt) ∧
    AlwaysComesTo (Par.evaluateOpt p pt) (evaluateOpt p pt) ∧
    AlwaysComesTo (Par.buildEq r) (buildEq r) :=
  ⟨alwaysComesTo_of (Par.fixVariables_eq p pt), alwaysComesTo_of (Par.fixLastVariables_eq p pt),
    alwaysComesTo_of (Par.evaluateOpt_eq p pt), alwaysComesTo_of (Par.buildEq_eq r)⟩

/-- Cells written from the last to the first. -/
example : Par.runWrites (fun i (_ : ZMod 7) => .ok ((i : ZMod 7) + 1)) [2, 0, 1] [0, 0, 0] = .ok [1, 2, 3] := by decide +kernel

/-- C97, prover: for every schedule the sumcheck prover and the zerocheck prover send the same messages, leave the same transcript and fail in the
same way: as on one thread. -/
theorem C97_prover (H : Oracle F C) (vp : VirtPoly F) (fresh : Nat) (tr : Transcript F C) :
    AlwaysComesTo (Par.sumcheckProve H vp tr) (sumcheckProve H vp tr) ∧
    AlwaysComesTo (Par.zerocheckProve H vp fresh tr) (zerocheckProve H vp fresh tr) :=
  ⟨alwaysComesTo_of (Par.sumcheckProve_eq H vp tr), alwaysComesTo_of (Par.zerocheckProve_eq H vp fresh tr)⟩

/-- C97, one round: the message and the next state, from any state of the prover. -/
theorem C97_round (st : ProverState F) (challenge : Option F) :
    AlwaysComesTo (Par.proveRound st challenge) (proveRound st challenge) :=
  alwaysComesTo_of (Par.proveRound_eq st challenge)

namespace SchEx

/-- A table of four entries. -/
def tab : Mle (ZMod 7) := ⟨2, [1, 2, 3, 5]⟩

/-- Two ways to divide the range `0, 1` for the product of the table with itself. -/
example : Par.foldReduce (List.replicate 2 ((0 : ZMod 7), (0 : ZMod 7)), List.replicate 3 (0 : ZMod 7)) (Par.sumStep [tab] [0, 0])
      (·.2) (List.replicate 3 0) (List.zipWith (· + ·)) .leaf [0, 1] = .ok [3, 1, 2] ∧
    Par.foldReduce (List.replicate 2 ((0 : ZMod 7), (0 : ZMod 7)), List.replicate 3 (0 : ZMod 7)) (Par.sumStep [tab] [0, 0])
      (·.2) (List.replicate 3 0) (List.zipWith (· + ·)) (.node 1 (.node 0 .leaf .leaf) .leaf) [0, 1] = .ok [3, 1, 2] := by
  decide +kernel

end SchEx

/-- C97 for a verifier, in full: whatever the proof, the answer is the same for every schedule. -/
def C97_statement : Prop :=
  ∀ (F : Type) [Field F] [DecidableEq F] (H : Oracle F Nat) (s : F) (pf : IOPProof F) (maxDegree numVars : Nat) (tr : Transcript F Nat),
    ∃ r, AlwaysComesTo (Par.sumcheckVerify H s pf maxDegree numVars tr) r

namespace SchEx

/-- Two round messages: one that is too short, and one whose challenge is 0. -/
def pf : IOPProof (ZMod 7) := ⟨[], [[0], [0, 0]]⟩

/-- Every challenge is 0. -/
def H : Oracle (ZMod 7) Nat := fun _ _ => 0

/-- An empty transcript. -/
def tr : Transcript (ZMod 7) Nat := ⟨"t", [], true⟩

/-- The verifier after the two rounds. -/
def vst : VerifierState (ZMod 7) := ⟨2, 2, 1, true, [[0], [0, 0]], [0, 0]⟩

theorem loop : ∃ t, verifyLoop H pf 2 0 (verifierInit 1 2) (tr.append "aux info" (.aux 1 2)) = .ok (vst, t) := ⟨_, rfl⟩

theorem items : ((vst.polynomialsReceived.zip vst.challenges).map fun pc =>
    (if pc.1.length ≠ vst.maxDegree + 1 then .error (.err .invalidVerifier) else interpolateUniPoly pc.1 pc.2 : Res (ZMod 7)))
      = [.error (.err .invalidVerifier), .error .panic] := by
  decide +kernel

/-- The check may return an error: the second message has not been looked at when the error of the first comes in. -/
theorem may_err : Par.sumcheckVerify H 0 pf 1 2 tr (.error (.err .invalidVerifier)) := by
  obtain ⟨t, h⟩ := loop
  unfold Par.sumcheckVerify
  dsimp only
  rw [h, Outcomes.of_ok_bind]
  refine Or.inr ⟨_, ?_, rfl⟩
  change Par.checkAndGenerateSubclaim vst 0 _
  unfold Par.checkAndGenerateSubclaim
  rw [if_neg (by decide), if_neg (by decide)]
  refine Or.inr ⟨_, ?_, rfl⟩
  rw [items]
  exact ⟨[0], by decide, by decide, Or.inr (by decide), by decide⟩

/-- The check may panic: the second message is looked at as well. -/
theorem may_panic : Par.sumcheckVerify H 0 pf 1 2 tr (.error .panic) := by
  obtain ⟨t, h⟩ := loop
  unfold Par.sumcheckVerify
  dsimp only
  rw [h, Outcomes.of_ok_bind]
  refine Or.inr ⟨_, ?_, rfl⟩
  change Par.checkAndGenerateSubclaim vst 0 _
  unfold Par.checkAndGenerateSubclaim
  rw [if_neg (by decide), if_neg (by decide)]
  refine Or.inr ⟨_, ?_, rfl⟩
  rw [items]
  exact ⟨[0, 1], by decide, by decide, Or.inl (by decide), by decide⟩

end SchEx

/-- C97 is violated by `SumCheck::verify`: the same proof makes it return an error in one run and panic in another, as the two
threads happen to be scheduled. -/
theorem C97_violated : ¬ C97_statement := by
  intro h
  obtain ⟨r, hr⟩ := h (ZMod 7) SchEx.H 0 SchEx.pf 1 2 SchEx.tr
  have h1 := (hr _).1 SchEx.may_err
  have h2 := (hr _).1 SchEx.may_panic
  rw [← h1] at h2
  cases h2

variable [DecidableEq F]

/-- C97, what holds of the verifier: a proof is accepted for every schedule or for none, with the subclaim and the transcript that one thread
finds, and what one thread answers is always possible.  Missing: which failure it is when the proof is rejected. -/
theorem C97_accepts_partial (H : Oracle F C) (s : F) (pf : IOPProof F) (maxDegree numVars : Nat) (tr : Transcript F C) :
    (∀ out, Par.sumcheckVerify H s pf maxDegree numVars tr (.ok out) ↔ sumcheckVerify H s pf maxDegree numVars tr = .ok out) ∧
    (∀ out, sumcheckVerify H s pf maxDegree numVars tr = .ok out →
      AlwaysComesTo (Par.sumcheckVerify H s pf maxDegree numVars tr) (.ok out)) ∧
    Par.sumcheckVerify H s pf maxDegree numVars tr (sumcheckVerify H s pf maxDegree numVars tr) ∧
    (∀ out, Par.zerocheckVerify H pf maxDegree numVars tr (.ok out) ↔ zerocheckVerify H pf maxDegree numVars tr = .ok out) ∧
    (∀ out, zerocheckVerify H pf maxDegree numVars tr = .ok out →
      AlwaysComesTo (Par.zerocheckVerify H pf maxDegree numVars tr) (.ok out)) :=
  ⟨fun _ => Par.sumcheckVerify_ok, fun _ h => alwaysComesTo_of (Par.sumcheckVerify_unique h),
    Par.sumcheckVerify_seq H s pf maxDegree numVars tr, fun _ => Par.zerocheckVerify_ok,
    fun _ h => alwaysComesTo_of (Par.zerocheckVerify_unique h)⟩

/-- A proof with one round that is accepted. -/
example : (sumcheckVerify (fun _ _ => 3) 5 ⟨[], [[2, 3]]⟩ 1 1 SchEx.tr).toOption.map (·.1) = some (⟨[3], 5⟩ : SubClaim (ZMod 7)) := by
  decide +kernel

/-- C97, what holds of a rejection: if every round message has the length that the verifier expects, the answer is the same for every
schedule, whatever it is. -/
theorem C97_lengths_partial (H : Oracle F C) (s : F) (pf : IOPProof F) (maxDegree numVars : Nat) (tr : Transcript F C)
    (hl : ∀ m ∈ pf.proofs, m.length = maxDegree + 1) :
    AlwaysComesTo (Par.sumcheckVerify H s pf maxDegree numVars tr) (sumcheckVerify H s pf maxDegree numVars tr) :=
  alwaysComesTo_of (Par.sumcheckVerify_lengths hl s numVars tr)

/-- Two messages of the right length that are rejected: the first does not add up to the claimed sum. -/
example : (∀ m ∈ [[2, 3], [1, (1 : ZMod 7)]], m.length = 1 + 1) ∧
    (sumcheckVerify (fun _ _ => 3) 4 ⟨[], [[2, 3], [1, 1]]⟩ 1 2 SchEx.tr).toOption.map (·.1) = (none : Option (SubClaim (ZMod 7))) := by
  decide +kernel

/-- C97, `verify_claims`: it succeeds for every schedule or for none, and leaves the verifier in the same state.  Missing: which failure it
is otherwise. -/
theorem C97_verify_claims_partial (pcs : Pcs F C B) (H : Oracle F C) (st st' : VSt F C B) :
    (Par.verifyClaims pcs H st (.ok (), st') ↔ VSt.verifyClaims pcs H st = (.ok (), st')) ∧
    (VSt.verifyClaims pcs H st = (.ok (), st') → ∀ out, Par.verifyClaims pcs H st out ↔ out = (.ok (), st')) :=
  ⟨Par.verifyClaims_ok, Par.verifyClaims_unique⟩

end Zksql
