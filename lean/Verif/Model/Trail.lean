import Verif.Model.Kzg
/-!
The transcript that a call leaves when it does not return `Ok`.  The Rust functions take the transcript by mutable reference, so everything absorbed and squeezed
before the failure stays in it; the functions of Model/SumCheck and Model/Kzg return a transcript only on success.
-/
namespace Zksql
variable {F C : Type} [Field F]

/-- Round loop of `SumCheck::prove` (src/subroutines/poly_iop/sum_check/mod.rs L165-171): the transcript it leaves, also when a round fails. -/
def proveTrail (H : Oracle F C) : Nat → ProverState F → Option F → Transcript F C → Transcript F C
  | 0, _, _, tr => tr
  | n + 1, st, ch, tr =>
    match proveRound st ch with
    | .error _ => tr
    | .ok (msg, st) =>
      match (tr.append "prover msg" (.elems msg)).challenge H "Internal round" with
      | .error _ => tr.append "prover msg" (.elems msg)
      | .ok (c, tr) => proveTrail H n st (some c) tr

/-- `SumCheck::prove` (src/subroutines/poly_iop/sum_check/mod.rs L154-182): the transcript it leaves. -/
def sumcheckProveTrail (H : Oracle F C) (vp : VirtPoly F) (tr : Transcript F C) : Transcript F C :=
  match proverInit vp with
  | .error _ => tr.append "aux info" (.aux vp.maxDegree vp.numVariables)
  | .ok st => proveTrail H vp.numVariables st none (tr.append "aux info" (.aux vp.maxDegree vp.numVariables))

/-- Round loop of `SumCheck::verify` (src/subroutines/poly_iop/sum_check/mod.rs L194-202): the transcript it leaves, also when a message is missing. -/
def verifyTrail (H : Oracle F C) (pf : IOPProof F) : Nat → Nat → VerifierState F → Transcript F C → Transcript F C
  | 0, _, _, tr => tr
  | n + 1, i, st, tr =>
    match idx pf.proofs i with
    | .error _ => tr
    | .ok msg =>
      match verifyRound H st msg (tr.append "prover msg" (.elems msg)) with
      | .error _ => tr.append "prover msg" (.elems msg)
      | .ok (_, st, tr) => verifyTrail H pf n (i + 1) st tr

/-- `SumCheck::verify` (src/subroutines/poly_iop/sum_check/mod.rs L184-208): the transcript it leaves.  The checks come after the loop, so a proof that fails them has
been absorbed completely. -/
def sumcheckVerifyTrail (H : Oracle F C) (pf : IOPProof F) (maxDegree numVars : Nat) (tr : Transcript F C) : Transcript F C :=
  verifyTrail H pf numVars 0 (verifierInit maxDegree numVars) (tr.append "aux info" (.aux maxDegree numVars))

/-- The polynomial of the sumcheck inside `multi_open_internal` (src/subroutines/pcs/multilinear_kzg/batching.rs L75-131), given the challenges `t`. -/
def batchPoly [DecidableEq F] (polys : List (Mle F)) (points : List (List F)) (nv : Nat) (t : List F) : Res (VirtPoly F) := do
  let eqT ← buildEqVec t
  let dd := dedupPoints [] points
  let merged ← mergeLoop dd ((polys.zip points).zip eqT) (List.replicate dd.length Mle.zero)
  let tildeEqs ← dd.mapM fun point => do
    let e ← unwrap (buildEqVec point).toOption
    Mle.fromEvals nv e
  buildBatchPoly nv (merged.zip tildeEqs)

/-- `multi_open_internal` (src/subroutines/pcs/multilinear_kzg/batching.rs L51-173): the transcript it leaves. -/
def multiOpenTrail [DecidableEq F] (H : Oracle F C) (polys : List (Mle F)) (points : List (List F)) (tr : Transcript F C) : Transcript F C :=
  match idx polys 0 with
  | .error _ => tr
  | .ok p0 =>
    match tr.challenges H "t" (log2Ceil polys.length) with
    | .error _ => tr
    | .ok (t, tr) =>
      match batchPoly polys points p0.numVars t with
      | .error _ => tr
      | .ok vp => sumcheckProveTrail H vp tr

/-- `batch_verify_internal` (src/subroutines/pcs/multilinear_kzg/batching.rs L180-260): the transcript it leaves. -/
def batchVerifyTrail {E : Curve F} (H : Oracle F E.G1) (comms : List E.G1) (points : List (List F)) (proof : BatchProof E) (tr : Transcript F E.G1) : Transcript F E.G1 :=
  match tr.challenges H "t" (log2Ceil comms.length) with
  | .error _ => tr
  | .ok (t, tr) =>
    let before : Res (List F) := do
      let eqT ← buildEqVec t
      let _ ← gPrimeCommit proof.sumCheckProof.point eqT comms points
      (eqT.take comms.length).zipIdx.mapM fun ei => do
        let v ← idx proof.evals ei.2
        .ok (ei.1 * v)
    match before with
    | .error _ => tr
    | .ok _ => sumcheckVerifyTrail H proof.sumCheckProof 2 proof.sumCheckProof.point.length tr

end Zksql
