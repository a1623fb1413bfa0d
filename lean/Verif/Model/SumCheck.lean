import Verif.Model.VirtualPoly
import Verif.Model.Transcript
/-!
The sumcheck protocol: src/subroutines/poly_iop/sum_check/{mod,prover,verifier}.rs.
-/
namespace Zksql
variable {F C : Type} [Field F]

/-! ## Prover -/

/-- `barycentric_weights` (src/subroutines/poly_iop/sum_check/prover.rs L184-199).  `batch_inversion` leaves zeros, as `⁻¹`
does here. -/
def barycentricWeights (points : List F) : List F :=
  (List.range points.length).map fun j =>
    (((List.range points.length).filter (fun i => i != j)).map
      (fun i => points.getD j 0 - points.getD i 0)).prod⁻¹

/-- `extrapolate` (src/subroutines/poly_iop/sum_check/prover.rs L201-217); `inverse().unwrap_or_default()` is `⁻¹`. -/
def extrapolate (points weights evals : List F) (at_ : F) : F :=
  let coeffs := List.zipWith (· * ·) (points.map fun p => (at_ - p)⁻¹) weights
  (List.zipWith (· * ·) coeffs evals).sum * coeffs.sum⁻¹

/-- `IOPProverState` (src/subroutines/poly_iop/structs.rs L31-41). -/
structure ProverState (F : Type) where
  challenges : List F
  round : Nat
  poly : VirtPoly F
  extrapolationAux : List (List F × List F)

/-- `prover_init` (src/subroutines/poly_iop/sum_check/prover.rs L30-51). -/
def proverInit (vp : VirtPoly F) : Res (ProverState F) :=
  if vp.numVariables = 0 then .error (.err .invalidParameters)
  else .ok
    { challenges := []
      round := 0
      poly := vp
      extrapolationAux := (List.range (vp.maxDegree - 1)).map fun k =>
        let points := (List.range (k + 2)).map (fun i : Nat => (i : F))
        (points, barycentricWeights points) }

/-- The per-index buffer of `prove_round_and_update_state` (src/subroutines/poly_iop/sum_check/prover.rs L122-128): value at 0 and
step, per multiplicand. -/
def roundBuf (tables : List (Mle F)) (p : List Nat) (b : Nat) : Res (List (F × F)) :=
  p.mapM fun f => do
    let t ← idx tables f
    let e0 ← idx t.evals (2 * b)
    let e1 ← idx t.evals (2 * b + 1)
    .ok (e0, e1 - e0)

/-- The running products at `0, 1, .., k` (src/subroutines/poly_iop/sum_check/prover.rs L129-133). -/
def stepEvals : Nat → List (F × F) → List F
  | 0, buf => [(buf.map (·.1)).prod]
  | k + 1, buf => (buf.map (·.1)).prod :: stepEvals k (buf.map fun es => (es.1 + es.2, es.2))

/-- Sum over the remaining hypercube of one product (src/subroutines/poly_iop/sum_check/prover.rs L112-147).  Simplification:
rayon's fold/reduce tree is a left fold; any tree gives the same (`Model/Schedule`, C97). -/
def productSum (tables : List (Mle F)) (p : List Nat) (nb : Nat) : Res (List F) :=
  (List.range nb).foldlM (init := List.replicate (p.length + 1) (0 : F)) fun acc b => do
    let buf ← roundBuf tables p b
    .ok (List.zipWith (· + ·) acc (stepEvals p.length buf))

/-- One product's contribution to the message: the sums, then the extrapolated entries
(src/subroutines/poly_iop/sum_check/prover.rs L148-161). -/
def productMsg (aux : List (List F × List F)) (maxDegree : Nat) (tables : List (Mle F)) (nb : Nat)
    (cp : F × List Nat) : Res (List F) := do
  let sum0 ← productSum tables cp.2 nb
  let sum := sum0.map (· * cp.1)
  if maxDegree < cp.2.length then .error .panic
  else do
    let ext ← (List.range (maxDegree - cp.2.length)).mapM fun i =>
      if cp.2.length = 0 then .error .panic
      else do
        let pw ← idx aux (cp.2.length - 1)
        .ok (extrapolate pw.1 pw.2 sum ((cp.2.length + 1 + i : Nat) : F))
    .ok (sum ++ ext)

/-- Replace the tables, keeping addresses.  Simplification: the new `Arc`s have new addresses in Rust; no address of a prover
state is ever looked up. -/
def setTables (vp : VirtPoly F) (ts : List (Mle F)) : VirtPoly F :=
  { vp with flat := List.zipWith (fun a t => ⟨a.ptr, t⟩) vp.flat ts }

/-- Challenge handling of `prove_round_and_update_state` (src/subroutines/poly_iop/sum_check/prover.rs L72-103): the challenges recorded
and the tables with the next variable fixed. -/
def takeChallenge (st : ProverState F) (challenge : Option F) : Res (List F × List (Mle F)) :=
  match challenge with
  | some c =>
    if st.round = 0 then .error (.err .invalidProver)
    else do
      let chals := st.challenges ++ [c]
      let r ← idx chals (st.round - 1)
      let ts ← st.poly.flat.mapM fun a => fixVariables a.mle [r]
      .ok (chals, ts)
  | none =>
    if 0 < st.round then .error (.err .invalidProver)
    else .ok (st.challenges, st.poly.flat.map (·.mle))

/-- `prove_round_and_update_state` (src/subroutines/poly_iop/sum_check/prover.rs L57-181).  Returned errors leave the state
unchanged. -/
def proveRound (st : ProverState F) (challenge : Option F) : Res (List F × ProverState F) :=
  if st.poly.numVariables ≤ st.round then .error (.err .invalidProver)
  else do
    let (chals, tables) ← takeChallenge st challenge
    let round := st.round + 1
    let msg ← st.poly.products.foldlM (init := List.replicate (st.poly.maxDegree + 1) (0 : F)) fun acc cp => do
      let m ← productMsg st.extrapolationAux st.poly.maxDegree tables (2 ^ (st.poly.numVariables - round)) cp
      .ok ((List.range acc.length).map fun i => acc.getD i 0 + m.getD i 0)
    .ok (msg, { st with challenges := chals, round := round, poly := setTables st.poly tables })

/-- `IOPProof` (src/subroutines/poly_iop/structs.rs L17-20). -/
structure IOPProof (F : Type) where
  point : List F
  proofs : List (List F)
  deriving DecidableEq, Repr

/-- Round loop of `SumCheck::prove` (src/subroutines/poly_iop/sum_check/mod.rs L165-171). -/
def proveLoop (H : Oracle F C) : Nat → ProverState F → Option F → Transcript F C →
    Res (List (List F) × ProverState F × Option F × Transcript F C)
  | 0, st, ch, tr => .ok ([], st, ch, tr)
  | n + 1, st, ch, tr => do
    let (msg, st) ← proveRound st ch
    let tr := tr.append "prover msg" (.elems msg)
    let (c, tr) ← tr.challenge H "Internal round"
    let (msgs, st, ch, tr) ← proveLoop H n st (some c) tr
    .ok (msg :: msgs, st, ch, tr)

/-- `SumCheck::prove` (src/subroutines/poly_iop/sum_check/mod.rs L154-182). -/
def sumcheckProve (H : Oracle F C) (vp : VirtPoly F) (tr : Transcript F C) :
    Res (IOPProof F × Transcript F C) := do
  let tr := tr.append "aux info" (.aux vp.maxDegree vp.numVariables)
  let st ← proverInit vp
  let (msgs, st, ch, tr) ← proveLoop H vp.numVariables st none tr
  let point := match ch with
    | some p => st.challenges ++ [p]
    | none => st.challenges
  .ok (⟨point, msgs⟩, tr)

/-- `extract_sum` (src/subroutines/poly_iop/sum_check/mod.rs L140-145). -/
def extractSum (pf : IOPProof F) : Res F := do
  let m ← idx pf.proofs 0
  let a ← idx m 0
  let b ← idx m 1
  .ok (a + b)

/-! ## Verifier -/

/-- Field division, which panics on a zero divisor (arkworks `Div`: `inverse().unwrap()`). -/
def fdiv [DecidableEq F] (a b : F) : Res F := if b = 0 then .error .panic else .ok (a / b)

/-- Unsigned `bits`-bit arithmetic result: overflow panics. -/
def chkU (bits : Nat) (n : Nat) : Res Nat := if n < 2 ^ bits then .ok n else .error .panic

/-- Signed `bits`-bit arithmetic result: overflow panics. -/
def chkI (bits : Nat) (z : Int) : Res Int :=
  if -(2 ^ (bits - 1) : Int) ≤ z ∧ z < (2 ^ (bits - 1) : Int) then .ok z else .error .panic

/-- `u64_factorial`, `u128_factorial` (src/subroutines/poly_iop/sum_check/verifier.rs L300-317): loop `2..=a`. -/
def uFactorial (bits : Nat) : Nat → Res Nat
  | 0 => .ok 1
  | 1 => .ok 1
  | a + 2 => do
    let r ← uFactorial bits (a + 1)
    chkU bits (r * (a + 2))

/-- `field_factorial` (src/subroutines/poly_iop/sum_check/verifier.rs L291-297). -/
def fieldFactorial : Nat → F
  | 0 => 1
  | 1 => 1
  | a + 2 => fieldFactorial (a + 1) * ((a + 2 : Nat) : F)

/-- `ratio_numerator_f` (src/subroutines/poly_iop/sum_check/verifier.rs L235-239, L260-264). -/
def numToField (bits : Nat) (num : Int) : Res F :=
  if num < 0 then (chkI bits (-num)).map (fun neg => -((neg.toNat : Nat) : F))
  else .ok ((num.toNat : Nat) : F)

/-- Loop of the two fixed-width branches of `interpolate_uni_poly`
(src/subroutines/poly_iop/sum_check/verifier.rs L230-249 with 64 bits, L255-274 with 128 bits).  The counter is `i + 1`. -/
def interpLoopInt [DecidableEq F] (bits : Nat) (p evals : List F) (prod lastDen : F) (len : Nat) :
    Nat → F → Int → Nat → Res F
  | 0, res, _, _ => .ok res
  | i + 1, res, num, den => do
    let numF ← numToField bits num
    let pi ← idx p i
    let ei ← idx evals i
    let q ← fdiv (pi * prod * (den : F)) (lastDen * numF * ei)
    if i ≠ 0 then do
      let num' ← chkI bits (num * (-((len : Int) - (i : Int))))
      let den' ← chkU bits (den * i)
      interpLoopInt bits p evals prod lastDen len i (res + q) num' den'
    else interpLoopInt bits p evals prod lastDen len i (res + q) num den

/-- Loop of the field branch of `interpolate_uni_poly`
(src/subroutines/poly_iop/sum_check/verifier.rs L276-284).  The counter is `i + 1`. -/
def interpLoopField [DecidableEq F] (p evals : List F) (prod : F) (len : Nat) : Nat → F → F → F → Res F
  | 0, res, _, _ => .ok res
  | i + 1, res, up, down => do
    let pi ← idx p i
    let ei ← idx evals i
    let q ← fdiv (pi * prod * down) (up * ei)
    if i ≠ 0 then
      interpLoopField p evals prod len i (res + q) (up * (-((len - i : Nat) : F))) (down * (i : F))
    else interpLoopField p evals prod len i (res + q) up down

/-- `interpolate_uni_poly` (src/subroutines/poly_iop/sum_check/verifier.rs L189-287). -/
def interpolateUniPoly [DecidableEq F] (p : List F) (x : F) : Res F :=
  let len := p.length
  -- `evals[e] = x - e`; for `e = 0` the code pushes `x` itself
  let evals := x :: (List.range (len - 1)).map fun e => x - ((e + 1 : Nat) : F)
  let prod := ((List.range (len - 1)).map fun e => x - ((e + 1 : Nat) : F)).foldl (· * ·) x
  if len = 0 then .error .panic -- `len - 1` underflows
  else if len ≤ 20 then do
    let f ← uFactorial 64 (len - 1)
    interpLoopInt 64 p evals prod (f : F) len len 0 1 1
  else if len ≤ 33 then do
    let f ← uFactorial 128 (len - 1)
    interpLoopInt 128 p evals prod (f : F) len len 0 1 1
  else interpLoopField p evals prod len len 0 (fieldFactorial (len - 1)) 1

/-- `IOPVerifierState` (src/subroutines/poly_iop/structs.rs L44-54). -/
structure VerifierState (F : Type) where
  round : Nat
  numVars : Nat
  maxDegree : Nat
  finished : Bool
  polynomialsReceived : List (List F)
  challenges : List F

/-- `verifier_init` (src/subroutines/poly_iop/sum_check/verifier.rs L30-42). -/
def verifierInit (maxDegree numVars : Nat) : VerifierState F := ⟨1, numVars, maxDegree, false, [], []⟩

/-- State change of `verify_round_and_update_state` once the challenge is drawn
(src/subroutines/poly_iop/sum_check/verifier.rs L72-83). -/
def VerifierState.push (st : VerifierState F) (msg : List F) (c : F) : VerifierState F :=
  { st with
    challenges := st.challenges ++ [c]
    polynomialsReceived := st.polynomialsReceived ++ [msg]
    finished := if st.round = st.numVars then true else st.finished
    round := if st.round = st.numVars then st.round else st.round + 1 }

/-- `verify_round_and_update_state` (src/subroutines/poly_iop/sum_check/verifier.rs L50-87). -/
def verifyRound (H : Oracle F C) (st : VerifierState F) (msg : List F) (tr : Transcript F C) :
    Res (F × VerifierState F × Transcript F C) :=
  if st.finished then .error (.err .invalidVerifier)
  else do
    let (c, tr) ← tr.challenge H "Internal round"
    .ok (c, st.push msg c, tr)

/-- `SumCheckSubClaim` (src/subroutines/poly_iop/sum_check/mod.rs L124-130). -/
structure SubClaim (F : Type) where
  point : List F
  expectedEvaluation : F
  deriving DecidableEq, Repr

/-- The deferred consistency loop (src/subroutines/poly_iop/sum_check/verifier.rs L151-166). -/
def deferredChecks [DecidableEq F] : List (List F) → List F → Res Unit
  | m :: ms, e :: es => do
    let a ← idx m 0
    let b ← idx m 1
    if a + b ≠ e then .error (.err .invalidProof) else deferredChecks ms es
  | _, _ => .ok ()

/-- `check_and_generate_subclaim` (src/subroutines/poly_iop/sum_check/verifier.rs L97-176).  Simplification: the parallel `collect`
reports the first failure in order; `Model/Schedule` has every order (C97). -/
def checkAndGenerateSubclaim [DecidableEq F] (st : VerifierState F) (assertedSum : F) : Res (SubClaim F) :=
  if ¬ st.finished then .error (.err .invalidVerifier)
  else if st.polynomialsReceived.length ≠ st.numVars then .error (.err .invalidVerifier)
  else do
    let expected ← (st.polynomialsReceived.zip st.challenges).mapM fun pc =>
      if pc.1.length ≠ st.maxDegree + 1 then .error (.err .invalidVerifier)
      else interpolateUniPoly pc.1 pc.2
    let expectedVec := assertedSum :: expected
    deferredChecks (st.polynomialsReceived.take st.numVars) expectedVec
    let last ← idx expectedVec st.numVars
    .ok ⟨st.challenges, last⟩

/-- Round loop of `SumCheck::verify` (src/subroutines/poly_iop/sum_check/mod.rs L194-202), from round index `i`. -/
def verifyLoop (H : Oracle F C) (pf : IOPProof F) : Nat → Nat → VerifierState F → Transcript F C →
    Res (VerifierState F × Transcript F C)
  | 0, _, st, tr => .ok (st, tr)
  | n + 1, i, st, tr => do
    let msg ← idx pf.proofs i
    let tr := tr.append "prover msg" (.elems msg)
    let (_, st, tr) ← verifyRound H st msg tr
    verifyLoop H pf n (i + 1) st tr

/-- `SumCheck::verify` (src/subroutines/poly_iop/sum_check/mod.rs L184-208). -/
def sumcheckVerify [DecidableEq F] (H : Oracle F C) (claimedSum : F) (pf : IOPProof F) (maxDegree numVars : Nat)
    (tr : Transcript F C) : Res (SubClaim F × Transcript F C) := do
  let tr := tr.append "aux info" (.aux maxDegree numVars)
  let (st, tr) ← verifyLoop H pf numVars 0 (verifierInit maxDegree numVars) tr
  let sub ← checkAndGenerateSubclaim st claimedSum
  .ok (sub, tr)

/-! ## Zerocheck (src/subroutines/poly_iop/zero_check/mod.rs) -/

/-- `ZeroCheckSubClaim` (src/subroutines/poly_iop/zero_check/mod.rs L23-31). -/
structure ZeroSubClaim (F : Type) where
  point : List F
  expectedEvaluation : F
  initChallenge : List F
  deriving DecidableEq, Repr

/-- `ZeroCheck::prove` (src/subroutines/poly_iop/zero_check/mod.rs L69-82).  `fresh` is the address allocated for the eq table. -/
def zerocheckProve (H : Oracle F C) (vp : VirtPoly F) (fresh : Nat) (tr : Transcript F C) :
    Res (IOPProof F × Transcript F C) := do
  let (r, tr) ← tr.challenges H "0check r" vp.numVariables
  let fhat ← vp.buildFHat r fresh
  sumcheckProve H fhat tr

/-- `ZeroCheck::verify` (src/subroutines/poly_iop/zero_check/mod.rs L84-120). -/
def zerocheckVerify [DecidableEq F] (H : Oracle F C) (pf : IOPProof F) (maxDegree numVars : Nat)
    (tr : Transcript F C) : Res (ZeroSubClaim F × Transcript F C) := do
  let m ← idx pf.proofs 0
  let a ← idx m 0
  let b ← idx m 1
  if a + b ≠ 0 then .error (.err .invalidProof)
  else do
    let (r, tr) ← tr.challenges H "0check r" numVars
    let (sub, tr) ← sumcheckVerify H 0 pf (maxDegree + 1) numVars tr
    let e ← eqEval sub.point r
    let ex ← fdiv sub.expectedEvaluation e
    .ok (⟨sub.point, ex, r⟩, tr)

end Zksql
