import Verif.Model.ProverTracker
import Verif.Model.Trail
import Mathlib.Data.List.Sort
/-!
Compiling a proof: src/tracker/prover_tracker.rs L488-624, src/tracker/tracker_structs.rs.
-/
namespace Zksql
variable {F C B : Type} [Field F]

/-- The part of the trait `PolynomialCommitmentScheme` used by the trackers (src/subroutines/pcs/mod.rs), with the parameters of both sides
applied.  `B` is the type of batch opening proofs.  `openTrail` and `checkTrail` are the transcripts that `multi_open` and `batch_verify` leave when they do not
return `Ok`. -/
structure Pcs (F C B : Type) [Field F] where
  commit : Mle F → Res C
  multiOpen : List (Mle F) → List (List F) → List F → Transcript F C → Res (B × Transcript F C)
  batchVerify : List C → List (List F) → B → Transcript F C → Res (Bool × Transcript F C)
  openTrail : List (Mle F) → List (List F) → Transcript F C → Transcript F C := fun _ _ tr => tr
  checkTrail : List C → List (List F) → B → Transcript F C → Transcript F C := fun _ _ _ tr => tr

/-- The multilinear KZG scheme as an instance of the trait (src/subroutines/pcs/multilinear_kzg/mod.rs L57-183). -/
def kzgPcs [DecidableEq F] {E : Curve F} (H : Oracle F E.G1) (pp : ProverParam E) (vp : VerifierParam E) : Pcs F E.G1 (BatchProof E) where
  commit := kzgCommit pp
  multiOpen := multiOpen H pp
  batchVerify := batchVerify H vp
  openTrail := multiOpenTrail H
  checkTrail := batchVerifyTrail H

/-- `CompiledZKSQLProof` (src/tracker/tracker_structs.rs L56-63); `sc_aux_info` is its degree and number of variables. -/
structure CompiledProof (F C B : Type) where
  comms : List (Nat × C)
  sumcheckClaims : List (Nat × F)
  scProof : IOPProof F
  scMaxDegree : Nat
  scNumVars : Nat
  queryMap : List ((Nat × List F) × F)
  pcsProof : List B

/-- `CompiledZKSQLProof::default()`. -/
def CompiledProof.default : CompiledProof F C B := ⟨[], [], ⟨[], []⟩, 0, 0, [], []⟩

namespace PTracker

/-- The largest number of variables of a material polynomial (src/tracker/prover_tracker.rs L493); a panic when there is none. -/
def maxMatNv (t : PTracker F C) : Res Nat :=
  match t.mats with
  | [] => .error .panic
  | m :: ms => .ok (ms.foldl (fun n e => max n e.2.mle.numVars) m.2.mle.numVars)

/-- Extending every smaller material polynomial (src/tracker/prover_tracker.rs L495-501), each into a new `Arc`; the
iteration order of the map only affects the addresses. -/
def extendMats (nv : Nat) : List (Nat × ArcMle F) → Nat → Res (List (Nat × ArcMle F) × Nat)
  | [], heap => .ok ([], heap)
  | (id, a) :: rest, heap =>
    if a.mle.numVars ≠ nv then do
      let m ← increaseNvBack a.mle nv
      let (rest', heap') ← extendMats nv rest (heap + 1)
      .ok ((id, ⟨heap, m⟩) :: rest', heap')
    else do
      let (rest', heap') ← extendMats nv rest heap
      .ok ((id, a) :: rest', heap')

/-- The sums of the claimed polynomials (src/tracker/prover_tracker.rs L505-509). -/
def trueSums : List (Nat × F) → Act (PTracker F C) (List F)
  | [] => pure []
  | c :: cs => do
    let e ← evaluations c.1
    let rest ← trueSums cs
    pure (e.sum :: rest)

/-- `equalize_materialized_poly_nv` (src/tracker/prover_tracker.rs L491-515). -/
def equalize : Act (PTracker F C) Nat := do
  let nv ← Act.reads maxMatNv
  let r ← Act.reads fun t => extendMats nv t.mats t.heap
  Act.modify fun t => { t with mats := r.1, heap := r.2 }
  let claims ← Act.reads fun t => .ok t.sumClaims
  let sums ← trueSums claims
  Act.modify fun t => { t with sumClaims := List.zipWith (fun c s => (c.1, s)) t.sumClaims sums }
  pure nv

/-- A challenge whose failure is a panic (`.unwrap()`). -/
def challengeU (H : Oracle F C) (label : String) : Act (PTracker F C) F := Act.expect (challenge H label)

/-- Loop of `convert_zerocheck_claims_to_sumcheck_claim` (src/tracker/prover_tracker.rs L521-525). -/
def foldZeroClaims (H : Oracle F C) : List Nat → Nat → Act (PTracker F C) Nat
  | [], agg => pure agg
  | c :: cs, agg => do
    let ch ← challengeU H "zerocheck challenge"
    let p ← mulScalar c ch
    let agg ← addSubPolys agg p false
    foldZeroClaims H cs agg

/-- `get_and_append_challenge_vectors(..).unwrap()` on the tracker's transcript (src/tracker/prover_tracker.rs L528). -/
def challengesU (H : Oracle F C) (label : String) (n : Nat) : Act (PTracker F C) (List F) := fun t =>
  match t.transcript.challenges H label n with
  | .ok (cs, tr) => (.ok cs, { t with transcript := tr })
  | .error _ => (.error .panic, t)

/-- The zero polynomial in `nv` variables (src/tracker/prover_tracker.rs L519, L554). -/
def zeroMle (nv : Nat) : Res (Mle F) := Mle.fromEvals nv (List.replicate (2 ^ nv) 0)

/-- `convert_zerocheck_claims_to_sumcheck_claim` (src/tracker/prover_tracker.rs L517-537). -/
def convertZero (H : Oracle F C) (nv : Nat) : Act (PTracker F C) Unit := do
  let z ← Act.lift (zeroMle nv)
  let agg0 ← trackMat z
  let claims ← Act.reads fun t => .ok t.zeroClaims
  let agg ← foldZeroClaims H claims agg0
  let r ← challengesU H "0check r" nv
  let e ← Act.expect (Act.lift (buildEq r))
  let eqId ← trackMat e
  let p ← mulPolys agg eqId
  addSumClaim p 0

/-- Loop aggregating the sum claims (src/tracker/prover_tracker.rs L556-561). -/
def foldSumClaims (H : Oracle F C) : List (Nat × F) → Nat → F → Act (PTracker F C) (Nat × F)
  | [], agg, s => pure (agg, s)
  | c :: cs, agg, s => do
    let ch ← challengeU H "sumcheck challenge"
    let p ← mulScalar c.1 ch
    let agg ← addSubPolys agg p false
    foldSumClaims H cs agg (s + c.2 * ch)

/-- Equalising and aggregating all claims: the aggregated polynomial and sum (src/tracker/prover_tracker.rs L547-561). -/
def aggregate (H : Oracle F C) : Act (PTracker F C) (Nat × F) := do
  let nv ← equalize
  convertZero H nv
  let z ← Act.lift (zeroMle nv)
  let agg0 ← trackMat z
  let claims ← Act.reads fun t => .ok t.sumClaims
  foldSumClaims H claims agg0 0

/-- The debug-build check of the aggregated sum (src/tracker/prover_tracker.rs L564-571): it also materialises the aggregated polynomial. -/
def debugCheck [DecidableEq F] (debug : Bool) (agg : Nat × F) : Act (PTracker F C) Unit :=
  if debug then do
    let e ← evaluations agg.1
    Act.lift (if e.sum ≠ agg.2 then .error (.err .invalidProver) else .ok ())
  else pure ()

/-- `SumCheck::prove(..).unwrap()` on the tracker's transcript (src/tracker/prover_tracker.rs L574). -/
def proveSumcheck (H : Oracle F C) (vp : VirtPoly F) : Act (PTracker F C) (IOPProof F) := fun t =>
  match sumcheckProve H vp t.transcript with
  | .ok (pf, tr) => (.ok pf, { t with transcript := tr })
  | .error _ => (.error .panic, { t with transcript := sumcheckProveTrail H vp t.transcript })

/-- The committed identifiers in increasing order (src/tracker/prover_tracker.rs L579-580). -/
def sortedIds {α : Type} (m : List (Nat × α)) : List Nat := (m.map (·.1)).insertionSort (· ≤ ·)

/-- `PCS::multi_open` on the tracker's transcript; a returned error becomes `InvalidProver`
(src/tracker/prover_tracker.rs L597-604). -/
def openBatch (pcs : Pcs F C B) (polys : List (Mle F)) (points : List (List F)) (evals : List F) : Act (PTracker F C) B := fun t =>
  match pcs.multiOpen polys points evals t.transcript with
  | .ok (pf, tr) => (.ok pf, { t with transcript := tr })
  | .error .panic => (.error .panic, { t with transcript := pcs.openTrail polys points t.transcript })
  | .error (.err _) => (.error (.err .invalidProver), { t with transcript := pcs.openTrail polys points t.transcript })

/-- The claimed sums by identifier: a later claim on the same identifier wins (src/tracker/prover_tracker.rs L607-610). -/
def claimMap (claims : List (Nat × F)) : List (Nat × F) := claims.foldl (fun m c => amInsert c.1 c.2 m) []

/-- `compile_proof` (src/tracker/prover_tracker.rs L540-624).  `debug` is `cfg(debug_assertions)`. -/
def compile [DecidableEq F] (debug : Bool) (pcs : Pcs F C B) (H : Oracle F C) : Act (PTracker F C) (CompiledProof F C B) := do
  let agg ← aggregate H
  debugCheck debug agg
  let vp ← Act.reads fun t => t.toArith agg.1
  let pf ← proveSumcheck H vp
  let ids ← Act.reads fun t => .ok (sortedIds t.comms)
  let polys ← Act.reads fun t => ids.mapM fun id => do
    let a ← unwrap (t.mats.lookup id)
    .ok a.mle
  let evals ← Act.lift (polys.mapM fun p => unwrap (p.evaluate pf.point))
  let bp ← openBatch pcs polys (ids.map fun _ => pf.point) evals
  Act.reads fun t => .ok
    { comms := t.comms
      sumcheckClaims := claimMap t.sumClaims
      scProof := pf
      scMaxDegree := vp.maxDegree
      scNumVars := vp.numVariables
      queryMap := ids.map fun id => ((id, pf.point), 0)
      pcsProof := [bp] }

end PTracker
end Zksql
