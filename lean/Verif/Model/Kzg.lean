import Verif.Model.SumCheck
import Mathlib.Algebra.Module.LinearMap.Defs
/-!
The multilinear KZG commitment scheme: src/subroutines/pcs/multilinear_kzg/{srs,mod,batching}.rs.

The pairing groups are modules over the scalar field, written additively, with a bilinear pairing into a third module.
Simplification: affine/projective conversions and prepared points are identities; fixed-base and variable-base multi-scalar
multiplications (arkworks) are the sums they compute; the random generators `g`, `h` and the trapdoor are parameters.
-/
namespace Zksql
variable {F : Type} [Field F]

/-- A pairing-friendly curve: `E::G1`, `E::G2`, `E::TargetField` and the pairing (arkworks `Pairing`). -/
structure Curve (F : Type) [Field F] where
  G1 : Type
  G2 : Type
  GT : Type
  [g1Group : AddCommGroup G1]
  [g2Group : AddCommGroup G2]
  [gtGroup : AddCommGroup GT]
  [g1Module : Module F G1]
  [g2Module : Module F G2]
  [gtModule : Module F GT]
  [gtDec : DecidableEq GT]
  e : G1 →ₗ[F] G2 →ₗ[F] GT

attribute [instance] Curve.g1Group Curve.g2Group Curve.gtGroup Curve.g1Module Curve.g2Module Curve.gtModule Curve.gtDec

/-- `MultilinearProverParam` (src/subroutines/pcs/multilinear_kzg/srs.rs L41-53). -/
structure ProverParam (E : Curve F) where
  numVars : Nat
  powersOfG : List (List E.G1)
  g : E.G1
  h : E.G2

/-- `MultilinearVerifierParam` (src/subroutines/pcs/multilinear_kzg/srs.rs L56-66). -/
structure VerifierParam (E : Curve F) where
  numVars : Nat
  g : E.G1
  h : E.G2
  hMask : List E.G2

/-- `MultilinearUniversalParams` (src/subroutines/pcs/multilinear_kzg/srs.rs L32-38). -/
structure UniversalParams (E : Curve F) where
  proverParam : ProverParam E
  hMask : List E.G2

/-- `remove_dummy_variable` (src/subroutines/pcs/multilinear_kzg/srs.rs L224-235); `log2(len) - pad` underflows when `pad` is too large. -/
def removeDummyVariable (poly : List F) (pad : Nat) : Res (List F) :=
  if pad = 0 then .ok poly
  else if ¬ (2 ^ Nat.log2 poly.length = poly.length) then .error (.err .invalidParameters)
  else if log2Ceil poly.length < pad then .error .panic
  else (List.range (2 ^ (log2Ceil poly.length - pad))).mapM fun x => idx poly (x * 2 ^ pad)

/-- Loop over `i` in reverse of `gen_srs_for_testing` (src/subroutines/pcs/multilinear_kzg/srs.rs L152-162).  The counter is `i + 1`; `eqs` is
the list popped from the back; `acc` is `eq_arr`. -/
def eqArrLoop : Nat → List (Mle F) → List F → List (List F) → Res (List (List F))
  | 0, _, _, acc => .ok acc
  | i + 1, eqs, base, acc => do
    let row ← removeDummyVariable base i
    if i ≠ 0 then do
      let mul ← unwrap eqs.getLast?
      eqArrLoop i eqs.dropLast (List.zipWith (· * ·) base mul.evals) (row :: acc)
    else eqArrLoop i eqs base (row :: acc)

/-- One level of powers (src/subroutines/pcs/multilinear_kzg/srs.rs L166-195): the first `2^(n-i)` entries of row `i` in the exponent.
Simplification: the concatenation of all rows, multiplied in one pass and sliced again, is done row by row; the `assert_eq!` of the first entry
(L189-191) is the last check. -/
def srsLevel (E : Curve F) [DecidableEq E.G1] (g : E.G1) (t : List F) (n : Nat) (rows : List (List F)) (i : Nat) : Res (List E.G1) := do
  let eq ← idx rows i
  let scalars ← (List.range (2 ^ (n - i))).mapM fun x => idx eq x
  let level := scalars.map fun s => s • g
  let t0 ← eqEval (List.replicate (n - i) 0) (t.drop i)
  let first ← idx level 0
  if t0 • g = first then .ok level else .error .panic

/-- `gen_srs_for_testing` (src/subroutines/pcs/multilinear_kzg/srs.rs L128-220) for sampled generators `g`, `h` and trapdoor `t`. -/
def genSrs (E : Curve F) [DecidableEq E.G1] (g : E.G1) (h : E.G2) (t : List F) : Res (UniversalParams E) :=
  let n := t.length
  if n = 0 then .error (.err .invalidParameters)
  else do
    let eqs ← eqExtension t
    let base ← unwrap eqs.getLast?
    let rows ← eqArrLoop n eqs.dropLast base.evals []
    let levels ← (List.range n).mapM (srsLevel E g t n rows)
    .ok ⟨⟨n, levels ++ [[g]], g, h⟩, t.map fun x => x • h⟩

/-- `extract_prover_param` (src/subroutines/pcs/multilinear_kzg/srs.rs L72-81); the subtraction underflows when too much is asked. -/
def extractProverParam {E : Curve F} (srs : UniversalParams E) (k : Nat) : Res (ProverParam E) :=
  if srs.proverParam.numVars < k ∨ srs.proverParam.powersOfG.length < srs.proverParam.numVars - k then .error .panic
  else .ok ⟨k, srs.proverParam.powersOfG.drop (srs.proverParam.numVars - k), srs.proverParam.g, srs.proverParam.h⟩

/-- `extract_verifier_param` (src/subroutines/pcs/multilinear_kzg/srs.rs L84-92). -/
def extractVerifierParam {E : Curve F} (srs : UniversalParams E) (k : Nat) : Res (VerifierParam E) :=
  if srs.proverParam.numVars < k ∨ srs.hMask.length < srs.proverParam.numVars - k then .error .panic
  else .ok ⟨k, srs.proverParam.g, srs.proverParam.h, srs.hMask.drop (srs.proverParam.numVars - k)⟩

/-- `trim` (src/subroutines/pcs/multilinear_kzg/srs.rs L98-123). -/
def trim {E : Curve F} (srs : UniversalParams E) (k : Nat) : Res (ProverParam E × VerifierParam E) :=
  if k > srs.proverParam.numVars then .error (.err .invalidParameters)
  else do
    let ck ← extractProverParam srs k
    let vk ← extractVerifierParam srs k
    .ok (ck, vk)

/-- `PCS::trim` (src/subroutines/pcs/multilinear_kzg/mod.rs L72-93): a univariate degree is an assertion failure, a missing size an error. -/
def pcsTrim {E : Curve F} (srs : UniversalParams E) (degree numVars : Option Nat) : Res (ProverParam E × VerifierParam E) :=
  if degree.isSome then .error .panic
  else match numVars with
    | some k => trim srs k
    | none => .error (.err .invalidParameters)

/-- `msm_unchecked` (arkworks): pairs up to the shorter list. -/
def msm {G : Type} [AddCommGroup G] [Module F G] (bases : List G) (scalars : List F) : G :=
  (List.zipWith (fun b s => s • b) bases scalars).sum

/-- `commit` (src/subroutines/pcs/multilinear_kzg/mod.rs L99-124). -/
def kzgCommit {E : Curve F} (pp : ProverParam E) (p : Mle F) : Res E.G1 :=
  if pp.numVars < p.numVars then .error (.err .invalidParameters)
  else do
    let level ← idx pp.powersOfG (pp.numVars - p.numVars)
    .ok (msm level p.evals)

/-- Loop of `open_internal` (src/subroutines/pcs/multilinear_kzg/mod.rs L229-256), over the zipped point and levels; `f` is the current table. -/
def openLoop {E : Curve F} : List F → List (List E.G1) → List F → Res (List E.G1)
  | p :: ps, gi :: gs, f => do
    let qr ← (List.range (2 ^ ps.length)).mapM fun b => do
      let f1 ← idx f (2 * b + 1)
      let f0 ← idx f (2 * b)
      .ok (f1 - f0, f0 + (f1 - f0) * p)
    let rest ← openLoop ps gs (qr.map (·.2))
    .ok (msm gi (qr.map (·.1)) :: rest)
  | _, _, _ => .ok []

/-- `open_internal` (src/subroutines/pcs/multilinear_kzg/mod.rs L198-261).  `k = nv - 1 - i` is the number of coordinates left. -/
def kzgOpen {E : Curve F} (pp : ProverParam E) (p : Mle F) (pt : List F) : Res (List E.G1 × F) :=
  if p.numVars > pp.numVars then .error (.err .invalidParameters)
  else if p.numVars ≠ pt.length then .error (.err .invalidParameters)
  else
    let ignored := pp.numVars - p.numVars + 1
    if pp.powersOfG.length < ignored + p.numVars then .error .panic
    else do
      let proofs ← openLoop pt ((pp.powersOfG.drop ignored).take p.numVars) p.evals
      let v ← evaluateOpt p pt
      .ok (proofs, v)

/-- `verify_internal` (src/subroutines/pcs/multilinear_kzg/mod.rs L269-326): the pairing product over the proof elements zipped with the
`h_vec`, plus the value term, is the neutral element. -/
def kzgVerify {E : Curve F} (vp : VerifierParam E) (comm : E.G1) (pt : List F) (value : F) (proof : List E.G1) : Res Bool :=
  if vp.numVars < pt.length then .error (.err .invalidParameters)
  else do
    let ignored := vp.numVars - pt.length
    let hVec ← (List.range pt.length).mapM fun i => do
      let hm ← idx vp.hMask (ignored + i)
      let p ← idx pt i
      .ok (hm - p • vp.h)
    .ok (decide ((List.zipWith (fun x y => E.e x y) proof hVec).sum + E.e (value • vp.g - comm) vp.h = 0))

/-! ## Batch opening -/

/-- `DenseMultilinearExtension::is_zero` (arkworks): no variables and value 0. -/
def Mle.isZero [DecidableEq F] (p : Mle F) : Bool := p.numVars == 0 && p.evals.getD 0 0 == 0

/-- `DenseMultilinearExtension::zero` (arkworks). -/
def Mle.zero : Mle F := ⟨0, [0]⟩

/-- `&DenseMultilinearExtension + &DenseMultilinearExtension` (arkworks): the constant zero is neutral for every size, other sizes must agree. -/
def Mle.addM [DecidableEq F] (p q : Mle F) : Res (Mle F) :=
  if q.isZero then .ok p
  else if p.isZero then .ok q
  else if p.numVars ≠ q.numVars then .error .panic
  else Mle.fromEvals p.numVars (List.zipWith (· + ·) p.evals q.evals)

/-- `p += (c, q)` (arkworks `AddAssign<(F, &DenseMultilinearExtension)>`). -/
def Mle.addScaled [DecidableEq F] (p : Mle F) (c : F) (q : Mle F) : Res (Mle F) :=
  p.addM ⟨q.numVars, q.evals.map (c * ·)⟩

/-- Distinct points in order of first occurrence: `point_indices` and `deduped_points` (src/subroutines/pcs/multilinear_kzg/batching.rs L79-91). -/
def dedupPoints [DecidableEq F] : List (List F) → List (List F) → List (List F)
  | acc, [] => acc
  | acc, p :: ps => if p ∈ acc then dedupPoints acc ps else dedupPoints (acc ++ [p]) ps

/-- Fold of `merged_tilde_gs` (src/subroutines/pcs/multilinear_kzg/batching.rs L92-108). -/
def mergeLoop [DecidableEq F] (dd : List (List F)) : List ((Mle F × List F) × F) → List (Mle F) → Res (List (Mle F))
  | [], gs => .ok gs
  | ((poly, point), coeff) :: rest, gs => do
    let i := dd.idxOf point
    let old ← idx gs i
    let new ← old.addScaled coeff poly
    mergeLoop dd rest (gs.set i new)

/-- Loop adding `[merged_tilde_g, tilde_eq]` products (src/subroutines/pcs/multilinear_kzg/batching.rs L128-130).  The `Arc`s of pair `j` have
addresses `2 j` and `2 j + 1`: all are freshly allocated, hence distinct. -/
def buildBatchPoly (nv : Nat) (pairs : List (Mle F × Mle F)) : Res (VirtPoly F) :=
  pairs.zipIdx.foldlM (init := VirtPoly.new nv) fun vp pj =>
    tryState (vp.addMleList [⟨2 * pj.2, pj.1.1⟩, ⟨2 * pj.2 + 1, pj.1.2⟩] 1)

/-- Any returned error of the inner sumcheck becomes `InvalidProver`; panics stay panics
(src/subroutines/pcs/multilinear_kzg/batching.rs L133-144, L235-249). -/
def wrapSumcheck {α : Type} : Res α → Res α
  | .ok a => .ok a
  | .error .panic => .error .panic
  | .error (.err _) => .error (.err .invalidProver)

/-- Fold building `g'` (src/subroutines/pcs/multilinear_kzg/batching.rs L154-158). -/
def gPrimeLoop [DecidableEq F] (a2 : List F) : List (Mle F × List F) → Mle F → Res (Mle F)
  | [], g => .ok g
  | (m, point) :: rest, g => do
    let e ← eqEval a2 point
    let g' ← g.addScaled e m
    gPrimeLoop a2 rest g'

/-- `BatchProof` (src/subroutines/pcs/multilinear_kzg/batching.rs L28-40). -/
structure BatchProof (E : Curve F) where
  sumCheckProof : IOPProof F
  evals : List F
  gPrimeProof : List E.G1

/-- `multi_open_internal` (src/subroutines/pcs/multilinear_kzg/batching.rs L51-173) instantiated with the multilinear KZG scheme. -/
def multiOpen [DecidableEq F] {E : Curve F} (H : Oracle F E.G1) (pp : ProverParam E) (polys : List (Mle F)) (points : List (List F))
    (evals : List F) (tr : Transcript F E.G1) : Res (BatchProof E × Transcript F E.G1) := do
  let p0 ← idx polys 0
  let nv := p0.numVars
  let (t, tr) ← tr.challenges H "t" (log2Ceil polys.length)
  let eqT ← buildEqVec t
  let dd := dedupPoints [] points
  let merged ← mergeLoop dd ((polys.zip points).zip eqT) (List.replicate dd.length Mle.zero)
  let tildeEqs ← dd.mapM fun point => do
    let e ← unwrap (buildEqVec point).toOption
    Mle.fromEvals nv e
  let vp ← buildBatchPoly nv (merged.zip tildeEqs)
  let (pf, tr) ← wrapSumcheck (sumcheckProve H vp tr)
  if pf.point.length < nv then .error .panic
  else do
    let a2 := pf.point.take nv
    let g' ← gPrimeLoop a2 (merged.zip dd) Mle.zero
    let (gp, _) ← kzgOpen pp g' a2
    .ok (⟨pf, evals, gp⟩, tr)

/-- The homomorphic combination of commitments (src/subroutines/pcs/multilinear_kzg/batching.rs L213-221). -/
def gPrimeCommit {E : Curve F} (a2 eqT : List F) (comms : List E.G1) (points : List (List F)) : Res E.G1 := do
  let terms ← points.zipIdx.mapM fun pi => do
    let e ← eqEval a2 pi.1
    let w ← idx eqT pi.2
    let c ← idx comms pi.2
    .ok ((e * w) • c)
  .ok terms.sum

/-- `batch_verify_internal` (src/subroutines/pcs/multilinear_kzg/batching.rs L180-260) instantiated with the multilinear KZG scheme. -/
def batchVerify [DecidableEq F] {E : Curve F} (H : Oracle F E.G1) (vp : VerifierParam E) (comms : List E.G1) (points : List (List F))
    (proof : BatchProof E) (tr : Transcript F E.G1) : Res (Bool × Transcript F E.G1) := do
  let k := comms.length
  let nv := proof.sumCheckProof.point.length
  let (t, tr) ← tr.challenges H "t" (log2Ceil k)
  let a2 := proof.sumCheckProof.point
  let eqT ← buildEqVec t
  let gc ← gPrimeCommit a2 eqT comms points
  let terms ← (eqT.take k).zipIdx.mapM fun ei => do
    let v ← idx proof.evals ei.2
    .ok (ei.1 * v)
  let (sub, tr) ← wrapSumcheck (sumcheckVerify H terms.sum proof.sumCheckProof 2 nv tr)
  let res ← kzgVerify vp gc a2 sub.expectedEvaluation proof.gPrimeProof
  .ok (res, tr)

end Zksql
