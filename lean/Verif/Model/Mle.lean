import Verif.Model.Bits
import Mathlib.Algebra.Field.Defs
/-!
Dense multilinear extensions: src/arithmetic/multilinear_polynomial.rs and the tables of src/tracker/dmle_utils.rs.
-/
namespace Zksql
variable {F : Type} [Field F]

/-- arkworks `DenseMultilinearExtension` (external, re-exported at
src/arithmetic/multilinear_polynomial.rs L15): number of variables and the table of hypercube values, index bit `j` being
variable `j`. -/
structure Mle (F : Type) where
  numVars : Nat
  evals : List F
  deriving DecidableEq, Repr

namespace Mle

/-- Constructor invariant of `DenseMultilinearExtension`: the table has `2^num_vars` entries. -/
def WF (p : Mle F) : Prop := p.evals.length = 2 ^ p.numVars

instance (p : Mle F) : Decidable p.WF := inferInstanceAs (Decidable (_ = _))

/-- Table entry.  Simplification: out-of-range reads give 0 instead of a panic; on `WF` tables every read made below is in
range. -/
def tbl (p : Mle F) (i : Nat) : F := p.evals.getD i 0

/-- `DenseMultilinearExtension::from_evaluations_vec` / `_slice` (arkworks): asserts the length. -/
def fromEvals (nv : Nat) (l : List F) : Res (Mle F) :=
  if l.length = 2 ^ nv then .ok ⟨nv, l⟩ else .error .panic

end Mle

/-- `fix_one_variable_helper`, parallel build, which is the default feature set
(src/arithmetic/multilinear_polynomial.rs L159-161, L168-174). -/
def fixOnePar (data : List F) (nv : Nat) (r : F) : List F :=
  (List.range (2 ^ (nv - 1))).map fun i =>
    data.getD (2 * i) 0 + (data.getD (2 * i + 1) 0 - data.getD (2 * i) 0) * r

/-- `fix_one_variable_helper`, build without the `parallel` feature
(src/arithmetic/multilinear_polynomial.rs L159-166): note `data[i]` as the base. -/
def fixOneSer (data : List F) (nv : Nat) (r : F) : List F :=
  (List.range (2 ^ (nv - 1))).map fun i =>
    data.getD i 0 + (data.getD (2 * i + 1) 0 - data.getD (2 * i) 0) * r

/-- Loop of `fix_variables` (src/arithmetic/multilinear_polynomial.rs L152-154). -/
def fixLoop : List F → Nat → List F → List F
  | data, _, [] => data
  | data, nv, r :: rs => fixLoop (fixOnePar data nv r) (nv - 1) rs

/-- `fix_variables` (src/arithmetic/multilinear_polynomial.rs L140-157). -/
def fixVariables (p : Mle F) (pt : List F) : Res (Mle F) :=
  if pt.length ≤ p.numVars then
    Mle.fromEvals (p.numVars - pt.length)
      ((fixLoop p.evals p.numVars pt).take (2 ^ (p.numVars - pt.length)))
  else .error .panic

/-- `evaluate_opt` (src/arithmetic/multilinear_polynomial.rs L135-138). -/
def evaluateOpt (p : Mle F) (pt : List F) : Res F :=
  if p.numVars = pt.length then do
    let q ← fixVariables p pt
    match q.evals[0]? with
    | some v => .ok v
    | none => .error .panic
  else .error .panic

/-- arkworks `MultilinearExtension::evaluate`: `None` unless the point has `num_vars` coordinates, else the value
obtained by fixing all variables. -/
def Mle.evaluate (p : Mle F) (pt : List F) : Option F :=
  if p.numVars = pt.length then (fixLoop p.evals p.numVars pt)[0]? else none

/-- Inner loop of `fix_variables_no_par` (src/arithmetic/multilinear_polynomial.rs L195-197): in-place update of
`poly[b]` for `b = 0, 1, ..., cnt-1` in that order, the later reads seeing the earlier writes. -/
def fixInPlace (r : F) : (cnt : Nat) → List F → List F
  | 0, l => l
  | b + 1, l =>
    let l' := fixInPlace r b l
    l'.set b (l'.getD (2 * b) 0 + (l'.getD (2 * b + 1) 0 - l'.getD (2 * b) 0) * r)

/-- Outer loop of `fix_variables_no_par` (src/arithmetic/multilinear_polynomial.rs L193-198). -/
def fixLoopNoPar : List F → Nat → List F → List F
  | data, _, [] => data
  | data, nv, r :: rs => fixLoopNoPar (fixInPlace r (2 ^ (nv - 1)) data) (nv - 1) rs

/-- `fix_variables_no_par` (src/arithmetic/multilinear_polynomial.rs L181-200). -/
def fixVariablesNoPar (p : Mle F) (pt : List F) : Res (Mle F) :=
  if pt.length ≤ p.numVars then
    Mle.fromEvals (p.numVars - pt.length)
      ((fixLoopNoPar p.evals p.numVars pt).take (2 ^ (p.numVars - pt.length)))
  else .error .panic

/-- `evaluate_no_par` (src/arithmetic/multilinear_polynomial.rs L176-179). -/
def evaluateNoPar (p : Mle F) (pt : List F) : Res F :=
  if p.numVars = pt.length then do
    let q ← fixVariablesNoPar p pt
    match q.evals[0]? with
    | some v => .ok v
    | none => .error .panic
  else .error .panic

/-- `fix_last_variable_helper` (src/arithmetic/multilinear_polynomial.rs L270-286; both builds agree) and the body of
`fix_last_variable_no_par` (L238-250). -/
def fixLastOne (data : List F) (nv : Nat) (r : F) : List F :=
  (List.range (2 ^ (nv - 1))).map fun i =>
    data.getD i 0 + (data.getD (i + 2 ^ (nv - 1)) 0 - data.getD i 0) * r

/-- Loop of `fix_last_variables` (src/arithmetic/multilinear_polynomial.rs L263-265), over the already reversed point. -/
def fixLastLoop : List F → Nat → List F → List F
  | data, _, [] => data
  | data, nv, r :: rs => fixLastLoop (fixLastOne data nv r) (nv - 1) rs

/-- `fix_last_variables` (src/arithmetic/multilinear_polynomial.rs L251-268). -/
def fixLastVariables (p : Mle F) (pt : List F) : Res (Mle F) :=
  if pt.length ≤ p.numVars then
    Mle.fromEvals (p.numVars - pt.length)
      ((fixLastLoop p.evals p.numVars pt.reverse).take (2 ^ (p.numVars - pt.length)))
  else .error .panic

/-- `fix_last_variable_no_par` (src/arithmetic/multilinear_polynomial.rs L238-250); `nv - 1` underflows at 0. -/
def fixLastVariableNoPar (p : Mle F) (r : F) : Res (Mle F) :=
  if p.numVars = 0 then .error .panic
  else Mle.fromEvals (p.numVars - 1) ((List.range (2 ^ (p.numVars - 1))).map fun i =>
    p.tbl i + r * (p.tbl (i + 2 ^ (p.numVars - 1)) - p.tbl i))

/-- Fold of `fix_last_variables_no_par` over the reversed point. -/
def fixLastNoParLoop (p : Mle F) : List F → Res (Mle F)
  | [] => .ok p
  | r :: rs => do
    let q ← fixLastVariableNoPar p r
    fixLastNoParLoop q rs

/-- `fix_last_variables_no_par` (src/arithmetic/multilinear_polynomial.rs L227-236): `last().unwrap()` panics on an
empty point. -/
def fixLastVariablesNoPar (p : Mle F) (pt : List F) : Res (Mle F) :=
  if pt = [] then .error .panic else fixLastNoParLoop p pt.reverse

/-- `merge_polynomials` (src/arithmetic/multilinear_polynomial.rs L204-225). -/
def mergePolynomials (ps : List (Mle F)) : Res (Mle F) :=
  match ps with
  | [] => .error .panic
  | p0 :: _ =>
    if ps.all (fun p => p0.numVars == p.numVars) then
      let mergedNv := getBatchedNv p0.numVars ps.length
      let scalars := (ps.map Mle.evals).flatten
      if scalars.length ≤ 2 ^ mergedNv then
        Mle.fromEvals mergedNv (scalars ++ List.replicate (2 ^ mergedNv - scalars.length) 0)
      else .error .panic
    else .error (.err .invalidParameters)

/-- Field element of a bit, `F::from(bool)`. -/
def boolF (b : Bool) : F := if b then 1 else 0

/-- `binary_decompose` (src/tracker/dmle_utils.rs L21-24). -/
def binaryDecompose (input numVar : Nat) : List F := (bitDecompose input numVar).map boolF

/-- `gen_eval_point` (src/arithmetic/util.rs L23-29). -/
def genEvalPoint (index indexLen : Nat) (point : List F) : List F :=
  point ++ (bitDecompose index indexLen).map boolF

/-- `dmle_increase_nv_front` (src/tracker/dmle_utils.rs L28-47). -/
def increaseNvFront (p : Mle F) (newNv : Nat) : Res (Mle F) :=
  if p.numVars = newNv then .ok p
  else if p.numVars > newNv then .error .panic
  else
    let oldLen := 2 ^ p.numVars
    let copies := 2 ^ newNv / oldLen
    Mle.fromEvals newNv ((List.range oldLen).flatMap fun i => List.replicate copies (p.tbl i))

/-- `dmle_increase_nv_back` (src/tracker/dmle_utils.rs L51-69): entry `i ≥ old_len` is a copy of entry
`i % old_len`, which is below `old_len` and therefore never itself overwritten. -/
def increaseNvBack (p : Mle F) (newNv : Nat) : Res (Mle F) :=
  if p.numVars = newNv then .ok p
  else if p.numVars > newNv then .error .panic
  else
    let oldLen := 2 ^ p.numVars
    Mle.fromEvals newNv ((List.range (2 ^ newNv)).map fun i =>
      if i < oldLen then p.tbl i else p.tbl (i % oldLen))

/-- `random_mle_list` (src/arithmetic/multilinear_polynomial.rs L21-51).  `tape k` is the `k`-th field element drawn;
row `i` draws entries `i*degree .. i*degree+degree-1`, one per multiplicand. -/
def randomMleList (nv degree : Nat) (tape : Nat → F) : Res (List (Mle F) × F) := do
  let rows := 2 ^ nv
  let sum := (List.range rows).foldl (fun s i =>
    s + (List.range degree).foldl (fun p j => p * tape (i * degree + j)) 1) 0
  let list ← (List.range degree).mapM fun j =>
    Mle.fromEvals nv ((List.range rows).map fun i => tape (i * degree + j))
  return (list, sum)

/-- `random_zero_mle_list` (src/arithmetic/multilinear_polynomial.rs L54-79): the first multiplicand is zero;
`multiplicands[0]` panics for degree 0.  Row `i` draws `degree - 1` elements. -/
def randomZeroMleList (nv degree : Nat) (tape : Nat → F) : Res (List (Mle F)) :=
  if degree = 0 then .error .panic
  else (List.range degree).mapM fun j =>
    Mle.fromEvals nv ((List.range (2 ^ nv)).map fun i =>
      if j = 0 then 0 else tape (i * (degree - 1) + (j - 1)))

/-- `identity_permutation` (src/arithmetic/multilinear_polynomial.rs L81-84). -/
def identityPermutation (numVars numChunks : Nat) : List F :=
  (List.range (numChunks * 2 ^ numVars)).map (fun i : Nat => (i : F))

/-- `identity_permutation_mles` (src/arithmetic/multilinear_polynomial.rs L87-100). -/
def identityPermutationMles (numVars numChunks : Nat) : Res (List (Mle F)) :=
  (List.range numChunks).mapM fun i =>
    Mle.fromEvals numVars ((List.range (2 ^ numVars)).map fun k => ((i * 2 ^ numVars + k : Nat) : F))

/-- Loop of `random_permutation` (src/arithmetic/multilinear_polynomial.rs L110-113): remove index
`rng % remaining.len()` from the pool; `tape` lists the successive `next_u64` values. -/
def drawAll {α : Type*} (tape : Nat → Nat) : (fuel : Nat) → (step : Nat) → List α → List α
  | 0, _, _ => []
  | n + 1, k, pool =>
    match pool[tape k % pool.length]? with
    | none => []
    | some x => x :: drawAll tape n (k + 1) (pool.eraseIdx (tape k % pool.length))

/-- `random_permutation` (src/arithmetic/multilinear_polynomial.rs L102-115). -/
def randomPermutation (numVars numChunks : Nat) (tape : Nat → Nat) : List F :=
  drawAll tape (numChunks * 2 ^ numVars) 0 (identityPermutation numVars numChunks)

/-- `random_permutation_mles` (src/arithmetic/multilinear_polynomial.rs L118-133). -/
def randomPermutationMles (numVars numChunks : Nat) (tape : Nat → Nat) : Res (List (Mle F)) :=
  let v : List F := randomPermutation numVars numChunks tape
  (List.range numChunks).mapM fun i =>
    Mle.fromEvals numVars ((v.drop (i * 2 ^ numVars)).take (2 ^ numVars))

end Zksql
