import Verif.Model.Mle
/-!
Virtual polynomials: src/arithmetic/virtual_polynomial.rs, and the `eq` helpers of src/tracker/dmle_utils.rs and
src/subroutines/pcs/multilinear_kzg/util.rs.
-/
namespace Zksql
variable {F : Type} [Field F]

/-- `Arc<DenseMultilinearExtension<F>>`: the table together with its address (`Arc::as_ptr`).  Simplification: an address is a
natural number; that equal addresses hold equal tables is a hypothesis of the theorems that need it (Rust guarantees it while
the `Arc`s are alive, and every stored `Arc` is). -/
structure ArcMle (F : Type) where
  ptr : Nat
  mle : Mle F
  deriving DecidableEq, Repr

/-- `VirtualPolynomial` and `VPAuxInfo` (src/arithmetic/virtual_polynomial.rs L50-72).  The `HashMap` from addresses to indices
is an association list. -/
structure VirtPoly (F : Type) where
  maxDegree : Nat
  numVariables : Nat
  products : List (F × List Nat)
  flat : List (ArcMle F)
  table : List (Nat × Nat)
  deriving DecidableEq, Repr

namespace VirtPoly

/-- `VirtualPolynomial::new` (src/arithmetic/virtual_polynomial.rs L97-108). -/
def new (nv : Nat) : VirtPoly F := ⟨0, nv, [], [], []⟩

/-- `VirtualPolynomial::new_from_mle` (src/arithmetic/virtual_polynomial.rs L111-128). -/
def newFromMle (a : ArcMle F) (c : F) : VirtPoly F :=
  ⟨1, a.mle.numVars, [(c, [0])], [a], [(a.ptr, 0)]⟩

/-- The `for` loop of `add_mle_list` (src/arithmetic/virtual_polynomial.rs L152-169); the second component is `self` as
mutated so far, also when the first is an error. -/
def addLoop (vp : VirtPoly F) : List (ArcMle F) → List Nat → Res (List Nat) × VirtPoly F
  | [], acc => (.ok acc, vp)
  | a :: as, acc =>
    if a.mle.numVars ≠ vp.numVariables then (.error (.err .invalidParameters), vp)
    else match vp.table.lookup a.ptr with
      | some i => addLoop vp as (acc ++ [i])
      | none =>
        addLoop { vp with flat := vp.flat ++ [a], table := (a.ptr, vp.flat.length) :: vp.table } as
          (acc ++ [vp.flat.length])

/-- `VirtualPolynomial::add_mle_list` (src/arithmetic/virtual_polynomial.rs L136-172).  Returns the result and `self` after
the call. -/
def addMleList (vp : VirtPoly F) (l : List (ArcMle F)) (c : F) : Res Unit × VirtPoly F :=
  if l = [] then (.error (.err .invalidParameters), vp)
  else
    match addLoop { vp with maxDegree := max vp.maxDegree l.length } l [] with
    | (.error e, vp') => (.error e, vp')
    | (.ok idx, vp') => (.ok (), { vp' with products := vp'.products ++ [(c, idx)] })

/-- `VirtualPolynomial::mul_by_mle` (src/arithmetic/virtual_polynomial.rs L178-216). -/
def mulByMle (vp : VirtPoly F) (a : ArcMle F) (c : F) : Res Unit × VirtPoly F :=
  if a.mle.numVars ≠ vp.numVariables then (.error (.err .invalidParameters), vp)
  else
    let (i, vp') := match vp.table.lookup a.ptr with
      | some i => (i, vp)
      | none => (vp.flat.length,
          { vp with flat := vp.flat ++ [a], table := (a.ptr, vp.flat.length) :: vp.table })
    (.ok (), { vp' with
      products := vp'.products.map fun p => (p.1 * c, p.2 ++ [i])
      maxDegree := vp'.maxDegree + 1 })

/-- The sum `Σ_(c,p) c * Π_{i in p} evals[i]` used by `evaluate` (src/arithmetic/virtual_polynomial.rs L241-245), with
indexing panics. -/
def combine (products : List (F × List Nat)) (get : Nat → Res F) : Res F := do
  let terms ← products.mapM fun p => do
    let vs ← p.2.mapM get
    .ok (p.1 * vs.prod)
  .ok terms.sum

/-- `VirtualPolynomial::evaluate` (src/arithmetic/virtual_polynomial.rs L220-249). -/
def evaluate (vp : VirtPoly F) (pt : List F) : Res F :=
  if vp.numVariables ≠ pt.length then .error (.err .invalidParameters)
  else do
    let evals ← vp.flat.mapM fun a => unwrap (a.mle.evaluate pt)
    combine vp.products (idx evals)

/-- `impl Add for &VirtualPolynomial` (src/arithmetic/virtual_polynomial.rs L74-92): the `expect` is a panic. -/
def add (self other : VirtPoly F) : Res (VirtPoly F) :=
  other.products.foldlM (init := self) fun res p => do
    let cur ← p.2.mapM (idx other.flat)
    expectState (res.addMleList cur p.1)

/-- `VirtualPolynomial::materialize` (src/arithmetic/virtual_polynomial.rs L333-346). -/
def materialize (vp : VirtPoly F) : Res (Mle F) := do
  let evals ← (List.range (2 ^ vp.numVariables)).mapM fun pt =>
    combine vp.products fun i => do
      let a ← idx vp.flat i
      idx a.mle.evals pt
  Mle.fromEvals vp.numVariables evals

end VirtPoly

/-- `build_eq_x_r_helper` (src/arithmetic/virtual_polynomial.rs L410-446); the buffer is the returned list. -/
def buildEqHelper : List F → Res (List F)
  | [] => .error (.err .invalidParameters)
  | [r] => .ok [1 - r, r]
  | r :: r' :: rs => do
    let buf ← buildEqHelper (r' :: rs)
    .ok ((List.range (2 * buf.length)).map fun i =>
      let b := buf.getD (i / 2) 0
      let tmp := r * b
      if i % 2 = 0 then b - tmp else tmp)

/-- `build_eq_x_r_vec` (src/arithmetic/virtual_polynomial.rs L389-405). -/
def buildEqVec (r : List F) : Res (List F) := buildEqHelper r

/-- `build_eq_x_r` (src/arithmetic/virtual_polynomial.rs L374-381, and the copy in src/tracker/dmle_utils.rs L78-85).  The
`Arc` is added by the caller. -/
def buildEq (r : List F) : Res (Mle F) := do
  let evals ← buildEqVec r
  Mle.fromEvals r.length evals

/-- `eq_eval` (src/arithmetic/virtual_polynomial.rs L352-366; identical copies in src/tracker/dmle_utils.rs L88-100 and
src/subroutines/pcs/multilinear_kzg/util.rs L37-51). -/
def eqEval (x y : List F) : Res F :=
  if x.length ≠ y.length then .error (.err .invalidParameters)
  else .ok ((x.zip y).foldl (fun res p => res * (p.1 * p.2 + p.1 * p.2 - p.1 - p.2 + 1)) 1)

/-- `VirtualPolynomial::build_f_hat` (src/arithmetic/virtual_polynomial.rs L301-318).  `fresh` is the address of the newly
allocated `Arc` holding the eq table. -/
def VirtPoly.buildFHat (vp : VirtPoly F) (r : List F) (fresh : Nat) : Res (VirtPoly F) :=
  if vp.numVariables ≠ r.length then .error (.err .invalidParameters)
  else do
    let e ← buildEq r
    tryState (vp.mulByMle ⟨fresh, e⟩ 1)

/-- Random draws consumed by one product of `rand`: raw multiplicand count, table entries, coefficient, and the addresses of the
new `Arc`s. -/
structure ProductTape (F : Type) where
  count : Nat
  entries : Nat → F
  coeff : F
  addr : Nat → Nat

/-- `rng.gen_range(lo..hi)`: panics on an empty range, otherwise some value in it. -/
def genRange (lo hi raw : Nat) : Res Nat := if lo < hi then .ok (lo + raw % (hi - lo)) else .error .panic

/-- `VirtualPolynomial::rand` (src/arithmetic/virtual_polynomial.rs L252-273); one tape per product. -/
def VirtPoly.rand (nv lo hi : Nat) (tapes : List (ProductTape F)) : Res (VirtPoly F × F) :=
  tapes.foldlM (init := (VirtPoly.new nv, 0)) fun st t => do
    let m ← genRange lo hi t.count
    let (l, s) ← randomMleList nv m t.entries
    let vp ← tryState (st.1.addMleList (l.mapIdx fun i p => ⟨t.addr i, p⟩) t.coeff)
    .ok (vp, st.2 + s * t.coeff)

/-- `VirtualPolynomial::rand_zero` (src/arithmetic/virtual_polynomial.rs L277-293). -/
def VirtPoly.randZero (nv lo hi : Nat) (tapes : List (ProductTape F)) : Res (VirtPoly F) :=
  tapes.foldlM (init := VirtPoly.new nv) fun vp t => do
    let m ← genRange lo hi t.count
    let l ← randomZeroMleList nv m t.entries
    tryState (vp.addMleList (l.mapIdx fun i p => ⟨t.addr i, p⟩) t.coeff)

/-- `eq_extension` (src/subroutines/pcs/multilinear_kzg/util.rs L17-34): one table per coordinate of `t`. -/
def eqExtension (t : List F) : Res (List (Mle F)) :=
  (List.range t.length).mapM fun i =>
    Mle.fromEvals t.length ((List.range (2 ^ t.length)).map fun x =>
      let ti := t.getD i 0
      let xi : F := if x.testBit i then 1 else 0
      let tixi := ti * xi
      tixi + tixi - xi - ti + 1)

end Zksql
