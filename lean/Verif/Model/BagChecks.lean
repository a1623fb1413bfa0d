import Verif.Model.Bag
import Mathlib.Data.List.Sort
/-!
Advice computations and the bag protocols built from the multiset check: src/zksql_poly_iop/{util/multiplicity_count.rs, bag_inclusion, bag_presc_perm,
bag_sort, bag_supp, bag_disjoint, set_disjoint, set_diff, set_union, set_intersect, join_reduction}.
-/
namespace Zksql
variable {F C B : Type} [Field F] [DecidableEq F]

/-! ### Counting -/

/-- Loop body of `vec_multiplicity_count` (src/zksql_poly_iop/util/multiplicity_count.rs L18-30).  Simplification: the counts do not overflow
`u64`. -/
def multCountStep (m : List (F × Nat)) (val sel : F) : List (F × Nat) :=
  if sel = 0 then m
  else match m.lookup val with
    | none => amInsert val 1 m
    | some k => amInsert val (k + 1) m

/-- `vec_multiplicity_count` and `mle_multiplicity_count` (src/zksql_poly_iop/util/multiplicity_count.rs L10-32, L46-56).  The map is an association
list; `sel[i]` out of range panics. -/
def multCount : List F → List F → List (F × Nat) → Res (List (F × Nat))
  | [], _, m => .ok m
  | _ :: _, [], _ => .error .panic
  | p :: ps, s :: ss, m => multCount ps ss (multCountStep m p s)

/-! ### Inclusion -/
namespace Inclusion

/-- The loop of `calc_bag_inclusion_advice_from_mle` (src/zksql_poly_iop/bag_inclusion/utils.rs L45-62). -/
def adviceLoop : List F → List F → List (F × Nat) → Res (List F)
  | [], _, _ => .ok []
  | _ :: _, [], _ => .error .panic
  | v :: vs, s :: ss, m =>
    if s = 0 then do
      let r ← adviceLoop vs ss m
      .ok (0 :: r)
    else match m.lookup v with
      | none => do
        let r ← adviceLoop vs ss m
        .ok (0 :: r)
      | some k => do
        let r ← adviceLoop vs ss (amInsert v 0 m)
        .ok ((k : F) :: r)

/-- `calc_bag_inclusion_advice_from_mle` (src/zksql_poly_iop/bag_inclusion/utils.rs L29-67). -/
def adviceMle (incPoly incSel supPoly supSel : Mle F) : Res (Mle F) := do
  let m ← multCount incPoly.evals incSel.evals []
  let l ← adviceLoop supPoly.evals supSel.evals m
  Mle.fromEvals supPoly.numVars l

/-- `calc_bag_inclusion_advice_from_bag` (src/zksql_poly_iop/bag_inclusion/utils.rs L10-27). -/
def advice (inc sup : Bag) : Act (PTracker F C) (Mle F) := do
  let ip ← inc.poly.evaluations
  let ipm ← Act.lift (Mle.fromEvals inc.numVars ip)
  let is ← inc.selector.evaluations
  let ism ← Act.lift (Mle.fromEvals inc.numVars is)
  let sp ← sup.poly.evaluations
  let spm ← Act.lift (Mle.fromEvals sup.numVars sp)
  let ss ← sup.selector.evaluations
  let ssm ← Act.lift (Mle.fromEvals sup.numVars ss)
  Act.lift (adviceMle ipm ism spm ssm)

/-- `BagInclusionIOP::prove_with_advice` (src/zksql_poly_iop/bag_inclusion/bag_inclusion.rs L27-45). -/
def proveWithAdvice (E : Env F C) (inc sup : Bag) (supM : TPoly) : Act (PTracker F C) Unit := do
  let incM ← TPoly.trackMat (onesMle F inc.numVars)
  Multitool.prove E [inc] [sup] [incM] [supM]

/-- `BagInclusionIOP::prove` (src/zksql_poly_iop/bag_inclusion/bag_inclusion.rs L17-25). -/
def prove (E : Env F C) (inc sup : Bag) : Act (PTracker F C) Unit := do
  let mle ← advice inc sup
  let supM ← TPoly.trackAndCommit E.commit mle
  proveWithAdvice E inc sup supM

/-- `BagInclusionIOP::verify_with_advice` (src/zksql_poly_iop/bag_inclusion/bag_inclusion.rs L57-71). -/
def verifyWithAdvice (E : Env F C) (inc sup : BagComm) (supM : Nat) : Act (VSt F C B) Unit := do
  let one ← VSt.trackVirtual (oneFn F)
  Multitool.verify E [inc] [sup] [one] [supM]

/-- `BagInclusionIOP::verify` (src/zksql_poly_iop/bag_inclusion/bag_inclusion.rs L47-55). -/
def verify (E : Env F C) (inc sup : BagComm) : Act (VSt F C B) Unit := do
  let id ← VSt.getNextId
  let supM ← VSt.transferComm E.debug id
  verifyWithAdvice E inc sup supM

end Inclusion

/-! ### Prescribed permutation -/
namespace PrescPerm

/-- The table 0, 1, 2, ... (src/zksql_poly_iop/bag_presc_perm/bag_presc_perm.rs L41-42). -/
def orderedMle (F : Type) [Field F] (nv : Nat) : Mle F := ⟨nv, (List.range (2 ^ nv)).map fun i : Nat => (i : F)⟩

/-- The vectors `fhat` and `ghat` (src/zksql_poly_iop/bag_presc_perm/bag_presc_perm.rs L48-49): reads out of range panic. -/
def hatLoop (γ : F) (base vals : List F) : List Nat → Res (List F)
  | [] => .ok []
  | i :: is => do
    let a ← idx base i
    let b ← idx vals i
    let r ← hatLoop γ base vals is
    .ok ((a + γ * b) :: r)

/-- `BagPrescPermIOP::prove` (src/zksql_poly_iop/bag_presc_perm/bag_presc_perm.rs L16-71). -/
def prove (E : Env F C) (fx gx : Bag) (perm : TPoly) : Act (PTracker F C) Unit :=
  if fx.numVars ≠ gx.numVars then Act.lift (.error (.err .invalidParameters))
  else if fx.numVars ≠ perm.numVars then Act.lift (.error (.err .invalidParameters))
  else do
    let nv := fx.numVars
    let γ ← PTracker.challenge E.H "gamma"
    let fxEvals ← fx.poly.evaluations
    let gxEvals ← gx.poly.evaluations
    let permEvals ← perm.evaluations
    let fhatEvals ← Act.lift (hatLoop γ (orderedMle F nv).evals fxEvals (List.range (2 ^ fx.numVars)))
    let ghatEvals ← Act.lift (hatLoop γ permEvals gxEvals (List.range (2 ^ gx.numVars)))
    let fhatMle ← Act.lift (Mle.fromEvals fx.numVars fhatEvals)
    let ghatMle ← Act.lift (Mle.fromEvals gx.numVars ghatEvals)
    let one ← TPoly.trackMat (onesMle F nv)
    let ordered ← TPoly.trackMat (orderedMle F nv)
    let fhat ← TPoly.trackAndCommit E.commit fhatMle
    let ghat ← TPoly.trackAndCommit E.commit ghatMle
    let fhatBag ← Bag.new E.debug fhat one
    let ghatBag ← Bag.new E.debug ghat one
    let a ← fx.poly.mulScalar γ
    let b ← ordered.add a
    let fCheck ← b.sub fhatBag.poly
    let c ← gx.poly.mulScalar γ
    let d ← perm.add c
    let gCheck ← d.sub ghatBag.poly
    BagEq.prove E fhatBag ghatBag
    PTracker.addZeroClaim fCheck.id
    PTracker.addZeroClaim gCheck.id

/-- `ordered_closure` (src/zksql_poly_iop/bag_presc_perm/bag_presc_perm.rs L85-92): uses every coordinate of the point. -/
def orderedFn (F : Type) [Field F] : VComm F := .fn fun pt => .ok (go 0 0 pt)
where
  /-- The loop of the closure. -/
  go : Nat → F → List F → F
    | _, r, [] => r
    | i, r, x :: xs => go (i + 1) (r + x * ((2 ^ i : Nat) : F)) xs

/-- `BagPrescPermIOP::verify` (src/zksql_poly_iop/bag_presc_perm/bag_presc_perm.rs L73-110). -/
def verify (E : Env F C) (fx gx : BagComm) (perm : Nat) : Act (VSt F C B) Unit := do
  let γ ← VSt.challenge E.H "gamma"
  let one ← VSt.trackVirtual (oneFn F)
  let ordered ← VSt.trackVirtual (orderedFn F)
  let fid ← VSt.getNextId
  let fhat ← VSt.transferComm E.debug fid
  let gid ← VSt.getNextId
  let ghat ← VSt.transferComm E.debug gid
  let a ← VSt.mulScalar fx.poly γ
  let b ← VSt.addComms ordered a
  let fCheck ← VSt.subComms b fhat
  let c ← VSt.mulScalar gx.poly γ
  let d ← VSt.addComms perm c
  let gCheck ← VSt.subComms d ghat
  BagEq.verify E ⟨fhat, one, fx.numVars⟩ ⟨ghat, one, gx.numVars⟩
  VSt.addZeroClaim fCheck
  VSt.addZeroClaim gCheck

end PrescPerm

/-! ### Strict sort -/
namespace StrictSort

/-- 1, 2, ..., len-1, 0 (src/zksql_poly_iop/bag_sort/bag_sort.rs L45-47, L123-125). -/
def shiftEvals (F : Type) [Field F] (len : Nat) : List F := ((List.range (len - 1)).map fun i => ((i + 1 : Nat) : F)) ++ [0]

/-- 1, ..., 1, 0 (src/zksql_poly_iop/bag_sort/bag_sort.rs L60-61, L129-130). -/
def diffSelEvals (F : Type) [Field F] (len : Nat) : List F := List.replicate (len - 1) 1 ++ [0]

/-- The bag rotated by one (src/zksql_poly_iop/bag_sort/bag_sort.rs L49-51). -/
def rotated : List F → Res (List F)
  | [] => .error .panic
  | x :: xs => .ok (xs ++ [x])

/-- The expected differences of the debug assertion (src/zksql_poly_iop/bag_sort/bag_sort.rs L62-64). -/
def diffEvals (sel q p : List F) : List F := (sel.zip (q.zip p)).map fun e => e.1 * (e.2.1 - e.2.2) + (1 - e.1)

/-- `debug_assert_eq!` on the differences (src/zksql_poly_iop/bag_sort/bag_sort.rs L86-88): reading the evaluations happens in debug builds only. -/
def debugDiff (debug : Bool) (diff : TPoly) (expected : List F) : Act (PTracker F C) Unit :=
  if debug then do
    let e ← diff.evaluations
    Act.assert (e = expected)
  else pure ()

/-- `BagStrictSortIOP::prove` (src/zksql_poly_iop/bag_sort/bag_sort.rs L26-107). -/
def prove (E : Env F C) (sorted range : Bag) : Act (PTracker F C) Unit := do
  let evals ← sorted.poly.evaluations
  let nv := sorted.numVars
  let len := evals.length
  let qEvals ← Act.lift (rotated evals)
  let diffSelMle ← Act.lift (Mle.fromEvals nv (diffSelEvals F len))
  let oneMle ← Act.lift (Mle.fromEvals nv (List.replicate len (1 : F)))
  let shiftMle ← Act.lift (Mle.fromEvals nv (shiftEvals F len))
  let qMle ← Act.lift (Mle.fromEvals nv qEvals)
  let one ← TPoly.trackMat oneMle
  let shift ← TPoly.trackMat shiftMle
  let q ← TPoly.trackAndCommit E.commit qMle
  let qBag ← Bag.new E.debug q one
  PrescPerm.prove E sorted qBag shift
  let diffSel ← TPoly.trackMat diffSelMle
  let qp ← q.sub sorted.poly
  let a ← diffSel.mul qp
  let b ← a.addScalar 1
  let diff ← b.sub diffSel
  debugDiff E.debug diff (diffEvals (diffSelEvals F len) qEvals evals)
  let diffBag ← Bag.new E.debug diff diffSel
  let rangeSel ← TPoly.trackMat (onesMle F range.poly.numVars)
  let rangeBag ← Bag.new E.debug range.poly rangeSel
  Inclusion.prove E diffBag rangeBag
  let dups ← Bag.new E.debug diff sorted.selector
  NoZeros.prove E dups

/-- A closure evaluating a table (src/zksql_poly_iop/bag_sort/bag_sort.rs L127, L132): a point of another length panics. -/
def mleFn (p : Mle F) : VComm F := .fn fun pt => unwrap (p.evaluate pt)

/-- `BagStrictSortIOP::verify` (src/zksql_poly_iop/bag_sort/bag_sort.rs L109-170). -/
def verify (E : Env F C) (sorted range : BagComm) : Act (VSt F C B) Unit := do
  let nv := sorted.numVars
  let one ← VSt.trackVirtual (oneFn F)
  let shift ← VSt.trackVirtual (mleFn ⟨nv, shiftEvals F (2 ^ nv)⟩)
  let qid ← VSt.getNextId
  let q ← VSt.transferComm E.debug qid
  PrescPerm.verify E sorted ⟨q, one, nv⟩ shift
  let diffSel ← VSt.trackVirtual (mleFn ⟨nv, diffSelEvals F (2 ^ nv)⟩)
  let qp ← VSt.subComms q sorted.poly
  let a ← VSt.mulComms diffSel qp
  let b ← VSt.addScalar a 1
  let diff ← VSt.subComms b diffSel
  let rangeSel ← VSt.trackVirtual (oneFn F)
  Inclusion.verify E ⟨diff, diffSel, nv⟩ ⟨range.poly, rangeSel, range.numVars⟩
  NoZeros.verify E ⟨diff, sorted.selector, nv⟩

end StrictSort

/-! ### Support -/
namespace Supp

/-- `BagSuppIOP::prove_with_advice` (src/zksql_poly_iop/bag_supp/bag_supp.rs L40-74). -/
def proveWithAdvice (E : Env F C) (bag supp : Bag) (m : TPoly) (range : Bag) : Act (PTracker F C) Unit := do
  Inclusion.proveWithAdvice E bag supp m
  let chk ← Bag.new E.debug m supp.selector
  NoZeros.prove E chk
  StrictSort.prove E supp range

/-- `BagSuppIOP::prove` (src/zksql_poly_iop/bag_supp/bag_supp.rs L19-38). -/
def prove (E : Env F C) (bag supp range : Bag) : Act (PTracker F C) Unit := do
  let mle ← Inclusion.advice bag supp
  let m ← TPoly.trackAndCommit E.commit mle
  proveWithAdvice E bag supp m range

/-- `BagSuppIOP::verify_with_advice` (src/zksql_poly_iop/bag_supp/bag_supp.rs L97-127). -/
def verifyWithAdvice (E : Env F C) (bag supp : BagComm) (m : Nat) (range : BagComm) : Act (VSt F C B) Unit := do
  Inclusion.verifyWithAdvice E bag supp m
  NoZeros.verify E ⟨m, supp.selector, supp.numVars⟩
  StrictSort.verify E supp range

/-- `BagSuppIOP::verify` (src/zksql_poly_iop/bag_supp/bag_supp.rs L76-95). -/
def verify (E : Env F C) (bag supp range : BagComm) : Act (VSt F C B) Unit := do
  let id ← VSt.getNextId
  let m ← VSt.transferComm E.debug id
  verifyWithAdvice E bag supp m range

/-- Order of the index sort (src/zksql_poly_iop/bag_supp/utils.rs L20): larger selector first, then smaller value.  The triple is (position, value,
selector). -/
def idxLe (E : Env F C) (x y : F × F) : Bool :=
  E.rep y.2 < E.rep x.2 || (E.rep y.2 == E.rep x.2 && E.rep x.1 ≤ E.rep y.1)

/-- The inner loop counting the copies of `val` at the front (src/zksql_poly_iop/bag_supp/utils.rs L41-44): the count and the rest. -/
def run (val : F) : List (F × F) → Nat → Nat × List (F × F)
  | [], k => (k, [])
  | x :: xs, k => if x.2 ≠ 0 ∧ x.1 = val then run val xs (k + 1) else (k, x :: xs)

/-- The outer loop (src/zksql_poly_iop/bag_supp/utils.rs L38-48): distinct values with their counts.  The fuel is the number of entries; each round
consumes at least one. -/
def groups : Nat → List (F × F) → List (F × Nat)
  | 0, _ => []
  | _ + 1, [] => []
  | n + 1, x :: xs =>
    if x.2 = 0 then []
    else
      let r := run x.1 (x :: xs) 0
      (x.1, r.1) :: groups n r.2

/-- `calc_bag_supp_advice` (src/zksql_poly_iop/bag_supp/utils.rs L7-68) on the evaluations of the bag: values, selector and multiplicities.
Simplification: the pairs (value, selector) are sorted instead of their positions, which gives the same reindexed vectors. -/
def adviceVecs (E : Env F C) (len : Nat) (poly sel : List F) : List F × List F × List F :=
  let sorted := (poly.zip sel).insertionSort fun x y => idxLe E x y = true
  let g := groups sorted.length sorted
  (List.replicate (len - g.length) 0 ++ g.map (·.1),
    List.replicate (len - g.length) 0 ++ g.map (fun _ => 1),
    List.replicate (len - g.length) 0 ++ g.map fun e => (e.2 : F))

/-- `calc_bag_supp_advice` (src/zksql_poly_iop/bag_supp/utils.rs L7-68). -/
def advice (E : Env F C) (bag : Bag) : Act (PTracker F C) (Mle F × Mle F × Mle F) := do
  let p ← bag.poly.evaluations
  let s ← bag.selector.evaluations
  let len := 2 ^ bag.numVars
  Act.assert (len ≤ p.length ∧ len ≤ s.length)
  let v := adviceVecs E len (p.take len) (s.take len)
  let a ← Act.lift (Mle.fromEvals bag.numVars v.1)
  let b ← Act.lift (Mle.fromEvals bag.numVars v.2.1)
  let c ← Act.lift (Mle.fromEvals bag.numVars v.2.2)
  pure (a, b, c)

end Supp

/-! ### Disjointness -/
namespace Disjoint

/-- Keys of a map. -/
def keys (m : List (F × Nat)) : List F := m.map (·.1)

/-- The values of both bags, without duplicates, in increasing order (src/zksql_poly_iop/bag_disjoint/utils.rs L31-39). -/
def uniqueVals (E : Env F C) (a b : List (F × Nat)) : List F :=
  ((keys a ++ keys b).dedup).insertionSort fun x y => E.rep x ≤ E.rep y

/-- The multiplicities relative to the unique values (src/zksql_poly_iop/bag_disjoint/utils.rs L50-58). -/
def mults (m : List (F × Nat)) (vals : List F) : List F := vals.map fun v => (((m.lookup v).getD 0 : Nat) : F)

/-- `calc_bag_disjoint_advice` (src/zksql_poly_iop/bag_disjoint/utils.rs L14-66) on evaluations.  `bag_sum_len - unique_vals.len()` underflows (a
panic in debug builds, a huge allocation otherwise) when there are more values than room. -/
def adviceVecs (E : Env F C) (len : Nat) (a b : List (F × Nat)) : Res (List F × List F × List F × List F) :=
  let u := uniqueVals E a b
  if len < u.length then .error .panic
  else
    let pad := List.replicate (len - u.length) (0 : F)
    .ok (pad ++ u, pad ++ List.replicate u.length 1, pad ++ mults a u, pad ++ mults b u)

/-- `bag_multiplicity_count` (src/zksql_poly_iop/util/multiplicity_count.rs L34-44). -/
def bagCount (bag : Bag) : Act (PTracker F C) (List (F × Nat)) := do
  let p ← bag.poly.evaluations
  let s ← bag.selector.evaluations
  Act.lift (multCount p s [])

/-- `calc_bag_disjoint_advice` (src/zksql_poly_iop/bag_disjoint/utils.rs L14-66). -/
def advice (E : Env F C) (a b : Bag) : Act (PTracker F C) (Mle F × Mle F × Mle F × Mle F) := do
  let ma ← bagCount a
  let mb ← bagCount b
  let nv := max a.numVars b.numVars + 1
  let v ← Act.lift (adviceVecs E (2 ^ nv) ma mb)
  let p ← Act.lift (Mle.fromEvals nv v.1)
  let q ← Act.lift (Mle.fromEvals nv v.2.1)
  let r ← Act.lift (Mle.fromEvals nv v.2.2.1)
  let s ← Act.lift (Mle.fromEvals nv v.2.2.2)
  pure (p, q, r, s)

/-- `BagDisjointIOP::prove_with_advice` (src/zksql_poly_iop/bag_disjoint/bag_disjoint.rs L46-84). -/
def proveWithAdvice (E : Env F C) (a b c : Bag) (mA mB : TPoly) (range : Bag) : Act (PTracker F C) Unit := do
  StrictSort.prove E c range
  let mm ← mA.mul mB
  PTracker.addZeroClaim mm.id
  Inclusion.proveWithAdvice E a c mA
  Inclusion.proveWithAdvice E b c mB

/-- `BagDisjointIOP::prove` (src/zksql_poly_iop/bag_disjoint/bag_disjoint.rs L20-44). -/
def prove (E : Env F C) (a b range : Bag) : Act (PTracker F C) Unit := do
  let adv ← advice E a b
  let p ← TPoly.trackAndCommit E.commit adv.1
  let s ← TPoly.trackAndCommit E.commit adv.2.1
  let c ← Bag.new E.debug p s
  let mA ← TPoly.trackAndCommit E.commit adv.2.2.1
  let mB ← TPoly.trackAndCommit E.commit adv.2.2.2
  proveWithAdvice E a b c mA mB range

/-- `BagDisjointIOP::verify_with_advice` (src/zksql_poly_iop/bag_disjoint/bag_disjoint.rs L117-155). -/
def verifyWithAdvice (E : Env F C) (a b c : BagComm) (mA mB : Nat) (range : BagComm) : Act (VSt F C B) Unit := do
  StrictSort.verify E c range
  let mm ← VSt.mulComms mA mB
  VSt.addZeroClaim mm
  Inclusion.verifyWithAdvice E a c mA
  Inclusion.verifyWithAdvice E b c mB

/-- `BagDisjointIOP::verify` (src/zksql_poly_iop/bag_disjoint/bag_disjoint.rs L86-115). -/
def verify (E : Env F C) (a b range : BagComm) : Act (VSt F C B) Unit := do
  let nv := max a.numVars b.numVars + 1
  let i1 ← VSt.getNextId
  let p ← VSt.transferComm E.debug i1
  let i2 ← VSt.getNextId
  let s ← VSt.transferComm E.debug i2
  let i3 ← VSt.getNextId
  let mA ← VSt.transferComm E.debug i3
  let i4 ← VSt.getNextId
  let mB ← VSt.transferComm E.debug i4
  verifyWithAdvice E a b ⟨p, s, nv⟩ mA mB range

end Disjoint

/-! ### Set protocols -/

/-- The evaluations of both bags and zeros up to the length of the sum (src/zksql_poly_iop/set_disjoint/set_disjoint.rs L33-41,
src/zksql_poly_iop/set_union/set_union.rs L34-42).  `len - l.len()` cannot underflow for tables of the right sizes; when it does the Rust code
panics or overflows. -/
def padTo (len : Nat) (l : List F) : Res (List F) :=
  if len < l.length then .error .panic else .ok (l ++ List.replicate (len - l.length) 0)

namespace SetDisjoint

/-- Order of the index sort (src/zksql_poly_iop/set_disjoint/set_disjoint.rs L49): by value, then by selector. -/
def idxLe (E : Env F C) (x y : F × F) : Bool :=
  E.rep x.1 < E.rep y.1 || (E.rep x.1 == E.rep y.1 && E.rep x.2 ≤ E.rep y.2)

/-- Zero out the unused values and sort (src/zksql_poly_iop/set_disjoint/set_disjoint.rs L42-51).  Simplification: pairs are sorted instead of
their positions. -/
def sortedPairs (E : Env F C) (vals sels : List F) : List (F × F) :=
  ((vals.zip sels).map fun e => if e.2 = 0 then (0, e.2) else e).insertionSort fun x y => idxLe E x y = true

/-- `SetDisjointIOP::prove` (src/zksql_poly_iop/set_disjoint/set_disjoint.rs L23-75). -/
def prove (E : Env F C) (a b range : Bag) : Act (PTracker F C) Unit := do
  let nv := max a.numVars b.numVars + 1
  let ap ← a.poly.evaluations
  let bp ← b.poly.evaluations
  let vals ← Act.lift (padTo (2 ^ nv) (ap ++ bp))
  let as ← a.selector.evaluations
  let bs ← b.selector.evaluations
  let sels ← Act.lift (padTo (2 ^ nv) (as ++ bs))
  let l := sortedPairs E vals sels
  let sumMle ← Act.lift (Mle.fromEvals nv (l.map (·.1)))
  let selMle ← Act.lift (Mle.fromEvals nv (l.map (·.2)))
  let p ← TPoly.trackAndCommit E.commit sumMle
  let s ← TPoly.trackAndCommit E.commit selMle
  let sum ← Bag.new E.debug p s
  BagSum.prove E a b sum
  StrictSort.prove E sum range

/-- `SetDisjointIOP::verify` (src/zksql_poly_iop/set_disjoint/set_disjoint.rs L77-99). -/
def verify (E : Env F C) (a b range : BagComm) : Act (VSt F C B) Unit := do
  let nv := max a.numVars b.numVars + 1
  let i1 ← VSt.getNextId
  let p ← VSt.transferComm E.debug i1
  let i2 ← VSt.getNextId
  let s ← VSt.transferComm E.debug i2
  BagSum.verify E a b ⟨p, s, nv⟩
  StrictSort.verify E ⟨p, s, nv⟩ range

end SetDisjoint

namespace SetDiff

/-- `SetDiffIOP::prove` (src/zksql_poly_iop/set_diff/set_diff.rs L20-55). -/
def prove (E : Env F C) (a b l m : Bag) (bm : TPoly) (range : Bag) : Act (PTracker F C) Unit := do
  SetDisjoint.prove E l b range
  BagSum.prove E l m a
  Inclusion.proveWithAdvice E m b bm

/-- `SetDiffIOP::verify` (src/zksql_poly_iop/set_diff/set_diff.rs L57-92). -/
def verify (E : Env F C) (a b l m : BagComm) (bm : Nat) (range : BagComm) : Act (VSt F C B) Unit := do
  SetDisjoint.verify E l b range
  BagSum.verify E l m a
  Inclusion.verifyWithAdvice E m b bm

end SetDiff

namespace SetUnion

/-- `SetUnionIOP::prove` (src/zksql_poly_iop/set_union/set_union.rs L24-67). -/
def prove (E : Env F C) (a b union range : Bag) : Act (PTracker F C) Unit := do
  let nv := max a.numVars b.numVars + 1
  let ap ← a.poly.evaluations
  let bp ← b.poly.evaluations
  let vals ← Act.lift (padTo (2 ^ nv) (ap ++ bp))
  let as ← a.selector.evaluations
  let bs ← b.selector.evaluations
  let sels ← Act.lift (padTo (2 ^ nv) (as ++ bs))
  let sumMle ← Act.lift (Mle.fromEvals nv vals)
  let selMle ← Act.lift (Mle.fromEvals nv sels)
  let p ← TPoly.trackAndCommit E.commit sumMle
  let s ← TPoly.trackAndCommit E.commit selMle
  let sum ← Bag.new E.debug p s
  BagSum.prove E a b sum
  Supp.prove E sum union range

/-- `SetUnionIOP::verify` (src/zksql_poly_iop/set_union/set_union.rs L69-99). -/
def verify (E : Env F C) (a b union range : BagComm) : Act (VSt F C B) Unit := do
  let nv := max a.numVars b.numVars + 1
  let i1 ← VSt.getNextId
  let p ← VSt.transferComm E.debug i1
  let i2 ← VSt.getNextId
  let s ← VSt.transferComm E.debug i2
  BagSum.verify E a b ⟨p, s, nv⟩
  Supp.verify E ⟨p, s, nv⟩ union range

end SetUnion

namespace SetIntersect

/-- `SetIntersectIOP::prove` (src/zksql_poly_iop/set_intersect/set_intersect.rs L20-55). -/
def prove (E : Env F C) (a b l m r range : Bag) : Act (PTracker F C) Unit := do
  BagSum.prove E l m a
  BagSum.prove E m r b
  SetDisjoint.prove E l r range

/-- `SetIntersectIOP::verify` (src/zksql_poly_iop/set_intersect/set_intersect.rs L57-92). -/
def verify (E : Env F C) (a b l m r range : BagComm) : Act (VSt F C B) Unit := do
  BagSum.verify E l m a
  BagSum.verify E m r b
  SetDisjoint.verify E l r range

end SetIntersect

/-! ### Join reduction -/
namespace JoinReduction

/-- The loops over the rows (src/zksql_poly_iop/join_reduction/utils.rs L30-40, L42-52): one where the value is not in the other map. -/
def outside (other : List (F × Nat)) (vals : List F) : List F := vals.map fun v => if (other.lookup v).isNone then 1 else 0

/-- `calc_join_reduction_lr_sel_advice` (src/zksql_poly_iop/join_reduction/utils.rs L7-60). -/
def advice (polyA selA polyB selB : Mle F) : Res (Mle F × Mle F) := do
  let ma ← multCount polyA.evals selA.evals []
  let mb ← multCount polyB.evals selB.evals []
  let l ← Mle.fromEvals polyA.numVars (outside mb polyA.evals)
  let r ← Mle.fromEvals polyB.numVars (outside ma polyB.evals)
  .ok (l, r)

/-- `JoinReductionIOP::prove` (src/zksql_poly_iop/join_reduction/join_reduction.rs L20-82). -/
def prove (E : Env F C) (a b : Bag) (lSel rSel : TPoly) (range : Bag) : Act (PTracker F C) Unit := do
  let nl ← lSel.mulScalar (-1)
  let maSel ← nl.addScalar 1
  let nr ← rSel.mulScalar (-1)
  let mbSel ← nr.addScalar 1
  let x1 ← a.selector.mul lSel
  let lBag ← Bag.new E.debug a.poly x1
  let x2 ← b.selector.mul rSel
  let rBag ← Bag.new E.debug b.poly x2
  let x3 ← a.selector.mul maSel
  let maBag ← Bag.new E.debug a.poly x3
  let x4 ← b.selector.mul mbSel
  let mbBag ← Bag.new E.debug b.poly x4
  SelectorValid.prove lSel
  SelectorValid.prove rSel
  Disjoint.prove E lBag rBag range
  Disjoint.prove E lBag maBag range
  Disjoint.prove E rBag mbBag range
  Inclusion.prove E maBag mbBag
  Inclusion.prove E mbBag maBag

/-- `JoinReductionIOP::verify` (src/zksql_poly_iop/join_reduction/join_reduction.rs L84-147). -/
def verify (E : Env F C) (a b : BagComm) (lSel rSel : Nat) (range : BagComm) : Act (VSt F C B) Unit := do
  let nl ← VSt.mulScalar lSel (-1)
  let maSel ← VSt.addScalar nl 1
  let nr ← VSt.mulScalar rSel (-1)
  let mbSel ← VSt.addScalar nr 1
  let x1 ← VSt.mulComms a.selector lSel
  let x2 ← VSt.mulComms b.selector rSel
  let x3 ← VSt.mulComms a.selector maSel
  let x4 ← VSt.mulComms b.selector mbSel
  SelectorValid.verify lSel
  SelectorValid.verify rSel
  Disjoint.verify E ⟨a.poly, x1, a.numVars⟩ ⟨b.poly, x2, b.numVars⟩ range
  Disjoint.verify E ⟨a.poly, x1, a.numVars⟩ ⟨a.poly, x3, a.numVars⟩ range
  Disjoint.verify E ⟨b.poly, x2, b.numVars⟩ ⟨b.poly, x4, b.numVars⟩ range
  Inclusion.verify E ⟨a.poly, x3, a.numVars⟩ ⟨b.poly, x4, b.numVars⟩
  Inclusion.verify E ⟨b.poly, x4, b.numVars⟩ ⟨a.poly, x3, a.numVars⟩

end JoinReduction
end Zksql
