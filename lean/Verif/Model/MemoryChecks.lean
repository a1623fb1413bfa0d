import Verif.Model.Memory
import Verif.Model.Tables
/-!
The protocols built from the checks of `Model/Memory.lean`, in programs with several trackers: src/zksql_poly_iop/{bag_inclusion, bag_presc_perm,
bag_sort, bag_supp, bag_disjoint, set_disjoint, set_diff, set_union, set_intersect, join_reduction, index_transform, final_join_one_to_many, group_by,
cross_product}.  Every function takes the address `k` of the tracker it receives; a handle it receives may be of any tracker.
-/
namespace Zksql
variable {F C B : Type} [Field F]

/-- The table of the one-tracker model. -/
def TableRef.table (t : TableRef) : Table := ⟨t.colVals.map (·.poly), t.selector.poly⟩

/-- `Table::num_vars` (src/tracker/bag.rs L86-88). -/
def TableRef.numVars (t : TableRef) : Nat := t.selector.numVars

/-- `TableComm` with the trackers of its handles (src/tracker/bag.rs L100-104); `TableComm::new` (L107-113) checks nothing. -/
structure TableCommRef where
  colVals : List CommRef
  selector : CommRef
  numVars : Nat

/-- The table of the one-tracker model. -/
def TableCommRef.table (t : TableCommRef) : TableComm := ⟨t.colVals.map (·.id), t.selector.id, t.numVars⟩

namespace Mem
variable [DecidableEq F]

/-! ### Inclusion -/
namespace Inclusion

/-- `calc_bag_inclusion_advice_from_bag` (src/zksql_poly_iop/bag_inclusion/utils.rs L10-27): reads from the trackers of the handles. -/
def advice (inc sup : BagRef) : Act (PHeap F C) (Mle F) := do
  let ip ← inc.poly.evaluations
  let ipm ← Act.lift (Mle.fromEvals inc.numVars ip)
  let is ← inc.selector.evaluations
  let ism ← Act.lift (Mle.fromEvals inc.numVars is)
  let sp ← sup.poly.evaluations
  let spm ← Act.lift (Mle.fromEvals sup.numVars sp)
  let ss ← sup.selector.evaluations
  let ssm ← Act.lift (Mle.fromEvals sup.numVars ss)
  Act.lift (Zksql.Inclusion.adviceMle ipm ism spm ssm)

/-- `BagInclusionIOP::prove_with_advice` (src/zksql_poly_iop/bag_inclusion/bag_inclusion.rs L27-45) with tracker `k`. -/
def proveWithAdvice (E : Env F C) (k : Nat) (inc sup : BagRef) (supM : PolyRef) : Act (PHeap F C) Unit := do
  let incM ← PHeap.trackMat k (onesMle F inc.numVars)
  Multitool.prove E k [inc] [sup] [incM] [supM]

/-- `BagInclusionIOP::prove` (src/zksql_poly_iop/bag_inclusion/bag_inclusion.rs L17-25) with tracker `k`. -/
def prove (E : Env F C) (k : Nat) (inc sup : BagRef) : Act (PHeap F C) Unit := do
  let mle ← advice inc sup
  let supM ← PHeap.trackAndCommit E.commit k mle
  proveWithAdvice E k inc sup supM

/-- `BagInclusionIOP::verify_with_advice` (src/zksql_poly_iop/bag_inclusion/bag_inclusion.rs L57-71) with tracker `k`. -/
def verifyWithAdvice (E : Env F C) (k : Nat) (inc sup : BagCommRef) (supM : CommRef) : Act (VMem F C B) Unit := do
  let one ← VMem.trackVirtual k (oneFn F)
  Multitool.verify E k [inc] [sup] [one] [supM]

/-- `BagInclusionIOP::verify` (src/zksql_poly_iop/bag_inclusion/bag_inclusion.rs L47-55) with tracker `k`. -/
def verify (E : Env F C) (k : Nat) (inc sup : BagCommRef) : Act (VMem F C B) Unit := do
  let id ← VMem.on k VSt.getNextId
  let supM ← VMem.transferComm E.debug k id
  verifyWithAdvice E k inc sup supM

end Inclusion

/-! ### Prescribed permutation -/
namespace PrescPerm

/-- `BagPrescPermIOP::prove` (src/zksql_poly_iop/bag_presc_perm/bag_presc_perm.rs L16-71) with tracker `k`. -/
def prove (E : Env F C) (k : Nat) (fx gx : BagRef) (perm : PolyRef) : Act (PHeap F C) Unit :=
  if fx.numVars ≠ gx.numVars then Act.lift (.error (.err .invalidParameters))
  else if fx.numVars ≠ perm.numVars then Act.lift (.error (.err .invalidParameters))
  else do
    let nv := fx.numVars
    let γ ← PHeap.on k (PTracker.challenge E.H "gamma")
    let fxEvals ← fx.poly.evaluations
    let gxEvals ← gx.poly.evaluations
    let permEvals ← perm.evaluations
    let fhatEvals ← Act.lift (Zksql.PrescPerm.hatLoop γ (Zksql.PrescPerm.orderedMle F nv).evals fxEvals (List.range (2 ^ fx.numVars)))
    let ghatEvals ← Act.lift (Zksql.PrescPerm.hatLoop γ permEvals gxEvals (List.range (2 ^ gx.numVars)))
    let fhatMle ← Act.lift (Mle.fromEvals fx.numVars fhatEvals)
    let ghatMle ← Act.lift (Mle.fromEvals gx.numVars ghatEvals)
    let one ← PHeap.trackMat k (onesMle F nv)
    let ordered ← PHeap.trackMat k (Zksql.PrescPerm.orderedMle F nv)
    let fhat ← PHeap.trackAndCommit E.commit k fhatMle
    let ghat ← PHeap.trackAndCommit E.commit k ghatMle
    let fhatBag ← BagRef.new E.debug fhat one
    let ghatBag ← BagRef.new E.debug ghat one
    let a ← fx.poly.mulScalar γ
    let b ← ordered.add a
    let fCheck ← b.sub fhatBag.poly
    let c ← gx.poly.mulScalar γ
    let d ← perm.add c
    let gCheck ← d.sub ghatBag.poly
    BagEq.prove E k fhatBag ghatBag
    PHeap.on k (PTracker.addZeroClaim fCheck.id)
    PHeap.on k (PTracker.addZeroClaim gCheck.id)

/-- `BagPrescPermIOP::verify` (src/zksql_poly_iop/bag_presc_perm/bag_presc_perm.rs L73-110) with tracker `k`. -/
def verify (E : Env F C) (k : Nat) (fx gx : BagCommRef) (perm : CommRef) : Act (VMem F C B) Unit := do
  let γ ← VMem.on k (VSt.challenge E.H "gamma")
  let one ← VMem.trackVirtual k (oneFn F)
  let ordered ← VMem.trackVirtual k (Zksql.PrescPerm.orderedFn F)
  let fid ← VMem.on k VSt.getNextId
  let fhat ← VMem.transferComm E.debug k fid
  let gid ← VMem.on k VSt.getNextId
  let ghat ← VMem.transferComm E.debug k gid
  let a ← fx.poly.mulScalar γ
  let b ← ordered.add a
  let fCheck ← b.sub fhat
  let c ← gx.poly.mulScalar γ
  let d ← perm.add c
  let gCheck ← d.sub ghat
  BagEq.verify E k ⟨fhat, one, fx.numVars⟩ ⟨ghat, one, gx.numVars⟩
  VMem.on k (VSt.addZeroClaim fCheck.id)
  VMem.on k (VSt.addZeroClaim gCheck.id)

end PrescPerm

/-! ### Strict sort -/
namespace StrictSort

/-- `debug_assert_eq!` on the differences (src/zksql_poly_iop/bag_sort/bag_sort.rs L86-88). -/
def debugDiff (debug : Bool) (diff : PolyRef) (expected : List F) : Act (PHeap F C) Unit :=
  if debug then do
    let e ← diff.evaluations
    Act.assert (e = expected)
  else pure ()

/-- `BagStrictSortIOP::prove` (src/zksql_poly_iop/bag_sort/bag_sort.rs L26-107) with tracker `k`. -/
def prove (E : Env F C) (k : Nat) (sorted range : BagRef) : Act (PHeap F C) Unit := do
  let evals ← sorted.poly.evaluations
  let nv := sorted.numVars
  let len := evals.length
  let qEvals ← Act.lift (Zksql.StrictSort.rotated evals)
  let diffSelMle ← Act.lift (Mle.fromEvals nv (Zksql.StrictSort.diffSelEvals F len))
  let oneMle ← Act.lift (Mle.fromEvals nv (List.replicate len (1 : F)))
  let shiftMle ← Act.lift (Mle.fromEvals nv (Zksql.StrictSort.shiftEvals F len))
  let qMle ← Act.lift (Mle.fromEvals nv qEvals)
  let one ← PHeap.trackMat k oneMle
  let shift ← PHeap.trackMat k shiftMle
  let q ← PHeap.trackAndCommit E.commit k qMle
  let qBag ← BagRef.new E.debug q one
  PrescPerm.prove E k sorted qBag shift
  let diffSel ← PHeap.trackMat k diffSelMle
  let qp ← q.sub sorted.poly
  let a ← diffSel.mul qp
  let b ← a.addScalar 1
  let diff ← b.sub diffSel
  debugDiff E.debug diff (Zksql.StrictSort.diffEvals (Zksql.StrictSort.diffSelEvals F len) qEvals evals)
  let diffBag ← BagRef.new E.debug diff diffSel
  let rangeSel ← PHeap.trackMat k (onesMle F range.poly.numVars)
  let rangeBag ← BagRef.new E.debug range.poly rangeSel
  Inclusion.prove E k diffBag rangeBag
  let dups ← BagRef.new E.debug diff sorted.selector
  NoZeros.prove E k dups

/-- `BagStrictSortIOP::verify` (src/zksql_poly_iop/bag_sort/bag_sort.rs L109-170) with tracker `k`. -/
def verify (E : Env F C) (k : Nat) (sorted range : BagCommRef) : Act (VMem F C B) Unit := do
  let nv := sorted.numVars
  let one ← VMem.trackVirtual k (oneFn F)
  let shift ← VMem.trackVirtual k (Zksql.StrictSort.mleFn ⟨nv, Zksql.StrictSort.shiftEvals F (2 ^ nv)⟩)
  let qid ← VMem.on k VSt.getNextId
  let q ← VMem.transferComm E.debug k qid
  PrescPerm.verify E k sorted ⟨q, one, nv⟩ shift
  let diffSel ← VMem.trackVirtual k (Zksql.StrictSort.mleFn ⟨nv, Zksql.StrictSort.diffSelEvals F (2 ^ nv)⟩)
  let qp ← q.sub sorted.poly
  let a ← diffSel.mul qp
  let b ← a.addScalar 1
  let diff ← b.sub diffSel
  let rangeSel ← VMem.trackVirtual k (oneFn F)
  Inclusion.verify E k ⟨diff, diffSel, nv⟩ ⟨range.poly, rangeSel, range.numVars⟩
  NoZeros.verify E k ⟨diff, sorted.selector, nv⟩

end StrictSort

/-! ### Support -/
namespace Supp

/-- `BagSuppIOP::prove_with_advice` (src/zksql_poly_iop/bag_supp/bag_supp.rs L40-74) with tracker `k`. -/
def proveWithAdvice (E : Env F C) (k : Nat) (bag supp : BagRef) (m : PolyRef) (range : BagRef) : Act (PHeap F C) Unit := do
  Inclusion.proveWithAdvice E k bag supp m
  let chk ← BagRef.new E.debug m supp.selector
  NoZeros.prove E k chk
  StrictSort.prove E k supp range

/-- `BagSuppIOP::prove` (src/zksql_poly_iop/bag_supp/bag_supp.rs L19-38) with tracker `k`. -/
def prove (E : Env F C) (k : Nat) (bag supp range : BagRef) : Act (PHeap F C) Unit := do
  let mle ← Inclusion.advice bag supp
  let m ← PHeap.trackAndCommit E.commit k mle
  proveWithAdvice E k bag supp m range

/-- `BagSuppIOP::verify_with_advice` (src/zksql_poly_iop/bag_supp/bag_supp.rs L97-127) with tracker `k`. -/
def verifyWithAdvice (E : Env F C) (k : Nat) (bag supp : BagCommRef) (m : CommRef) (range : BagCommRef) : Act (VMem F C B) Unit := do
  Inclusion.verifyWithAdvice E k bag supp m
  NoZeros.verify E k ⟨m, supp.selector, supp.numVars⟩
  StrictSort.verify E k supp range

/-- `BagSuppIOP::verify` (src/zksql_poly_iop/bag_supp/bag_supp.rs L76-95) with tracker `k`. -/
def verify (E : Env F C) (k : Nat) (bag supp range : BagCommRef) : Act (VMem F C B) Unit := do
  let id ← VMem.on k VSt.getNextId
  let m ← VMem.transferComm E.debug k id
  verifyWithAdvice E k bag supp m range

end Supp

/-! ### Disjointness -/
namespace Disjoint

/-- `bag_multiplicity_count` (src/zksql_poly_iop/util/multiplicity_count.rs L34-44): reads from the trackers of the handles. -/
def bagCount (bag : BagRef) : Act (PHeap F C) (List (F × Nat)) := do
  let p ← bag.poly.evaluations
  let s ← bag.selector.evaluations
  Act.lift (multCount p s [])

/-- `calc_bag_disjoint_advice` (src/zksql_poly_iop/bag_disjoint/utils.rs L14-66). -/
def advice (E : Env F C) (a b : BagRef) : Act (PHeap F C) (Mle F × Mle F × Mle F × Mle F) := do
  let ma ← bagCount a
  let mb ← bagCount b
  let nv := max a.numVars b.numVars + 1
  let v ← Act.lift (Zksql.Disjoint.adviceVecs E (2 ^ nv) ma mb)
  let p ← Act.lift (Mle.fromEvals nv v.1)
  let q ← Act.lift (Mle.fromEvals nv v.2.1)
  let r ← Act.lift (Mle.fromEvals nv v.2.2.1)
  let s ← Act.lift (Mle.fromEvals nv v.2.2.2)
  pure (p, q, r, s)

/-- `BagDisjointIOP::prove_with_advice` (src/zksql_poly_iop/bag_disjoint/bag_disjoint.rs L46-84) with tracker `k`. -/
def proveWithAdvice (E : Env F C) (k : Nat) (a b c : BagRef) (mA mB : PolyRef) (range : BagRef) : Act (PHeap F C) Unit := do
  StrictSort.prove E k c range
  let mm ← mA.mul mB
  PHeap.on k (PTracker.addZeroClaim mm.id)
  Inclusion.proveWithAdvice E k a c mA
  Inclusion.proveWithAdvice E k b c mB

/-- `BagDisjointIOP::prove` (src/zksql_poly_iop/bag_disjoint/bag_disjoint.rs L20-44) with tracker `k`. -/
def prove (E : Env F C) (k : Nat) (a b range : BagRef) : Act (PHeap F C) Unit := do
  let adv ← advice E a b
  let p ← PHeap.trackAndCommit E.commit k adv.1
  let s ← PHeap.trackAndCommit E.commit k adv.2.1
  let c ← BagRef.new E.debug p s
  let mA ← PHeap.trackAndCommit E.commit k adv.2.2.1
  let mB ← PHeap.trackAndCommit E.commit k adv.2.2.2
  proveWithAdvice E k a b c mA mB range

/-- `BagDisjointIOP::verify_with_advice` (src/zksql_poly_iop/bag_disjoint/bag_disjoint.rs L117-155) with tracker `k`. -/
def verifyWithAdvice (E : Env F C) (k : Nat) (a b c : BagCommRef) (mA mB : CommRef) (range : BagCommRef) : Act (VMem F C B) Unit := do
  StrictSort.verify E k c range
  let mm ← mA.mul mB
  VMem.on k (VSt.addZeroClaim mm.id)
  Inclusion.verifyWithAdvice E k a c mA
  Inclusion.verifyWithAdvice E k b c mB

/-- `BagDisjointIOP::verify` (src/zksql_poly_iop/bag_disjoint/bag_disjoint.rs L86-115) with tracker `k`. -/
def verify (E : Env F C) (k : Nat) (a b range : BagCommRef) : Act (VMem F C B) Unit := do
  let nv := max a.numVars b.numVars + 1
  let i1 ← VMem.on k VSt.getNextId
  let p ← VMem.transferComm E.debug k i1
  let i2 ← VMem.on k VSt.getNextId
  let s ← VMem.transferComm E.debug k i2
  let i3 ← VMem.on k VSt.getNextId
  let mA ← VMem.transferComm E.debug k i3
  let i4 ← VMem.on k VSt.getNextId
  let mB ← VMem.transferComm E.debug k i4
  verifyWithAdvice E k a b ⟨p, s, nv⟩ mA mB range

end Disjoint

/-! ### Set protocols -/
namespace SetDisjoint

/-- `SetDisjointIOP::prove` (src/zksql_poly_iop/set_disjoint/set_disjoint.rs L23-75) with tracker `k`. -/
def prove (E : Env F C) (k : Nat) (a b range : BagRef) : Act (PHeap F C) Unit := do
  let nv := max a.numVars b.numVars + 1
  let ap ← a.poly.evaluations
  let bp ← b.poly.evaluations
  let vals ← Act.lift (padTo (2 ^ nv) (ap ++ bp))
  let as ← a.selector.evaluations
  let bs ← b.selector.evaluations
  let sels ← Act.lift (padTo (2 ^ nv) (as ++ bs))
  let l := Zksql.SetDisjoint.sortedPairs E vals sels
  let sumMle ← Act.lift (Mle.fromEvals nv (l.map (·.1)))
  let selMle ← Act.lift (Mle.fromEvals nv (l.map (·.2)))
  let p ← PHeap.trackAndCommit E.commit k sumMle
  let s ← PHeap.trackAndCommit E.commit k selMle
  let sum ← BagRef.new E.debug p s
  BagSum.prove E k a b sum
  StrictSort.prove E k sum range

/-- `SetDisjointIOP::verify` (src/zksql_poly_iop/set_disjoint/set_disjoint.rs L77-99) with tracker `k`. -/
def verify (E : Env F C) (k : Nat) (a b range : BagCommRef) : Act (VMem F C B) Unit := do
  let nv := max a.numVars b.numVars + 1
  let i1 ← VMem.on k VSt.getNextId
  let p ← VMem.transferComm E.debug k i1
  let i2 ← VMem.on k VSt.getNextId
  let s ← VMem.transferComm E.debug k i2
  BagSum.verify E k a b ⟨p, s, nv⟩
  StrictSort.verify E k ⟨p, s, nv⟩ range

end SetDisjoint

namespace SetDiff

/-- `SetDiffIOP::prove` (src/zksql_poly_iop/set_diff/set_diff.rs L20-55) with tracker `k`. -/
def prove (E : Env F C) (k : Nat) (a b l m : BagRef) (bm : PolyRef) (range : BagRef) : Act (PHeap F C) Unit := do
  SetDisjoint.prove E k l b range
  BagSum.prove E k l m a
  Inclusion.proveWithAdvice E k m b bm

/-- `SetDiffIOP::verify` (src/zksql_poly_iop/set_diff/set_diff.rs L57-92) with tracker `k`. -/
def verify (E : Env F C) (k : Nat) (a b l m : BagCommRef) (bm : CommRef) (range : BagCommRef) : Act (VMem F C B) Unit := do
  SetDisjoint.verify E k l b range
  BagSum.verify E k l m a
  Inclusion.verifyWithAdvice E k m b bm

end SetDiff

namespace SetUnion

/-- `SetUnionIOP::prove` (src/zksql_poly_iop/set_union/set_union.rs L24-67) with tracker `k`. -/
def prove (E : Env F C) (k : Nat) (a b union range : BagRef) : Act (PHeap F C) Unit := do
  let nv := max a.numVars b.numVars + 1
  let ap ← a.poly.evaluations
  let bp ← b.poly.evaluations
  let vals ← Act.lift (padTo (2 ^ nv) (ap ++ bp))
  let as ← a.selector.evaluations
  let bs ← b.selector.evaluations
  let sels ← Act.lift (padTo (2 ^ nv) (as ++ bs))
  let sumMle ← Act.lift (Mle.fromEvals nv vals)
  let selMle ← Act.lift (Mle.fromEvals nv sels)
  let p ← PHeap.trackAndCommit E.commit k sumMle
  let s ← PHeap.trackAndCommit E.commit k selMle
  let sum ← BagRef.new E.debug p s
  BagSum.prove E k a b sum
  Supp.prove E k sum union range

/-- `SetUnionIOP::verify` (src/zksql_poly_iop/set_union/set_union.rs L69-99) with tracker `k`. -/
def verify (E : Env F C) (k : Nat) (a b union range : BagCommRef) : Act (VMem F C B) Unit := do
  let nv := max a.numVars b.numVars + 1
  let i1 ← VMem.on k VSt.getNextId
  let p ← VMem.transferComm E.debug k i1
  let i2 ← VMem.on k VSt.getNextId
  let s ← VMem.transferComm E.debug k i2
  BagSum.verify E k a b ⟨p, s, nv⟩
  Supp.verify E k ⟨p, s, nv⟩ union range

end SetUnion

namespace SetIntersect

/-- `SetIntersectIOP::prove` (src/zksql_poly_iop/set_intersect/set_intersect.rs L20-55) with tracker `k`. -/
def prove (E : Env F C) (k : Nat) (a b l m r range : BagRef) : Act (PHeap F C) Unit := do
  BagSum.prove E k l m a
  BagSum.prove E k m r b
  SetDisjoint.prove E k l r range

/-- `SetIntersectIOP::verify` (src/zksql_poly_iop/set_intersect/set_intersect.rs L57-92) with tracker `k`. -/
def verify (E : Env F C) (k : Nat) (a b l m r range : BagCommRef) : Act (VMem F C B) Unit := do
  BagSum.verify E k l m a
  BagSum.verify E k m r b
  SetDisjoint.verify E k l r range

end SetIntersect

/-! ### Join reduction -/
namespace JoinReduction

/-- `JoinReductionIOP::prove` (src/zksql_poly_iop/join_reduction/join_reduction.rs L20-82) with tracker `k`. -/
def prove (E : Env F C) (k : Nat) (a b : BagRef) (lSel rSel : PolyRef) (range : BagRef) : Act (PHeap F C) Unit := do
  let nl ← lSel.mulScalar (-1)
  let maSel ← nl.addScalar 1
  let nr ← rSel.mulScalar (-1)
  let mbSel ← nr.addScalar 1
  let x1 ← a.selector.mul lSel
  let lBag ← BagRef.new E.debug a.poly x1
  let x2 ← b.selector.mul rSel
  let rBag ← BagRef.new E.debug b.poly x2
  let x3 ← a.selector.mul maSel
  let maBag ← BagRef.new E.debug a.poly x3
  let x4 ← b.selector.mul mbSel
  let mbBag ← BagRef.new E.debug b.poly x4
  SelectorValid.prove k lSel
  SelectorValid.prove k rSel
  Disjoint.prove E k lBag rBag range
  Disjoint.prove E k lBag maBag range
  Disjoint.prove E k rBag mbBag range
  Inclusion.prove E k maBag mbBag
  Inclusion.prove E k mbBag maBag

/-- `JoinReductionIOP::verify` (src/zksql_poly_iop/join_reduction/join_reduction.rs L84-147) with tracker `k`. -/
def verify (E : Env F C) (k : Nat) (a b : BagCommRef) (lSel rSel : CommRef) (range : BagCommRef) : Act (VMem F C B) Unit := do
  let nl ← lSel.mulScalar (-1)
  let maSel ← nl.addScalar 1
  let nr ← rSel.mulScalar (-1)
  let mbSel ← nr.addScalar 1
  let x1 ← a.selector.mul lSel
  let x2 ← b.selector.mul rSel
  let x3 ← a.selector.mul maSel
  let x4 ← b.selector.mul mbSel
  SelectorValid.verify k lSel
  SelectorValid.verify k rSel
  Disjoint.verify E k ⟨a.poly, x1, a.numVars⟩ ⟨b.poly, x2, b.numVars⟩ range
  Disjoint.verify E k ⟨a.poly, x1, a.numVars⟩ ⟨a.poly, x3, a.numVars⟩ range
  Disjoint.verify E k ⟨b.poly, x2, b.numVars⟩ ⟨b.poly, x4, b.numVars⟩ range
  Inclusion.verify E k ⟨a.poly, x3, a.numVars⟩ ⟨b.poly, x4, b.numVars⟩
  Inclusion.verify E k ⟨b.poly, x4, b.numVars⟩ ⟨a.poly, x3, a.numVars⟩

end JoinReduction

/-! ### Cross product -/
namespace CrossProduct

/-- The loop over the columns of the first table (src/zksql_poly_iop/cross_product/cross_product.rs L32-35). -/
def incFronts (n : Nat) : List PolyRef → Act (PHeap F C) (List PolyRef)
  | [] => pure []
  | c :: cs => do
    let c' ← c.incFront n
    let cs' ← incFronts n cs
    pure (c' :: cs')

/-- The loop over the columns of the second table (src/zksql_poly_iop/cross_product/cross_product.rs L37-40). -/
def incBacks (n : Nat) : List PolyRef → Act (PHeap F C) (List PolyRef)
  | [] => pure []
  | c :: cs => do
    let c' ← c.incBack n
    let cs' ← incBacks n cs
    pure (c' :: cs')

/-- `CrossProductIOP::prover_cross_product` (src/zksql_poly_iop/cross_product/cross_product.rs L22-51): receives no tracker. -/
def prover (E : Env F C) (a b : TableRef) : Act (PHeap F C) TableRef := do
  let as ← incFronts b.numVars a.colVals
  let bs ← incBacks a.numVars b.colVals
  let sa ← a.selector.incFront b.numVars
  let sb ← b.selector.incBack a.numVars
  let s ← sa.mul sb
  TableRef.new E.debug (as ++ bs) s

/-- The loop over the columns of the first table, verifier (src/zksql_poly_iop/cross_product/cross_product.rs L64-67). -/
def vIncFronts (n : Nat) : List CommRef → Act (VMem F C B) (List CommRef)
  | [] => pure []
  | c :: cs => do
    let c' ← c.incFront n
    let cs' ← vIncFronts n cs
    pure (c' :: cs')

/-- The loop over the columns of the second table, verifier (src/zksql_poly_iop/cross_product/cross_product.rs L69-72). -/
def vIncBacks (n : Nat) : List CommRef → Act (VMem F C B) (List CommRef)
  | [] => pure []
  | c :: cs => do
    let c' ← c.incBack n
    let cs' ← vIncBacks n cs
    pure (c' :: cs')

/-- `CrossProductIOP::verifier_cross_product` (src/zksql_poly_iop/cross_product/cross_product.rs L53-81): receives no tracker. -/
def verifier (a b : TableCommRef) : Act (VMem F C B) TableCommRef := do
  let as ← vIncFronts b.numVars a.colVals
  let bs ← vIncBacks a.numVars b.colVals
  let sa ← a.selector.incFront b.numVars
  let sb ← b.selector.incBack a.numVars
  let s ← sa.mul sb
  pure ⟨as ++ bs, s, a.numVars + b.numVars⟩

end CrossProduct

/-! ### Index transform -/
namespace IndexTransform

/-- `prover_sample_rand_powers` (src/zksql_poly_iop/index_transform/utils.rs L84-99) with tracker `k`. -/
def proverPowers (E : Env F C) (k n : Nat) : Act (PHeap F C) (List F) := do
  let r ← PHeap.on k (PTracker.challenge E.H "r")
  pure (Zksql.IndexTransform.powers r n)

/-- `verifier_sample_rand_powers` (src/zksql_poly_iop/index_transform/utils.rs L101-116) with tracker `k`. -/
def verifierPowers (E : Env F C) (k n : Nat) : Act (VMem F C B) (List F) := do
  let r ← VMem.on k (VSt.challenge E.H "r")
  pure (Zksql.IndexTransform.powers r n)

/-- The loop of `table_row_prover_agg` (src/zksql_poly_iop/index_transform/utils.rs L19-21). -/
def proverAggLoop : PolyRef → List PolyRef → List F → Act (PHeap F C) PolyRef
  | acc, [], _ => pure acc
  | _, _ :: _, [] => Act.lift (.error .panic)
  | acc, c :: cs, r :: rs => do
    let x ← c.mulScalar r
    let acc' ← acc.mul x
    proverAggLoop acc' cs rs

/-- `table_row_prover_agg` (src/zksql_poly_iop/index_transform/utils.rs L10-25). -/
def proverAgg (E : Env F C) (tb : TableRef) (coeffs : List F) : Act (PHeap F C) BagRef := do
  let p ← proverAggLoop tb.selector tb.colVals coeffs
  BagRef.new E.debug p tb.selector

/-- The loop of `table_row_verifier_agg` (src/zksql_poly_iop/index_transform/utils.rs L39-41). -/
def verifierAggLoop : CommRef → List CommRef → List F → Act (VMem F C B) CommRef
  | acc, [], _ => pure acc
  | _, _ :: _, [] => Act.lift (.error .panic)
  | acc, c :: cs, r :: rs => do
    let x ← c.mulScalar r
    let acc' ← acc.mul x
    verifierAggLoop acc' cs rs

/-- `table_row_verifier_agg` (src/zksql_poly_iop/index_transform/utils.rs L30-45). -/
def verifierAgg (tb : TableCommRef) (coeffs : List F) : Act (VMem F C B) BagCommRef := do
  let p ← verifierAggLoop tb.selector tb.colVals coeffs
  pure ⟨p, tb.selector, tb.numVars⟩

/-- `IndexTransformIOP::prove` (src/zksql_poly_iop/index_transform/index_transform.rs L21-36) with tracker `k`. -/
def prove (E : Env F C) (k : Nat) (tin tout : TableRef) : Act (PHeap F C) Unit := do
  let coeffs ← proverPowers E k tin.colVals.length
  let inAgg ← proverAgg E tin coeffs
  let outAgg ← proverAgg E tout coeffs
  Inclusion.prove E k outAgg inAgg

/-- `IndexTransformIOP::verify` (src/zksql_poly_iop/index_transform/index_transform.rs L38-54) with tracker `k`. -/
def verify (E : Env F C) (k : Nat) (tin tout : TableCommRef) : Act (VMem F C B) Unit := do
  let coeffs ← verifierPowers E k tin.colVals.length
  let inAgg ← verifierAgg tin coeffs
  let outAgg ← verifierAgg tout coeffs
  Inclusion.verify E k outAgg inAgg

end IndexTransform

/-! ### One-to-many join -/
namespace FinalJoin

/-- `calc_final_join_one_to_many_index_transform` (src/zksql_poly_iop/final_join_one_to_many/utils.rs L13-53): reads from the trackers of the
handles. -/
def transform (a b : TableRef) (ai bi : Nat) : Act (PHeap F C) (List Nat) := do
  let ca ← Act.lift (idx a.colVals ai)
  let ka ← ca.evaluations
  let sa ← a.selector.evaluations
  let m ← Act.lift (Zksql.FinalJoin.keyMap ka sa 0 [])
  let cb ← Act.lift (idx b.colVals bi)
  let kb ← cb.evaluations
  let sb ← b.selector.evaluations
  Act.lift (Zksql.FinalJoin.lookups m kb sb)

/-- `calc_index_transformed_bag` (src/zksql_poly_iop/final_join_one_to_many/utils.rs L55-85). -/
def applyTransform (E : Env F C) (ks : List Nat) (old act : PolyRef) : Act (PHeap F C) (Mle F) := do
  let o ← old.evaluations
  let s ← act.evaluations
  Act.assert (E.debug = true → s.length = ks.length)
  let l ← Act.lift (Zksql.FinalJoin.applyLoop o ks s)
  Act.lift (Mle.fromEvals act.numVars l)

/-- The loop computing the columns (src/zksql_poly_iop/final_join_one_to_many/final_join_one_to_many.rs L32-34). -/
def applyAll (E : Env F C) (ks : List Nat) (act : PolyRef) : List PolyRef → Act (PHeap F C) (List (Mle F))
  | [] => pure []
  | c :: cs => do
    let m ← applyTransform E ks c act
    let ms ← applyAll E ks act cs
    pure (m :: ms)

/-- The loop committing the columns (src/zksql_poly_iop/final_join_one_to_many/final_join_one_to_many.rs L38-40) with tracker `k`. -/
def commitAll (E : Env F C) (k : Nat) : List (Mle F) → Act (PHeap F C) (List PolyRef)
  | [] => pure []
  | m :: ms => do
    let c ← PHeap.trackAndCommit E.commit k m
    let cs ← commitAll E k ms
    pure (c :: cs)

/-- The debug check of `prove_with_advice` (src/zksql_poly_iop/final_join_one_to_many/final_join_one_to_many.rs L64-78). -/
def debugKeys (E : Env F C) (a : TableRef) (ai : Nat) : Act (PHeap F C) Unit :=
  if E.debug then do
    let ca ← Act.lift (idx a.colVals ai)
    let ka ← ca.evaluations
    if ka.Nodup then pure () else Act.lift (.error (.err .invalidParameters))
  else pure ()

/-- `FinalJoinOneToManyIOP::prove_with_advice` (src/zksql_poly_iop/final_join_one_to_many/final_join_one_to_many.rs L55-101) with tracker `k`. -/
def proveWithAdvice (E : Env F C) (k : Nat) (a b : TableRef) (ai bi : Nat) (ta : List PolyRef) : Act (PHeap F C) TableRef := do
  debugKeys E a ai
  let res ← TableRef.new E.debug (ta ++ b.colVals) b.selector
  let cols ← Act.lift (Zksql.FinalJoin.prefixOf a.colVals.length res.colVals)
  let tr ← TableRef.new E.debug cols res.selector
  IndexTransform.prove E k a tr
  let ja ← Act.lift (idx res.colVals ai)
  let jb ← Act.lift (idx res.colVals (a.colVals.length + bi))
  let d ← ja.sub jb
  let check ← d.mul res.selector
  PHeap.on k (PTracker.addZeroClaim check.id)
  pure res

/-- `FinalJoinOneToManyIOP::prove` (src/zksql_poly_iop/final_join_one_to_many/final_join_one_to_many.rs L20-53) with tracker `k`. -/
def prove (E : Env F C) (k : Nat) (a b : TableRef) (ai bi : Nat) : Act (PHeap F C) TableRef := do
  let ks ← transform a b ai bi
  let mles ← applyAll E ks b.selector a.colVals
  let ta ← commitAll E k mles
  proveWithAdvice E k a b ai bi ta

/-- The loop transferring the columns (src/zksql_poly_iop/final_join_one_to_many/final_join_one_to_many.rs L112-115) with tracker `k`. -/
def transferAll (E : Env F C) (k : Nat) : Nat → Act (VMem F C B) (List CommRef)
  | 0 => pure []
  | n + 1 => do
    let i ← VMem.on k VSt.getNextId
    let c ← VMem.transferComm E.debug k i
    let cs ← transferAll E k n
    pure (c :: cs)

/-- `FinalJoinOneToManyIOP::verify_with_advice` (src/zksql_poly_iop/final_join_one_to_many/final_join_one_to_many.rs L130-159) with tracker `k`. -/
def verifyWithAdvice (E : Env F C) (k : Nat) (a b : TableCommRef) (ai bi : Nat) (ta : List CommRef) : Act (VMem F C B) TableCommRef := do
  let res : TableCommRef := ⟨ta ++ b.colVals, b.selector, b.numVars⟩
  let cols ← Act.lift (Zksql.FinalJoin.prefixOf a.colVals.length res.colVals)
  IndexTransform.verify E k a ⟨cols, res.selector, res.numVars⟩
  let ja ← Act.lift (idx res.colVals ai)
  let jb ← Act.lift (idx res.colVals (a.colVals.length + bi))
  let d ← ja.sub jb
  let check ← d.mul res.selector
  VMem.on k (VSt.addZeroClaim check.id)
  pure res

/-- `FinalJoinOneToManyIOP::verify` (src/zksql_poly_iop/final_join_one_to_many/final_join_one_to_many.rs L103-128) with tracker `k`. -/
def verify (E : Env F C) (k : Nat) (a b : TableCommRef) (ai bi : Nat) : Act (VMem F C B) TableCommRef := do
  let ta ← transferAll E k a.colVals.length
  verifyWithAdvice E k a b ai bi ta

end FinalJoin

/-! ### Group by -/
namespace GroupBy

/-- The loop over the aggregates (src/zksql_poly_iop/group_by/group_by.rs L140-171) with tracker `k`. -/
def proveAggs (E : Env F C) (k : Nat) (inp : TableRef) (pre grp : BagRef) (mult : PolyRef) : List (Nat × AggType × PolyRef) → List PolyRef →
    Act (PHeap F C) (List PolyRef)
  | [], cols => pure cols
  | (_, .count, _) :: r, cols => proveAggs E k inp pre grp mult r (cols ++ [mult])
  | (c, .sum, p) :: r, cols => do
    let x ← Act.lift (idx inp.colVals c)
    Multitool.prove E k [pre] [grp] [x] [p]
    proveAggs E k inp pre grp mult r cols
  | (_, .avg, _) :: _, _ => Act.lift (.error .panic)
  | (_, .min, _) :: _, _ => Act.lift (.error .panic)
  | (_, .max, _) :: _, _ => Act.lift (.error .panic)

/-- `GroupByIOP::prove_with_advice` (src/zksql_poly_iop/group_by/group_by.rs L100-175) with tracker `k`. -/
def proveWithAdvice (E : Env F C) (k : Nat) (inp : TableRef) (i : GroupInstr PolyRef) (range : BagRef) : Act (PHeap F C) TableRef := do
  let (g, supp) ← Act.lift (Zksql.GroupBy.validate inp.colVals.length i)
  let c ← Act.lift (idx inp.colVals g)
  let pre ← BagRef.new E.debug c inp.selector
  let grp ← BagRef.new E.debug supp i.supportSel
  Supp.proveWithAdvice E k pre grp i.supportMult range
  let res ← TableRef.new E.debug [supp] i.supportSel
  let cols ← proveAggs E k inp pre grp i.supportMult i.aggs res.colVals
  pure { res with colVals := cols }

/-- The loop over the aggregates, verifier (src/zksql_poly_iop/group_by/group_by.rs L228-259) with tracker `k`. -/
def verifyAggs (E : Env F C) (k : Nat) (inp : TableCommRef) (pre grp : BagCommRef) (mult : CommRef) : List (Nat × AggType × CommRef) → List CommRef →
    Act (VMem F C B) (List CommRef)
  | [], cols => pure cols
  | (_, .count, _) :: r, cols => verifyAggs E k inp pre grp mult r (cols ++ [mult])
  | (c, .sum, p) :: r, cols => do
    let x ← Act.lift (idx inp.colVals c)
    Multitool.verify E k [pre] [grp] [x] [p]
    verifyAggs E k inp pre grp mult r cols
  | (_, .avg, _) :: _, _ => Act.lift (.error .panic)
  | (_, .min, _) :: _, _ => Act.lift (.error .panic)
  | (_, .max, _) :: _, _ => Act.lift (.error .panic)

/-- `GroupByIOP::verify_with_advice` (src/zksql_poly_iop/group_by/group_by.rs L182-263) with tracker `k`. -/
def verifyWithAdvice (E : Env F C) (k : Nat) (inp : TableCommRef) (i : GroupInstr CommRef) (range : BagCommRef) : Act (VMem F C B) TableCommRef := do
  let (g, supp) ← Act.lift (Zksql.GroupBy.validate inp.colVals.length i)
  let c ← Act.lift (idx inp.colVals g)
  let pre : BagCommRef := ⟨c, inp.selector, inp.numVars⟩
  let grp : BagCommRef := ⟨supp, i.supportSel, inp.numVars⟩
  Supp.verifyWithAdvice E k pre grp i.supportMult range
  let cols ← verifyAggs E k inp pre grp i.supportMult i.aggs [supp]
  pure ⟨cols, i.supportSel, inp.numVars⟩

end GroupBy
end Mem
end Zksql
