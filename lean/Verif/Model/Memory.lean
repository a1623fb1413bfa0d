import Verif.Model.Handles
import Verif.Model.Bag
/-!
Programs with several trackers in memory: the handle API of src/tracker/prover_wrapper.rs and src/tracker/verifier_wrapper.rs with the address
behind each `Rc`, the constructors of src/tracker/bag.rs, and the checks of src/zksql_poly_iop that receive a tracker together with handles
(selector_valid, bag_no_zeros, bag_multitool, bag_eq, bag_sum).  The rest of the model has one tracker; `Props/Memory.lean` shows when that is
enough.
-/
namespace Zksql

/-- Run something on a part of memory: `borrow_mut` of a `RefCell`, the call, and the end of the borrow (e.g. src/tracker/prover_wrapper.rs
L170-171).  A part that is not there cannot be referred to in the code (an `Rc` keeps it alive); here it is a panic.  Simplification: no borrow
is open when another one starts, which holds for every function of the wrappers. -/
def Act.within {M S α : Type} (get : M → Option S) (put : M → S → M) (m : Act S α) : Act M α := fun mem =>
  match get mem with
  | none => (.error .panic, mem)
  | some s => ((m s).1, put mem (m s).2)

variable {F C B : Type} [Field F]

/-! ### Provers -/

/-- `borrow_mut` of the prover tracker at address `k`, and a call on it (e.g. src/tracker/prover_wrapper.rs L47-51). -/
def PHeap.on {α : Type} (k : Nat) (m : Act (PTracker F C) α) : Act (PHeap F C) α := m.within (fun heap => heap[k]?) (fun heap t => heap.put k t)

namespace PolyRef

/-- The identifier and size of a handle, without its tracker. -/
def poly (a : PolyRef) : TPoly := ⟨a.id, a.numVars⟩

/-- `TrackedPoly::new` (src/tracker/prover_wrapper.rs L151-153), as the wrappers call it on an identifier a tracker just returned. -/
def ofPoly (k : Nat) (p : TPoly) : PolyRef := ⟨p.id, p.numVars, k⟩

/-- `same_tracker` (src/tracker/prover_wrapper.rs L159-161). -/
def sameTracker (a b : PolyRef) : Bool := trackerEq a.tracker b.tracker

/-- `assert_same_tracker` (src/tracker/prover_wrapper.rs L163-165). -/
def assertSameTracker {S : Type} (a b : PolyRef) : Act S Unit := Act.assert (a.sameTracker b = true)

/-- `add_poly` (src/tracker/prover_wrapper.rs L167-173). -/
def add (a b : PolyRef) : Act (PHeap F C) PolyRef := do
  a.assertSameTracker b
  let p ← PHeap.on a.tracker (a.poly.add b.poly)
  pure (ofPoly a.tracker p)

/-- `sub_poly` (src/tracker/prover_wrapper.rs L175-181). -/
def sub (a b : PolyRef) : Act (PHeap F C) PolyRef := do
  a.assertSameTracker b
  let p ← PHeap.on a.tracker (a.poly.sub b.poly)
  pure (ofPoly a.tracker p)

/-- `mul_poly` (src/tracker/prover_wrapper.rs L183-189). -/
def mul (a b : PolyRef) : Act (PHeap F C) PolyRef := do
  a.assertSameTracker b
  let p ← PHeap.on a.tracker (a.poly.mul b.poly)
  pure (ofPoly a.tracker p)

/-- `add_scalar` (src/tracker/prover_wrapper.rs L191-195). -/
def addScalar (a : PolyRef) (c : F) : Act (PHeap F C) PolyRef := do
  let p ← PHeap.on a.tracker (a.poly.addScalar c)
  pure (ofPoly a.tracker p)

/-- `mul_scalar` (src/tracker/prover_wrapper.rs L197-201). -/
def mulScalar (a : PolyRef) (c : F) : Act (PHeap F C) PolyRef := do
  let p ← PHeap.on a.tracker (a.poly.mulScalar c)
  pure (ofPoly a.tracker p)

/-- `increase_nv_front` (src/tracker/prover_wrapper.rs L203-207). -/
def incFront (a : PolyRef) (n : Nat) : Act (PHeap F C) PolyRef := do
  let p ← PHeap.on a.tracker (a.poly.incFront n)
  pure (ofPoly a.tracker p)

/-- `increase_nv_back` (src/tracker/prover_wrapper.rs L209-213). -/
def incBack (a : PolyRef) (n : Nat) : Act (PHeap F C) PolyRef := do
  let p ← PHeap.on a.tracker (a.poly.incBack n)
  pure (ofPoly a.tracker p)

/-- `evaluations` (src/tracker/prover_wrapper.rs L220-224). -/
def evaluations (a : PolyRef) : Act (PHeap F C) (List F) := PHeap.on a.tracker a.poly.evaluations

end PolyRef

namespace PHeap

/-- `ProverTrackerRef::track_mat_poly` (src/tracker/prover_wrapper.rs L45-52). -/
def trackMat (k : Nat) (p : Mle F) : Act (PHeap F C) PolyRef := do
  let q ← PHeap.on k (TPoly.trackMat p)
  pure (PolyRef.ofPoly k q)

/-- `ProverTrackerRef::track_and_commit_poly` (src/tracker/prover_wrapper.rs L54-62). -/
def trackAndCommit (commit : Mle F → Res C) (k : Nat) (p : Mle F) : Act (PHeap F C) PolyRef := do
  let q ← PHeap.on k (TPoly.trackAndCommit commit p)
  pure (PolyRef.ofPoly k q)

end PHeap

/-! ### Bags and tables -/

/-- `Bag` with the trackers of its handles (src/tracker/bag.rs L11-14). -/
structure BagRef where
  poly : PolyRef
  selector : PolyRef

/-- `Bag::new` (src/tracker/bag.rs L17-27). -/
def BagRef.new {S : Type} (debug : Bool) (poly selector : PolyRef) : Act S BagRef := do
  Act.assert (debug = true → poly.numVars = selector.numVars)
  Act.assert (debug = true → poly.sameTracker selector = true)
  pure ⟨poly, selector⟩

/-- `Bag::num_vars` (src/tracker/bag.rs L29-31). -/
def BagRef.numVars (b : BagRef) : Nat := b.poly.numVars

/-- `Bag::tracker_ref` (src/tracker/bag.rs L33-35). -/
def BagRef.trackerRef (b : BagRef) : Nat := b.poly.tracker

/-- The bag of the one-tracker model. -/
def BagRef.bag (b : BagRef) : Bag := ⟨b.poly.poly, b.selector.poly⟩

/-- `Table` with the trackers of its handles (src/tracker/bag.rs L66-69). -/
structure TableRef where
  colVals : List PolyRef
  selector : PolyRef

/-- The loop of `Table::new` in a debug build (src/tracker/bag.rs L75-78). -/
def TableRef.checks {S : Type} (selector : PolyRef) : List PolyRef → Act S Unit
  | [] => pure ()
  | p :: r => do
    Act.assert (p.numVars = selector.numVars)
    Act.assert (p.sameTracker selector = true)
    TableRef.checks selector r

/-- `Table::new` (src/tracker/bag.rs L72-84). -/
def TableRef.new {S : Type} (debug : Bool) (colVals : List PolyRef) (selector : PolyRef) : Act S TableRef :=
  if debug then do
    TableRef.checks selector colVals
    pure ⟨colVals, selector⟩
  else pure ⟨colVals, selector⟩

/-- `Table::tracker_ref` (src/tracker/bag.rs L90-92). -/
def TableRef.trackerRef (t : TableRef) : Nat := t.selector.tracker

/-! ### Verifiers -/

/-- Verifier trackers in memory.  Each has its own fields and the address of its maps: a deep copy keeps the address
(src/tracker/verifier_wrapper.rs L159-163, src/tracker/verifier_tracker.rs L22-48). -/
structure VMem (F C B : Type) where
  trackers : List (VTracker F C B × Nat)
  maps : List (VShared F)

namespace VMem

/-- Reading a tracker with its maps. -/
def get (k : Nat) (mem : VMem F C B) : Option (VSt F C B) :=
  match mem.trackers[k]? with
  | none => none
  | some (t, a) => match mem.maps[a]? with
    | none => none
    | some sh => some ⟨t, sh⟩

/-- Writing back a tracker with its maps. -/
def put (k : Nat) (mem : VMem F C B) (s : VSt F C B) : VMem F C B :=
  match mem.trackers[k]? with
  | none => mem
  | some (_, a) => ⟨mem.trackers.set k (s.own, a), mem.maps.set a s.sh⟩

/-- `borrow_mut` of the verifier tracker at address `k`, and a call on it (e.g. src/tracker/verifier_wrapper.rs L51-54). -/
def on {α : Type} (k : Nat) (m : Act (VSt F C B) α) : Act (VMem F C B) α := m.within (get k) (put k)

/-- `VerifierTrackerRef::new_from_pcs_params` (src/tracker/verifier_wrapper.rs L43-45): a new tracker with new maps. -/
def alloc (mem : VMem F C B) : VMem F C B := ⟨mem.trackers ++ [((VSt.new : VSt F C B).own, mem.maps.length)], mem.maps ++ [⟨[], []⟩]⟩

/-- `deep_copy` (src/tracker/verifier_wrapper.rs L159-163): a new tracker with the same maps. -/
def copy (k : Nat) (mem : VMem F C B) : Res (VMem F C B) := do
  let e ← idx mem.trackers k
  .ok ⟨mem.trackers ++ [(e.1.deepCopy, e.2)], mem.maps⟩

end VMem

namespace CommRef

/-- `same_tracker` (src/tracker/verifier_wrapper.rs L185-187). -/
def sameTracker (a b : CommRef) : Bool := trackerEq a.tracker b.tracker

/-- `assert_same_tracker` (src/tracker/verifier_wrapper.rs L189-191). -/
def assertSameTracker {S : Type} (a b : CommRef) : Act S Unit := Act.assert (a.sameTracker b = true)

/-- `add_comms` (src/tracker/verifier_wrapper.rs L193-199). -/
def add (a b : CommRef) : Act (VMem F C B) CommRef := do
  a.assertSameTracker b
  let i ← VMem.on a.tracker (VSt.addComms a.id b.id)
  pure ⟨i, a.tracker⟩

/-- `sub_comms` (src/tracker/verifier_wrapper.rs L201-206). -/
def sub (a b : CommRef) : Act (VMem F C B) CommRef := do
  a.assertSameTracker b
  let i ← VMem.on a.tracker (VSt.subComms a.id b.id)
  pure ⟨i, a.tracker⟩

/-- `mul_comms` (src/tracker/verifier_wrapper.rs L208-213). -/
def mul (a b : CommRef) : Act (VMem F C B) CommRef := do
  a.assertSameTracker b
  let i ← VMem.on a.tracker (VSt.mulComms a.id b.id)
  pure ⟨i, a.tracker⟩

/-- `add_scalar` (src/tracker/verifier_wrapper.rs L215-219). -/
def addScalar (a : CommRef) (c : F) : Act (VMem F C B) CommRef := do
  let i ← VMem.on a.tracker (VSt.addScalar a.id c)
  pure ⟨i, a.tracker⟩

/-- `mul_scalar` (src/tracker/verifier_wrapper.rs L221-225). -/
def mulScalar (a : CommRef) (c : F) : Act (VMem F C B) CommRef := do
  let i ← VMem.on a.tracker (VSt.mulScalar a.id c)
  pure ⟨i, a.tracker⟩

/-- `increase_nv_front` (src/tracker/verifier_wrapper.rs L227-231). -/
def incFront (a : CommRef) (n : Nat) : Act (VMem F C B) CommRef := do
  let i ← VMem.on a.tracker (VSt.incFront a.id n)
  pure ⟨i, a.tracker⟩

/-- `increase_nv_back` (src/tracker/verifier_wrapper.rs L233-237). -/
def incBack (a : CommRef) (n : Nat) : Act (VMem F C B) CommRef := do
  let i ← VMem.on a.tracker (VSt.incBack a.id n)
  pure ⟨i, a.tracker⟩

end CommRef

namespace VMem

/-- `VerifierTrackerRef::transfer_prover_comm` (src/tracker/verifier_wrapper.rs L118-144). -/
def transferComm (debug : Bool) (k id : Nat) : Act (VMem F C B) CommRef := do
  let i ← VMem.on k (VSt.transferComm debug id)
  pure ⟨i, k⟩

/-- `VerifierTrackerRef::track_mat_comm` (src/tracker/verifier_wrapper.rs L47-55). -/
def trackMatComm (k : Nat) (c : C) : Act (VMem F C B) CommRef := do
  let i ← VMem.on k (VSt.trackMatComm c)
  pure ⟨i, k⟩

/-- `VerifierTrackerRef::track_virtual_comm` (src/tracker/verifier_wrapper.rs L57-65). -/
def trackVirtual (k : Nat) (c : VComm F) : Act (VMem F C B) CommRef := do
  let i ← VMem.on k (VSt.trackVirtual c)
  pure ⟨i, k⟩

end VMem

/-- `BagComm` with the trackers of its handles (src/tracker/bag.rs L43-47); `BagComm::new` (L49-55) checks nothing. -/
structure BagCommRef where
  poly : CommRef
  selector : CommRef
  numVars : Nat

/-- The bag of the one-tracker model. -/
def BagCommRef.bag (b : BagCommRef) : BagComm := ⟨b.poly.id, b.selector.id, b.numVars⟩

/-! ### Checks that receive a tracker and handles -/
namespace Mem
variable [DecidableEq F]

/-- `SelectorValidIOP::prove` (src/zksql_poly_iop/selector_valid/selector_valid.rs L15-27) with tracker `k`. -/
def SelectorValid.prove (k : Nat) (sel : PolyRef) : Act (PHeap F C) Unit := do
  let n ← sel.mulScalar (-1)
  let oneMinus ← n.addScalar 1
  let check ← sel.mul oneMinus
  PHeap.on k (PTracker.addZeroClaim check.id)

/-- `SelectorValidIOP::verify` (src/zksql_poly_iop/selector_valid/selector_valid.rs L29-38) with tracker `k`. -/
def SelectorValid.verify (k : Nat) (sel : CommRef) : Act (VMem F C B) Unit := do
  let n ← sel.mulScalar (-1)
  let oneMinus ← n.addScalar 1
  let check ← sel.mul oneMinus
  VMem.on k (VSt.addZeroClaim check.id)

/-- `BagNoZerosIOP::prove` (src/zksql_poly_iop/bag_no_zeros/mod.rs L15-35) with tracker `k`. -/
def NoZeros.prove (E : Env F C) (k : Nat) (bag : BagRef) : Act (PHeap F C) Unit := do
  let evals ← bag.poly.evaluations
  let invMle ← Act.lift (Mle.fromEvals bag.numVars (evals.map fun x => x⁻¹))
  let inv ← PHeap.trackAndCommit E.commit k invMle
  let ps ← bag.poly.mul bag.selector
  let psi ← ps.mul inv
  let check ← psi.sub bag.selector
  PHeap.on k (PTracker.addZeroClaim check.id)

/-- `BagNoZerosIOP::verify` (src/zksql_poly_iop/bag_no_zeros/mod.rs L37-49) with tracker `k`. -/
def NoZeros.verify (E : Env F C) (k : Nat) (bag : BagCommRef) : Act (VMem F C B) Unit := do
  let invId ← VMem.on k VSt.getNextId
  let inv ← VMem.transferComm E.debug k invId
  let ps ← bag.poly.mul bag.selector
  let psi ← ps.mul inv
  let check ← psi.sub bag.selector
  VMem.on k (VSt.addZeroClaim check.id)

namespace Multitool

/-- `prove_generate_subclaims` (src/zksql_poly_iop/bag_multitool/bag_multitool.rs L72-109) with tracker `k`. -/
def proveSub (E : Env F C) (k : Nat) (bag : BagRef) (m : PolyRef) (γ : F) : Act (PHeap F C) Unit := do
  let pEvals ← bag.poly.evaluations
  let phatEvals := pEvals.map fun x => (x - γ)⁻¹
  let phatMle ← Act.lift (Mle.fromEvals bag.numVars phatEvals)
  let mEvals ← m.evaluations
  let selEvals ← bag.selector.evaluations
  let v ← Act.lift (Zksql.Multitool.sumLoop phatEvals mEvals selEvals (List.range (2 ^ bag.numVars)) 0)
  let phat ← PHeap.trackAndCommit E.commit k phatMle
  let pm ← phat.mul m
  let sumPoly ← pm.mul bag.selector
  let pp ← bag.poly.mul phat
  let gp ← phat.mulScalar γ
  let d ← pp.sub gp
  let check ← d.addScalar (-1)
  PHeap.on k (PTracker.addSumClaim sumPoly.id v)
  PHeap.on k (PTracker.addZeroClaim check.id)

/-- The loops over the bags (src/zksql_poly_iop/bag_multitool/bag_multitool.rs L61-67). -/
def proveSubs (E : Env F C) (k : Nat) (γ : F) : List (BagRef × PolyRef) → Act (PHeap F C) Unit
  | [] => pure ()
  | (b, m) :: r => do
    proveSub E k b m γ
    proveSubs E k γ r

/-- The shape checks of one side (src/zksql_poly_iop/bag_multitool/bag_multitool.rs L22-37, L39-54). -/
def shapeOk (xs : List BagRef) (ms : List PolyRef) : Bool :=
  !xs.isEmpty && xs.length == ms.length && (xs.zip ms).all fun q => q.1.numVars == q.2.numVars

/-- `BagMultitoolIOP::prove` (src/zksql_poly_iop/bag_multitool/bag_multitool.rs L14-70) with tracker `k`. -/
def prove (E : Env F C) (k : Nat) (fxs gxs : List BagRef) (mfxs mgxs : List PolyRef) : Act (PHeap F C) Unit :=
  if !shapeOk fxs mfxs then Act.lift (.error (.err .invalidParameters))
  else if !shapeOk gxs mgxs then Act.lift (.error (.err .invalidParameters))
  else do
    let γ ← PHeap.on k (PTracker.challenge E.H "gamma")
    proveSubs E k γ (fxs.zip mfxs)
    proveSubs E k γ (gxs.zip mgxs)

/-- `verify_generate_subclaims` (src/zksql_poly_iop/bag_multitool/bag_multitool.rs L173-195) with tracker `k`. -/
def verifySub (E : Env F C) (k : Nat) (bag : BagCommRef) (m : CommRef) (γ : F) : Act (VMem F C B) F := do
  let phatId ← VMem.on k VSt.getNextId
  let phat ← VMem.transferComm E.debug k phatId
  let pm ← phat.mul m
  let sumComm ← pm.mul bag.selector
  let pp ← bag.poly.mul phat
  let gp ← phat.mulScalar γ
  let d ← pp.sub gp
  let check ← d.addScalar (-1)
  let v ← VMem.on k (VSt.claimedSum sumComm.id)
  VMem.on k (VSt.addSumClaim sumComm.id v)
  VMem.on k (VSt.addZeroClaim check.id)
  pure v

/-- The loops of `verify` (src/zksql_poly_iop/bag_multitool/bag_multitool.rs L145-159). -/
def verifySubs (E : Env F C) (k : Nat) (γ : F) (maxNv : Nat) : List (BagCommRef × CommRef) → F → Act (VMem F C B) F
  | [], acc => pure acc
  | (b, m) :: r, acc => do
    let v ← verifySub E k b m γ
    let adj ← Act.lift (Zksql.Multitool.divPow2 v (maxNv - b.numVars))
    verifySubs E k γ maxNv r (acc + adj)

/-- `BagMultitoolIOP::verify` (src/zksql_poly_iop/bag_multitool/bag_multitool.rs L111-171) with tracker `k`. -/
def verify (E : Env F C) (k : Nat) (fxs gxs : List BagCommRef) (mfxs mgxs : List CommRef) : Act (VMem F C B) Unit :=
  if fxs.isEmpty || fxs.length != mfxs.length then Act.lift (.error (.err .invalidParameters))
  else if gxs.isEmpty || gxs.length != mgxs.length then Act.lift (.error (.err .invalidParameters))
  else do
    let γ ← VMem.on k (VSt.challenge E.H "gamma")
    let top := max (Zksql.Multitool.maxNv (fxs.map (·.bag))) (Zksql.Multitool.maxNv (gxs.map (·.bag)))
    let lhs ← verifySubs E k γ top (fxs.zip mfxs) 0
    let rhs ← verifySubs E k γ top (gxs.zip mgxs) 0
    if lhs = rhs then pure () else Act.lift (.error (.err .invalidVerifier))

end Multitool

/-- `BagEqIOP::prove` (src/zksql_poly_iop/bag_eq/bag_eq.rs L16-40) with tracker `k`. -/
def BagEq.prove (E : Env F C) (k : Nat) (fx gx : BagRef) : Act (PHeap F C) Unit :=
  if fx.numVars ≠ gx.numVars then Act.lift (.error (.err .invalidParameters))
  else do
    let mx ← PHeap.trackMat k (onesMle F fx.numVars)
    Multitool.prove E k [fx] [gx] [mx] [mx]

/-- `BagEqIOP::verify` (src/zksql_poly_iop/bag_eq/bag_eq.rs L42-51) with tracker `k`. -/
def BagEq.verify (E : Env F C) (k : Nat) (fx gx : BagCommRef) : Act (VMem F C B) Unit := do
  let one ← VMem.trackVirtual k (oneFn F)
  Multitool.verify E k [fx] [gx] [one] [one]

/-- `BagSumIOP::prove` (src/zksql_poly_iop/bag_sum/bag_sum.rs L15-35) with tracker `k`. -/
def BagSum.prove (E : Env F C) (k : Nat) (fx0 fx1 gx : BagRef) : Act (PHeap F C) Unit := do
  let m0 ← PHeap.trackMat k (onesMle F fx0.numVars)
  let m1 ← PHeap.trackMat k (onesMle F fx1.numVars)
  let mg ← PHeap.trackMat k (onesMle F gx.numVars)
  Multitool.prove E k [fx0, fx1] [gx] [m0, m1] [mg]

/-- `BagSumIOP::verify` (src/zksql_poly_iop/bag_sum/bag_sum.rs L37-52) with tracker `k`. -/
def BagSum.verify (E : Env F C) (k : Nat) (fx0 fx1 gx : BagCommRef) : Act (VMem F C B) Unit := do
  let one ← VMem.trackVirtual k (oneFn F)
  let _ ← VMem.trackVirtual k (oneFn F)
  let _ ← VMem.trackVirtual k (oneFn F)
  Multitool.verify E k [fx0, fx1] [gx] [one, one] [one]

end Mem
end Zksql
