import Verif.Model.MemoryChecks
import Verif.Lemmas.MemoryChecks
/-!
Protocols in programs with several trackers: on handles of the tracker they receive they are the protocols of the one-tracker model.
-/
set_option linter.unusedSectionVars false
namespace Zksql
open Spec
variable {F C B : Type} [Field F] [DecidableEq F] {k : Nat}

theorem ofPoly_poly {a : PolyRef} (h : a.tracker = k) : PolyRef.ofPoly k a.poly = a := by subst h; rfl
theorem ofId_id {a : CommRef} (h : a.tracker = k) : CommRef.ofId k a.id = a := by subst h; rfl

theorem psim_assert (p : Prop) [Decidable p] : PSim (F := F) (C := C) k id (Act.assert p) (Act.assert p) := by
  intro heap t h
  by_cases hp : p
  · rw [Act.assert_true hp, Act.assert_true hp]; exact Prod.ext rfl ((heap_part k).put_get heap t h).symm
  · rw [assert_false hp, assert_false hp]; exact Prod.ext rfl ((heap_part k).put_get heap t h).symm

theorem psim_bagNew (debug : Bool) {p q : PolyRef} (hp : p.tracker = k) (hq : q.tracker = k) :
    PSim (F := F) (C := C) k (BagRef.ofBag k) (BagRef.new debug p q) (Bag.new debug p.poly q.poly) := by
  unfold BagRef.new Bag.new
  refine Sim.bind (heap_part k) (psim_assert _) fun _ => ?_
  rw [assert_bind (p := debug = true → p.sameTracker q = true) (fun _ => same_iff.2 (hp.trans hq.symm))]
  have := Sim.pure (heap_part (F := F) (C := C) k) (BagRef.ofBag k) (⟨p.poly, q.poly⟩ : Bag)
  rwa [show BagRef.ofBag k ⟨p.poly, q.poly⟩ = ⟨p, q⟩ by simp only [BagRef.ofBag, ofPoly_poly hp, ofPoly_poly hq]] at this

/-- The side conditions on trackers. -/
macro "tr" : tactic => `(tactic| first | rfl | assumption | exact And.left ‹_› | exact And.right ‹_› | exact ⟨rfl, rfl⟩ | (constructor <;> first | rfl | assumption))

/-! One call of a prover. -/
macro "pLift" : tactic => `(tactic| refine Sim.bind (heap_part _) (Sim.lift (heap_part _) _) fun _ => ?_)
macro "pOn" : tactic => `(tactic| refine Sim.bind (heap_part _) (psim_on _ _) fun _ => ?_)
macro "pMat" : tactic => `(tactic| refine Sim.bind (heap_part _) (psim_trackMat _ _) fun _ => ?_)
macro "pCom" : tactic => `(tactic| refine Sim.bind (heap_part _) (psim_trackAndCommit _ _ _) fun _ => ?_)
macro "pEval" : tactic => `(tactic| refine Sim.bind (heap_part _) (psim_evaluations (by tr)) fun _ => ?_)
macro "pMul" : tactic => `(tactic| refine Sim.bind (heap_part _) (psim_mul (by tr) (by tr)) fun _ => ?_)
macro "pAdd" : tactic => `(tactic| refine Sim.bind (heap_part _) (psim_add (by tr) (by tr)) fun _ => ?_)
macro "pSub" : tactic => `(tactic| refine Sim.bind (heap_part _) (psim_sub (by tr) (by tr)) fun _ => ?_)
macro "pAddS" : tactic => `(tactic| refine Sim.bind (heap_part _) (psim_addScalar (by tr) _) fun _ => ?_)
macro "pMulS" : tactic => `(tactic| refine Sim.bind (heap_part _) (psim_mulScalar (by tr) _) fun _ => ?_)
macro "pFront" : tactic => `(tactic| refine Sim.bind (heap_part _) (psim_incFront (by tr) _) fun _ => ?_)
macro "pBack" : tactic => `(tactic| refine Sim.bind (heap_part _) (psim_incBack (by tr) _) fun _ => ?_)
macro "pBag" : tactic => `(tactic| refine Sim.bind (heap_part _) (psim_bagNew _ (by tr) (by tr)) fun _ => ?_)

/-! One call of a verifier. -/
macro "vLift" : tactic => `(tactic| refine Sim.bind (vmem_part _) (Sim.lift (vmem_part _) _) fun _ => ?_)
macro "vOn" : tactic => `(tactic| refine Sim.bind (vmem_part _) (vsim_on _ _) fun _ => ?_)
macro "vVirt" : tactic => `(tactic| refine Sim.bind (vmem_part _) (vsim_trackVirtual _ _) fun _ => ?_)
macro "vTr" : tactic => `(tactic| refine Sim.bind (vmem_part _) (vsim_transfer _ _ _) fun _ => ?_)
macro "vMul" : tactic => `(tactic| refine Sim.bind (vmem_part _) (vsim_mul (by tr) (by tr)) fun _ => ?_)
macro "vAdd" : tactic => `(tactic| refine Sim.bind (vmem_part _) (vsim_add (by tr) (by tr)) fun _ => ?_)
macro "vSub" : tactic => `(tactic| refine Sim.bind (vmem_part _) (vsim_sub (by tr) (by tr)) fun _ => ?_)
macro "vAddS" : tactic => `(tactic| refine Sim.bind (vmem_part _) (vsim_addScalar (by tr) _) fun _ => ?_)
macro "vMulS" : tactic => `(tactic| refine Sim.bind (vmem_part _) (vsim_mulScalar (by tr) _) fun _ => ?_)
macro "vFront" : tactic => `(tactic| refine Sim.bind (vmem_part _) (vsim_incFront (by tr) _) fun _ => ?_)
macro "vBack" : tactic => `(tactic| refine Sim.bind (vmem_part _) (vsim_incBack (by tr) _) fun _ => ?_)

theorem psim_incAdvice {inc sup : BagRef} (hi : inc.Of k) (hs : sup.Of k) :
    PSim (F := F) (C := C) k id (Mem.Inclusion.advice inc sup) (Inclusion.advice inc.bag sup.bag) := by
  obtain ⟨h1, h2⟩ := hi
  obtain ⟨h3, h4⟩ := hs
  unfold Mem.Inclusion.advice Inclusion.advice
  pEval; pLift; pEval; pLift; pEval; pLift; pEval; pLift
  exact Sim.lift (heap_part k) _

theorem psim_incWith (E : Env F C) {inc sup : BagRef} {m : PolyRef} (hi : inc.Of k) (hs : sup.Of k) (hm : m.tracker = k) :
    PSim (F := F) (C := C) k id (Mem.Inclusion.proveWithAdvice E k inc sup m) (Inclusion.proveWithAdvice E inc.bag sup.bag m.poly) := by
  unfold Mem.Inclusion.proveWithAdvice Inclusion.proveWithAdvice
  refine Sim.bind (heap_part k) (psim_trackMat k _) fun a => ?_
  exact psim_multitool E (forall_one hi) (forall_one hs) (forall_one (a := PolyRef.ofPoly k a) rfl) (forall_one hm)

theorem psim_inclusion (E : Env F C) {inc sup : BagRef} (hi : inc.Of k) (hs : sup.Of k) :
    PSim (F := F) (C := C) k id (Mem.Inclusion.prove E k inc sup) (Inclusion.prove E inc.bag sup.bag) := by
  unfold Mem.Inclusion.prove Inclusion.prove
  refine Sim.bind (heap_part k) (psim_incAdvice hi hs) fun _ => ?_
  refine Sim.bind (heap_part k) (psim_trackAndCommit _ _ _) fun m => ?_
  exact psim_incWith E (m := PolyRef.ofPoly k m) hi hs rfl

theorem vsim_incWith (E : Env F C) {inc sup : BagCommRef} {m : CommRef} (hi : inc.Of k) (hs : sup.Of k) (hm : m.tracker = k) :
    VSim (F := F) (C := C) (B := B) k id (Mem.Inclusion.verifyWithAdvice E k inc sup m) (Inclusion.verifyWithAdvice E inc.bag sup.bag m.id) := by
  unfold Mem.Inclusion.verifyWithAdvice Inclusion.verifyWithAdvice
  refine Sim.bind (vmem_part k) (vsim_trackVirtual k _) fun a => ?_
  exact vsim_multitool E (forall_one hi) (forall_one hs) (forall_one (a := CommRef.ofId k a) rfl) (forall_one hm)

theorem vsim_inclusion (E : Env F C) {inc sup : BagCommRef} (hi : inc.Of k) (hs : sup.Of k) :
    VSim (F := F) (C := C) (B := B) k id (Mem.Inclusion.verify E k inc sup) (Inclusion.verify E inc.bag sup.bag) := by
  unfold Mem.Inclusion.verify Inclusion.verify
  refine Sim.bind (vmem_part k) (vsim_on k _) fun i => ?_
  refine Sim.bind (vmem_part k) (vsim_transfer _ _ _) fun m => ?_
  exact vsim_incWith E (m := CommRef.ofId k m) hi hs rfl

theorem psim_prescPerm (E : Env F C) {fx gx : BagRef} {perm : PolyRef} (hf : fx.poly.tracker = k) (hg : gx.poly.tracker = k) (hp : perm.tracker = k) :
    PSim (F := F) (C := C) k id (Mem.PrescPerm.prove E k fx gx perm) (PrescPerm.prove E fx.bag gx.bag perm.poly) := by
  unfold Mem.PrescPerm.prove PrescPerm.prove
  show PSim k id (if fx.numVars ≠ gx.numVars then _ else if fx.numVars ≠ perm.numVars then _ else _)
    (if fx.numVars ≠ gx.numVars then _ else if fx.numVars ≠ perm.numVars then _ else _)
  split_ifs
  · exact Sim.lift (heap_part k) _
  · exact Sim.lift (heap_part k) _
  · pOn; pEval; pEval; pEval; pLift; pLift; pLift; pLift; pMat; pMat; pCom; pCom; pBag; pBag; pMulS; pAdd; pSub; pMulS; pAdd; pSub
    refine Sim.bind (heap_part k) (psim_bagEq E ⟨rfl, rfl⟩ ⟨rfl, rfl⟩) fun _ => ?_
    pOn
    exact psim_on _ _

theorem vsim_prescPerm (E : Env F C) {fx gx : BagCommRef} {perm : CommRef} (hf : fx.poly.tracker = k) (hg : gx.poly.tracker = k)
    (hp : perm.tracker = k) :
    VSim (F := F) (C := C) (B := B) k id (Mem.PrescPerm.verify E k fx gx perm) (PrescPerm.verify E fx.bag gx.bag perm.id) := by
  unfold Mem.PrescPerm.verify PrescPerm.verify
  vOn; vVirt; vVirt; vOn; vTr; vOn; vTr; vMulS; vAdd; vSub; vMulS; vAdd; vSub
  refine Sim.bind (vmem_part k) (vsim_bagEq E ⟨rfl, rfl⟩ ⟨rfl, rfl⟩) fun _ => ?_
  vOn
  exact vsim_on _ _

theorem psim_debugDiff (debug : Bool) {diff : PolyRef} (h : diff.tracker = k) (l : List F) :
    PSim (F := F) (C := C) k id (Mem.StrictSort.debugDiff debug diff l) (StrictSort.debugDiff debug diff.poly l) := by
  unfold Mem.StrictSort.debugDiff StrictSort.debugDiff
  split_ifs
  · pEval
    exact psim_assert _
  · exact Sim.pure (heap_part k) id ()

theorem psim_strictSort (E : Env F C) {sorted range : BagRef} (hs : sorted.Of k) (hr : range.poly.tracker = k) :
    PSim (F := F) (C := C) k id (Mem.StrictSort.prove E k sorted range) (StrictSort.prove E sorted.bag range.bag) := by
  obtain ⟨h1, h2⟩ := hs
  unfold Mem.StrictSort.prove StrictSort.prove
  pEval; pLift; pLift; pLift; pLift; pLift; pMat; pMat; pCom; pBag
  refine Sim.bind (heap_part k) (psim_prescPerm E h1 rfl rfl) fun _ => ?_
  pMat; pSub; pMul; pAddS; pSub
  refine Sim.bind (heap_part k) (psim_debugDiff _ (by tr) _) fun _ => ?_
  pBag; pMat; pBag
  refine Sim.bind (heap_part k) (psim_inclusion E ⟨rfl, rfl⟩ ⟨rfl, rfl⟩) fun _ => ?_
  pBag
  exact psim_noZeros E ⟨rfl, rfl⟩

theorem vsim_strictSort (E : Env F C) {sorted range : BagCommRef} (hs : sorted.Of k) (hr : range.poly.tracker = k) :
    VSim (F := F) (C := C) (B := B) k id (Mem.StrictSort.verify E k sorted range) (StrictSort.verify E sorted.bag range.bag) := by
  obtain ⟨h1, h2⟩ := hs
  unfold Mem.StrictSort.verify StrictSort.verify
  vVirt; vVirt; vOn; vTr
  refine Sim.bind (vmem_part k) (vsim_prescPerm E h1 rfl rfl) fun _ => ?_
  vVirt; vSub; vMul; vAddS; vSub; vVirt
  refine Sim.bind (vmem_part k) (vsim_inclusion E ⟨rfl, rfl⟩ ⟨hr, rfl⟩) fun _ => ?_
  exact vsim_noZeros E ⟨rfl, h2⟩

theorem psim_suppWith (E : Env F C) {bag supp range : BagRef} {m : PolyRef} (hb : bag.Of k) (hs : supp.Of k) (hm : m.tracker = k)
    (hr : range.poly.tracker = k) :
    PSim (F := F) (C := C) k id (Mem.Supp.proveWithAdvice E k bag supp m range) (Supp.proveWithAdvice E bag.bag supp.bag m.poly range.bag) := by
  unfold Mem.Supp.proveWithAdvice Supp.proveWithAdvice
  refine Sim.bind (heap_part k) (psim_incWith E hb hs hm) fun _ => ?_
  have h2 := hs.2
  pBag
  refine Sim.bind (heap_part k) (psim_noZeros E ⟨rfl, rfl⟩) fun _ => ?_
  exact psim_strictSort E hs hr

theorem vsim_suppWith (E : Env F C) {bag supp range : BagCommRef} {m : CommRef} (hb : bag.Of k) (hs : supp.Of k) (hm : m.tracker = k)
    (hr : range.poly.tracker = k) :
    VSim (F := F) (C := C) (B := B) k id (Mem.Supp.verifyWithAdvice E k bag supp m range)
      (Supp.verifyWithAdvice E bag.bag supp.bag m.id range.bag) := by
  unfold Mem.Supp.verifyWithAdvice Supp.verifyWithAdvice
  refine Sim.bind (vmem_part k) (vsim_incWith E hb hs hm) fun _ => ?_
  refine Sim.bind (vmem_part k) (vsim_noZeros E ⟨hm, hs.2⟩) fun _ => ?_
  exact vsim_strictSort E hs hr

theorem psim_supp (E : Env F C) {bag supp range : BagRef} (hb : bag.Of k) (hs : supp.Of k) (hr : range.poly.tracker = k) :
    PSim (F := F) (C := C) k id (Mem.Supp.prove E k bag supp range) (Supp.prove E bag.bag supp.bag range.bag) := by
  unfold Mem.Supp.prove Supp.prove
  refine Sim.bind (heap_part k) (psim_incAdvice hb hs) fun _ => ?_
  refine Sim.bind (heap_part k) (psim_trackAndCommit _ _ _) fun m => ?_
  exact psim_suppWith E (m := PolyRef.ofPoly k m) hb hs rfl hr

theorem vsim_supp (E : Env F C) {bag supp range : BagCommRef} (hb : bag.Of k) (hs : supp.Of k) (hr : range.poly.tracker = k) :
    VSim (F := F) (C := C) (B := B) k id (Mem.Supp.verify E k bag supp range) (Supp.verify E bag.bag supp.bag range.bag) := by
  unfold Mem.Supp.verify Supp.verify
  refine Sim.bind (vmem_part k) (vsim_on k _) fun i => ?_
  refine Sim.bind (vmem_part k) (vsim_transfer _ _ _) fun m => ?_
  exact vsim_suppWith E (m := CommRef.ofId k m) hb hs rfl hr

theorem psim_bagCount {bag : BagRef} (h : bag.Of k) : PSim (F := F) (C := C) k id (Mem.Disjoint.bagCount bag) (Disjoint.bagCount bag.bag) := by
  obtain ⟨h1, h2⟩ := h
  unfold Mem.Disjoint.bagCount Disjoint.bagCount
  pEval; pEval
  exact Sim.lift (heap_part k) _

theorem psim_disAdvice (E : Env F C) {a b : BagRef} (ha : a.Of k) (hb : b.Of k) :
    PSim (F := F) (C := C) k id (Mem.Disjoint.advice E a b) (Disjoint.advice E a.bag b.bag) := by
  unfold Mem.Disjoint.advice Disjoint.advice
  refine Sim.bind (heap_part k) (psim_bagCount ha) fun _ => ?_
  refine Sim.bind (heap_part k) (psim_bagCount hb) fun _ => ?_
  pLift; pLift; pLift; pLift; pLift
  exact Sim.pure (heap_part k) id _

theorem psim_disWith (E : Env F C) {a b c range : BagRef} {mA mB : PolyRef} (ha : a.Of k) (hb : b.Of k) (hc : c.Of k) (hA : mA.tracker = k)
    (hB : mB.tracker = k) (hr : range.poly.tracker = k) :
    PSim (F := F) (C := C) k id (Mem.Disjoint.proveWithAdvice E k a b c mA mB range)
      (Disjoint.proveWithAdvice E a.bag b.bag c.bag mA.poly mB.poly range.bag) := by
  unfold Mem.Disjoint.proveWithAdvice Disjoint.proveWithAdvice
  refine Sim.bind (heap_part k) (psim_strictSort E hc hr) fun _ => ?_
  pMul; pOn
  refine Sim.bind (heap_part k) (psim_incWith E ha hc hA) fun _ => ?_
  exact psim_incWith E hb hc hB

theorem vsim_disWith (E : Env F C) {a b c range : BagCommRef} {mA mB : CommRef} (ha : a.Of k) (hb : b.Of k) (hc : c.Of k) (hA : mA.tracker = k)
    (hB : mB.tracker = k) (hr : range.poly.tracker = k) :
    VSim (F := F) (C := C) (B := B) k id (Mem.Disjoint.verifyWithAdvice E k a b c mA mB range)
      (Disjoint.verifyWithAdvice E a.bag b.bag c.bag mA.id mB.id range.bag) := by
  unfold Mem.Disjoint.verifyWithAdvice Disjoint.verifyWithAdvice
  refine Sim.bind (vmem_part k) (vsim_strictSort E hc hr) fun _ => ?_
  vMul; vOn
  refine Sim.bind (vmem_part k) (vsim_incWith E ha hc hA) fun _ => ?_
  exact vsim_incWith E hb hc hB

theorem psim_disjoint (E : Env F C) {a b range : BagRef} (ha : a.Of k) (hb : b.Of k) (hr : range.poly.tracker = k) :
    PSim (F := F) (C := C) k id (Mem.Disjoint.prove E k a b range) (Disjoint.prove E a.bag b.bag range.bag) := by
  unfold Mem.Disjoint.prove Disjoint.prove
  refine Sim.bind (heap_part k) (psim_disAdvice E ha hb) fun _ => ?_
  pCom; pCom; pBag
  refine Sim.bind (heap_part k) (psim_trackAndCommit _ _ _) fun mA => ?_
  refine Sim.bind (heap_part k) (psim_trackAndCommit _ _ _) fun mB => ?_
  exact psim_disWith E (mA := PolyRef.ofPoly k mA) (mB := PolyRef.ofPoly k mB) ha hb ⟨rfl, rfl⟩ rfl rfl hr

theorem vsim_disjoint (E : Env F C) {a b range : BagCommRef} (ha : a.Of k) (hb : b.Of k) (hr : range.poly.tracker = k) :
    VSim (F := F) (C := C) (B := B) k id (Mem.Disjoint.verify E k a b range) (Disjoint.verify E a.bag b.bag range.bag) := by
  unfold Mem.Disjoint.verify Disjoint.verify
  vOn
  refine Sim.bind (vmem_part k) (vsim_transfer _ _ _) fun p => ?_
  vOn
  refine Sim.bind (vmem_part k) (vsim_transfer _ _ _) fun s => ?_
  vOn
  refine Sim.bind (vmem_part k) (vsim_transfer _ _ _) fun mA => ?_
  vOn
  refine Sim.bind (vmem_part k) (vsim_transfer _ _ _) fun mB => ?_
  exact vsim_disWith E (c := ⟨CommRef.ofId k p, CommRef.ofId k s, _⟩) (mA := CommRef.ofId k mA) (mB := CommRef.ofId k mB) ha hb ⟨rfl, rfl⟩ rfl rfl hr

theorem psim_setDisjoint (E : Env F C) {a b range : BagRef} (ha : a.Of k) (hb : b.Of k) (hr : range.poly.tracker = k) :
    PSim (F := F) (C := C) k id (Mem.SetDisjoint.prove E k a b range) (SetDisjoint.prove E a.bag b.bag range.bag) := by
  have a1 := ha.1; have a2 := ha.2; have b1 := hb.1; have b2 := hb.2
  unfold Mem.SetDisjoint.prove SetDisjoint.prove
  pEval; pEval; pLift; pEval; pEval; pLift; pLift; pLift; pCom; pCom
  refine Sim.bind (heap_part k) (psim_bagNew _ (by tr) (by tr)) fun s => ?_
  refine Sim.bind (heap_part k) (psim_bagSum E (gx := BagRef.ofBag k s) ha hb ⟨rfl, rfl⟩) fun _ => ?_
  exact psim_strictSort E (sorted := BagRef.ofBag k s) ⟨rfl, rfl⟩ hr

theorem vsim_setDisjoint (E : Env F C) {a b range : BagCommRef} (ha : a.Of k) (hb : b.Of k) (hr : range.poly.tracker = k) :
    VSim (F := F) (C := C) (B := B) k id (Mem.SetDisjoint.verify E k a b range) (SetDisjoint.verify E a.bag b.bag range.bag) := by
  unfold Mem.SetDisjoint.verify SetDisjoint.verify
  vOn; vTr; vOn; vTr
  refine Sim.bind (vmem_part k) (vsim_bagSum E ha hb ⟨rfl, rfl⟩) fun _ => ?_
  exact vsim_strictSort E ⟨rfl, rfl⟩ hr

theorem psim_setDiff (E : Env F C) {a b l m range : BagRef} {bm : PolyRef} (ha : a.Of k) (hb : b.Of k) (hl : l.Of k) (hm : m.Of k)
    (hbm : bm.tracker = k) (hr : range.poly.tracker = k) :
    PSim (F := F) (C := C) k id (Mem.SetDiff.prove E k a b l m bm range) (SetDiff.prove E a.bag b.bag l.bag m.bag bm.poly range.bag) :=
  Sim.bind (heap_part k) (psim_setDisjoint E hl hb hr) fun _ => Sim.bind (heap_part k) (psim_bagSum E hl hm ha) fun _ => psim_incWith E hm hb hbm

theorem vsim_setDiff (E : Env F C) {a b l m range : BagCommRef} {bm : CommRef} (ha : a.Of k) (hb : b.Of k) (hl : l.Of k) (hm : m.Of k)
    (hbm : bm.tracker = k) (hr : range.poly.tracker = k) :
    VSim (F := F) (C := C) (B := B) k id (Mem.SetDiff.verify E k a b l m bm range) (SetDiff.verify E a.bag b.bag l.bag m.bag bm.id range.bag) :=
  Sim.bind (vmem_part k) (vsim_setDisjoint E hl hb hr) fun _ => Sim.bind (vmem_part k) (vsim_bagSum E hl hm ha) fun _ => vsim_incWith E hm hb hbm

theorem psim_setUnion (E : Env F C) {a b union range : BagRef} (ha : a.Of k) (hb : b.Of k) (hu : union.Of k) (hr : range.poly.tracker = k) :
    PSim (F := F) (C := C) k id (Mem.SetUnion.prove E k a b union range) (SetUnion.prove E a.bag b.bag union.bag range.bag) := by
  have a1 := ha.1; have a2 := ha.2; have b1 := hb.1; have b2 := hb.2
  unfold Mem.SetUnion.prove SetUnion.prove
  pEval; pEval; pLift; pEval; pEval; pLift; pLift; pLift; pCom; pCom
  refine Sim.bind (heap_part k) (psim_bagNew _ (by tr) (by tr)) fun s => ?_
  refine Sim.bind (heap_part k) (psim_bagSum E (gx := BagRef.ofBag k s) ha hb ⟨rfl, rfl⟩) fun _ => ?_
  exact psim_supp E (bag := BagRef.ofBag k s) ⟨rfl, rfl⟩ hu hr

theorem vsim_setUnion (E : Env F C) {a b union range : BagCommRef} (ha : a.Of k) (hb : b.Of k) (hu : union.Of k) (hr : range.poly.tracker = k) :
    VSim (F := F) (C := C) (B := B) k id (Mem.SetUnion.verify E k a b union range) (SetUnion.verify E a.bag b.bag union.bag range.bag) := by
  unfold Mem.SetUnion.verify SetUnion.verify
  vOn; vTr; vOn; vTr
  refine Sim.bind (vmem_part k) (vsim_bagSum E ha hb ⟨rfl, rfl⟩) fun _ => ?_
  exact vsim_supp E ⟨rfl, rfl⟩ hu hr

theorem psim_setIntersect (E : Env F C) {a b l m r range : BagRef} (ha : a.Of k) (hb : b.Of k) (hl : l.Of k) (hm : m.Of k) (hr' : r.Of k)
    (hr : range.poly.tracker = k) :
    PSim (F := F) (C := C) k id (Mem.SetIntersect.prove E k a b l m r range) (SetIntersect.prove E a.bag b.bag l.bag m.bag r.bag range.bag) :=
  Sim.bind (heap_part k) (psim_bagSum E hl hm ha) fun _ => Sim.bind (heap_part k) (psim_bagSum E hm hr' hb) fun _ => psim_setDisjoint E hl hr' hr

theorem vsim_setIntersect (E : Env F C) {a b l m r range : BagCommRef} (ha : a.Of k) (hb : b.Of k) (hl : l.Of k) (hm : m.Of k) (hr' : r.Of k)
    (hr : range.poly.tracker = k) :
    VSim (F := F) (C := C) (B := B) k id (Mem.SetIntersect.verify E k a b l m r range)
      (SetIntersect.verify E a.bag b.bag l.bag m.bag r.bag range.bag) :=
  Sim.bind (vmem_part k) (vsim_bagSum E hl hm ha) fun _ => Sim.bind (vmem_part k) (vsim_bagSum E hm hr' hb) fun _ => vsim_setDisjoint E hl hr' hr

theorem psim_joinReduction (E : Env F C) {a b range : BagRef} {lSel rSel : PolyRef} (ha : a.Of k) (hb : b.Of k) (hl : lSel.tracker = k)
    (hr' : rSel.tracker = k) (hr : range.poly.tracker = k) :
    PSim (F := F) (C := C) k id (Mem.JoinReduction.prove E k a b lSel rSel range)
      (JoinReduction.prove E a.bag b.bag lSel.poly rSel.poly range.bag) := by
  have a1 := ha.1; have a2 := ha.2; have b1 := hb.1; have b2 := hb.2
  unfold Mem.JoinReduction.prove JoinReduction.prove
  pMulS; pAddS; pMulS; pAddS; pMul; pBag; pMul; pBag; pMul; pBag; pMul; pBag
  refine Sim.bind (heap_part k) (psim_selectorValid hl) fun _ => ?_
  refine Sim.bind (heap_part k) (psim_selectorValid hr') fun _ => ?_
  refine Sim.bind (heap_part k) (psim_disjoint E ⟨rfl, rfl⟩ ⟨rfl, rfl⟩ hr) fun _ => ?_
  refine Sim.bind (heap_part k) (psim_disjoint E ⟨rfl, rfl⟩ ⟨rfl, rfl⟩ hr) fun _ => ?_
  refine Sim.bind (heap_part k) (psim_disjoint E ⟨rfl, rfl⟩ ⟨rfl, rfl⟩ hr) fun _ => ?_
  refine Sim.bind (heap_part k) (psim_inclusion E ⟨rfl, rfl⟩ ⟨rfl, rfl⟩) fun _ => ?_
  exact psim_inclusion E ⟨rfl, rfl⟩ ⟨rfl, rfl⟩

theorem vsim_joinReduction (E : Env F C) {a b range : BagCommRef} {lSel rSel : CommRef} (ha : a.Of k) (hb : b.Of k) (hl : lSel.tracker = k)
    (hr' : rSel.tracker = k) (hr : range.poly.tracker = k) :
    VSim (F := F) (C := C) (B := B) k id (Mem.JoinReduction.verify E k a b lSel rSel range)
      (JoinReduction.verify E a.bag b.bag lSel.id rSel.id range.bag) := by
  have a1 := ha.1; have a2 := ha.2; have b1 := hb.1; have b2 := hb.2
  unfold Mem.JoinReduction.verify JoinReduction.verify
  vMulS; vAddS; vMulS; vAddS; vMul; vMul; vMul; vMul
  refine Sim.bind (vmem_part k) (vsim_selectorValid hl) fun _ => ?_
  refine Sim.bind (vmem_part k) (vsim_selectorValid hr') fun _ => ?_
  refine Sim.bind (vmem_part k) (vsim_disjoint E ⟨a1, rfl⟩ ⟨b1, rfl⟩ hr) fun _ => ?_
  refine Sim.bind (vmem_part k) (vsim_disjoint E ⟨a1, rfl⟩ ⟨a1, rfl⟩ hr) fun _ => ?_
  refine Sim.bind (vmem_part k) (vsim_disjoint E ⟨b1, rfl⟩ ⟨b1, rfl⟩ hr) fun _ => ?_
  refine Sim.bind (vmem_part k) (vsim_inclusion E ⟨a1, rfl⟩ ⟨b1, rfl⟩) fun _ => ?_
  exact vsim_inclusion E ⟨b1, rfl⟩ ⟨a1, rfl⟩

/-! ### Tables -/

theorem map_ofPoly {cols : List PolyRef} (h : ∀ c ∈ cols, c.tracker = k) : (cols.map (·.poly)).map (PolyRef.ofPoly k) = cols := by
  rw [List.map_map]
  conv_rhs => rw [← List.map_id cols]
  exact List.map_congr_left fun c hc => ofPoly_poly (h c hc)

theorem map_ofId {cols : List CommRef} (h : ∀ c ∈ cols, c.tracker = k) : (cols.map (·.id)).map (CommRef.ofId k) = cols := by
  rw [List.map_map]
  conv_rhs => rw [← List.map_id cols]
  exact List.map_congr_left fun c hc => ofId_id (h c hc)

theorem ofTable_table {t : TableRef} (h : t.Of k) : TableRef.ofTable k t.table = t := by
  obtain ⟨cols, s⟩ := t
  simp only [TableRef.ofTable, TableRef.table, map_ofPoly h.1, ofPoly_poly h.2]

theorem ofTableC_table {t : TableCommRef} (h : t.Of k) : TableCommRef.ofTable k t.table = t := by
  obtain ⟨cols, s, n⟩ := t
  simp only [TableCommRef.ofTable, TableCommRef.table, map_ofId h.1, ofId_id h.2]

theorem idx_map_res {α β : Type} (f : α → β) (l : List α) (i : Nat) : idx (l.map f) i = (idx l i).map f := by
  unfold idx
  rw [List.getElem?_map]
  cases l[i]? <;> rfl

theorem Sim.liftMap {M S α β : Type} {get : M → Option S} {put : M → S → M} (P : Part get put) (f : α → β) (r : Res α) :
    Sim get put f (Act.lift (r.map f)) (Act.lift r) := by
  intro mem x h
  rcases r with e | a <;> simp [P.put_get mem x h, Except.map]

theorem psim_idx (cols : List TPoly) (i : Nat) :
    PSim (F := F) (C := C) k (PolyRef.ofPoly k) (Act.lift (idx (cols.map (PolyRef.ofPoly k)) i)) (Act.lift (idx cols i)) := by
  rw [idx_map_res]; exact Sim.liftMap (heap_part k) _ _

theorem vsim_idx (cols : List Nat) (i : Nat) :
    VSim (F := F) (C := C) (B := B) k (CommRef.ofId k) (Act.lift (idx (cols.map (CommRef.ofId k)) i)) (Act.lift (idx cols i)) := by
  rw [idx_map_res]; exact Sim.liftMap (vmem_part k) _ _

theorem checks_eq {S : Type} (selector : TPoly) (s : S) : ∀ cols : List TPoly,
    TableRef.checks (PolyRef.ofPoly k selector) (cols.map (PolyRef.ofPoly k)) s = Act.assert (∀ p ∈ cols, p.numVars = selector.numVars) s
  | [] => by simp [TableRef.checks, Act.assert]
  | p :: r => by
    rw [List.map_cons, TableRef.checks]
    by_cases h : p.numVars = selector.numVars
    · rw [assert_bind (p := (PolyRef.ofPoly k p).numVars = (PolyRef.ofPoly k selector).numVars) h,
        assert_bind (p := (PolyRef.ofPoly k p).sameTracker (PolyRef.ofPoly k selector) = true) (same_iff.2 rfl), checks_eq selector s r]
      simp [Act.assert, h]
    · rw [Act.bind_error (assert_false (p := (PolyRef.ofPoly k p).numVars = (PolyRef.ofPoly k selector).numVars) h s)]
      rw [assert_false]
      exact fun e => h (e p List.mem_cons_self)

theorem psim_tableNew (debug : Bool) (cols : List TPoly) (q : TPoly) :
    PSim (F := F) (C := C) k (TableRef.ofTable k) (TableRef.new debug (cols.map (PolyRef.ofPoly k)) (PolyRef.ofPoly k q)) (Table.new debug cols q) := by
  unfold TableRef.new Table.new
  cases debug with
  | false =>
    rw [assert_bind (p := false = true → ∀ p ∈ cols, p.numVars = q.numVars) (by simp)]
    exact Sim.pure (heap_part k) (TableRef.ofTable k) ⟨cols, q⟩
  | true =>
    rw [if_pos rfl]
    refine Sim.bind (f := id) (heap_part k) ?_ fun _ => Sim.pure (heap_part k) (TableRef.ofTable k) ⟨cols, q⟩
    rw [show TableRef.checks (S := PHeap F C) (PolyRef.ofPoly k q) (cols.map (PolyRef.ofPoly k)) = Act.assert (∀ p ∈ cols, p.numVars = q.numVars)
      from funext fun s => checks_eq q s cols]
    convert psim_assert (F := F) (C := C) (k := k) (∀ p ∈ cols, p.numVars = q.numVars) using 2
    exact ⟨fun h => h rfl, fun h _ => h⟩

theorem psim_incFronts (n : Nat) : ∀ cols : List TPoly, PSim (F := F) (C := C) k (List.map (PolyRef.ofPoly k))
    (Mem.CrossProduct.incFronts n (cols.map (PolyRef.ofPoly k))) (CrossProduct.incFronts n cols)
  | [] => Sim.pure (heap_part k) (List.map (PolyRef.ofPoly k)) []
  | c :: cs => by
    show PSim k _ (Mem.CrossProduct.incFronts n (PolyRef.ofPoly k c :: cs.map (PolyRef.ofPoly k))) _
    unfold Mem.CrossProduct.incFronts CrossProduct.incFronts
    refine Sim.bind (heap_part k) (psim_incFront (a := PolyRef.ofPoly k c) rfl n) fun c' => ?_
    refine Sim.bind (heap_part k) (psim_incFronts n cs) fun cs' => ?_
    exact Sim.pure (heap_part k) (List.map (PolyRef.ofPoly k)) (c' :: cs')

theorem psim_incBacks (n : Nat) : ∀ cols : List TPoly, PSim (F := F) (C := C) k (List.map (PolyRef.ofPoly k))
    (Mem.CrossProduct.incBacks n (cols.map (PolyRef.ofPoly k))) (CrossProduct.incBacks n cols)
  | [] => Sim.pure (heap_part k) (List.map (PolyRef.ofPoly k)) []
  | c :: cs => by
    show PSim k _ (Mem.CrossProduct.incBacks n (PolyRef.ofPoly k c :: cs.map (PolyRef.ofPoly k))) _
    unfold Mem.CrossProduct.incBacks CrossProduct.incBacks
    refine Sim.bind (heap_part k) (psim_incBack (a := PolyRef.ofPoly k c) rfl n) fun c' => ?_
    refine Sim.bind (heap_part k) (psim_incBacks n cs) fun cs' => ?_
    exact Sim.pure (heap_part k) (List.map (PolyRef.ofPoly k)) (c' :: cs')

theorem vsim_incFronts (n : Nat) : ∀ cols : List Nat, VSim (F := F) (C := C) (B := B) k (List.map (CommRef.ofId k))
    (Mem.CrossProduct.vIncFronts n (cols.map (CommRef.ofId k))) (CrossProduct.vIncFronts n cols)
  | [] => Sim.pure (vmem_part k) (List.map (CommRef.ofId k)) []
  | c :: cs => by
    show VSim k _ (Mem.CrossProduct.vIncFronts n (CommRef.ofId k c :: cs.map (CommRef.ofId k))) _
    unfold Mem.CrossProduct.vIncFronts CrossProduct.vIncFronts
    refine Sim.bind (vmem_part k) (vsim_incFront (a := CommRef.ofId k c) rfl n) fun c' => ?_
    refine Sim.bind (vmem_part k) (vsim_incFronts n cs) fun cs' => ?_
    exact Sim.pure (vmem_part k) (List.map (CommRef.ofId k)) (c' :: cs')

theorem vsim_incBacks (n : Nat) : ∀ cols : List Nat, VSim (F := F) (C := C) (B := B) k (List.map (CommRef.ofId k))
    (Mem.CrossProduct.vIncBacks n (cols.map (CommRef.ofId k))) (CrossProduct.vIncBacks n cols)
  | [] => Sim.pure (vmem_part k) (List.map (CommRef.ofId k)) []
  | c :: cs => by
    show VSim k _ (Mem.CrossProduct.vIncBacks n (CommRef.ofId k c :: cs.map (CommRef.ofId k))) _
    unfold Mem.CrossProduct.vIncBacks CrossProduct.vIncBacks
    refine Sim.bind (vmem_part k) (vsim_incBack (a := CommRef.ofId k c) rfl n) fun c' => ?_
    refine Sim.bind (vmem_part k) (vsim_incBacks n cs) fun cs' => ?_
    exact Sim.pure (vmem_part k) (List.map (CommRef.ofId k)) (c' :: cs')

theorem psim_crossProduct (E : Env F C) (a b : Table) :
    PSim (F := F) (C := C) k (TableRef.ofTable k) (Mem.CrossProduct.prover E (TableRef.ofTable k a) (TableRef.ofTable k b)) (CrossProduct.prover E a b) := by
  unfold Mem.CrossProduct.prover CrossProduct.prover
  refine Sim.bind (heap_part k) (psim_incFronts _ a.colVals) fun as => ?_
  refine Sim.bind (heap_part k) (psim_incBacks _ b.colVals) fun bs => ?_
  refine Sim.bind (heap_part k) (psim_incFront (a := PolyRef.ofPoly k a.selector) rfl _) fun sa => ?_
  refine Sim.bind (heap_part k) (psim_incBack (a := PolyRef.ofPoly k b.selector) rfl _) fun sb => ?_
  refine Sim.bind (heap_part k) (psim_mul (a := PolyRef.ofPoly k sa) (b := PolyRef.ofPoly k sb) rfl rfl) fun s => ?_
  rw [← List.map_append]
  exact psim_tableNew _ _ _

theorem vsim_crossProduct (a b : TableComm) :
    VSim (F := F) (C := C) (B := B) k (TableCommRef.ofTable k) (Mem.CrossProduct.verifier (TableCommRef.ofTable k a) (TableCommRef.ofTable k b))
      (CrossProduct.verifier a b) := by
  unfold Mem.CrossProduct.verifier CrossProduct.verifier
  refine Sim.bind (vmem_part k) (vsim_incFronts _ a.colVals) fun as => ?_
  refine Sim.bind (vmem_part k) (vsim_incBacks _ b.colVals) fun bs => ?_
  refine Sim.bind (vmem_part k) (vsim_incFront (a := CommRef.ofId k a.selector) rfl _) fun sa => ?_
  refine Sim.bind (vmem_part k) (vsim_incBack (a := CommRef.ofId k b.selector) rfl _) fun sb => ?_
  refine Sim.bind (vmem_part k) (vsim_mul (a := CommRef.ofId k sa) (b := CommRef.ofId k sb) rfl rfl) fun s => ?_
  rw [← List.map_append]
  exact Sim.pure (vmem_part k) (TableCommRef.ofTable k) ⟨as ++ bs, s, a.numVars + b.numVars⟩

theorem psim_aggLoop : ∀ (cols : List TPoly) (acc : TPoly) (rs : List F), PSim (F := F) (C := C) k (PolyRef.ofPoly k)
    (Mem.IndexTransform.proverAggLoop (PolyRef.ofPoly k acc) (cols.map (PolyRef.ofPoly k)) rs) (IndexTransform.proverAggLoop acc cols rs)
  | [], acc, _ => Sim.pure (heap_part k) (PolyRef.ofPoly k) acc
  | _ :: _, _, [] => Sim.liftMap (heap_part k) _ (.error .panic)
  | c :: cs, acc, r :: rs => by
    show PSim k _ (Mem.IndexTransform.proverAggLoop (PolyRef.ofPoly k acc) (PolyRef.ofPoly k c :: cs.map (PolyRef.ofPoly k)) _) _
    unfold Mem.IndexTransform.proverAggLoop IndexTransform.proverAggLoop
    refine Sim.bind (heap_part k) (psim_mulScalar (a := PolyRef.ofPoly k c) rfl r) fun x => ?_
    refine Sim.bind (heap_part k) (psim_mul (a := PolyRef.ofPoly k acc) (b := PolyRef.ofPoly k x) rfl rfl) fun acc' => ?_
    exact psim_aggLoop cs acc' rs

theorem vsim_aggLoop : ∀ (cols : List Nat) (acc : Nat) (rs : List F), VSim (F := F) (C := C) (B := B) k (CommRef.ofId k)
    (Mem.IndexTransform.verifierAggLoop (CommRef.ofId k acc) (cols.map (CommRef.ofId k)) rs) (IndexTransform.verifierAggLoop acc cols rs)
  | [], acc, _ => Sim.pure (vmem_part k) (CommRef.ofId k) acc
  | _ :: _, _, [] => Sim.liftMap (vmem_part k) _ (.error .panic)
  | c :: cs, acc, r :: rs => by
    show VSim k _ (Mem.IndexTransform.verifierAggLoop (CommRef.ofId k acc) (CommRef.ofId k c :: cs.map (CommRef.ofId k)) _) _
    unfold Mem.IndexTransform.verifierAggLoop IndexTransform.verifierAggLoop
    refine Sim.bind (vmem_part k) (vsim_mulScalar (a := CommRef.ofId k c) rfl r) fun x => ?_
    refine Sim.bind (vmem_part k) (vsim_mul (a := CommRef.ofId k acc) (b := CommRef.ofId k x) rfl rfl) fun acc' => ?_
    exact vsim_aggLoop cs acc' rs

theorem psim_agg (E : Env F C) (t : Table) (rs : List F) :
    PSim (F := F) (C := C) k (BagRef.ofBag k) (Mem.IndexTransform.proverAgg E (TableRef.ofTable k t) rs) (IndexTransform.proverAgg E t rs) :=
  Sim.bind (heap_part k) (psim_aggLoop t.colVals t.selector rs) fun p =>
    psim_bagNew E.debug (p := PolyRef.ofPoly k p) (q := PolyRef.ofPoly k t.selector) rfl rfl

theorem vsim_agg (t : TableComm) (rs : List F) :
    VSim (F := F) (C := C) (B := B) k (BagCommRef.ofBag k) (Mem.IndexTransform.verifierAgg (TableCommRef.ofTable k t) rs)
      (IndexTransform.verifierAgg t rs) :=
  Sim.bind (vmem_part k) (vsim_aggLoop t.colVals t.selector rs) fun p => Sim.pure (vmem_part k) (BagCommRef.ofBag k) ⟨p, t.selector, t.numVars⟩

theorem psim_indexTransform (E : Env F C) (tin tout : Table) :
    PSim (F := F) (C := C) k id (Mem.IndexTransform.prove E k (TableRef.ofTable k tin) (TableRef.ofTable k tout)) (IndexTransform.prove E tin tout) := by
  unfold Mem.IndexTransform.prove IndexTransform.prove
  rw [show (TableRef.ofTable k tin).colVals.length = tin.colVals.length from List.length_map _]
  refine Sim.bind (f := id) (heap_part k) ?_ fun rs => ?_
  · exact Sim.bind (heap_part k) (psim_on k _) fun r => Sim.pure (heap_part k) id _
  · refine Sim.bind (heap_part k) (psim_agg E tin rs) fun b => ?_
    refine Sim.bind (heap_part k) (psim_agg E tout rs) fun b' => ?_
    exact psim_inclusion E (inc := BagRef.ofBag k b') (sup := BagRef.ofBag k b) ⟨rfl, rfl⟩ ⟨rfl, rfl⟩

theorem vsim_indexTransform (E : Env F C) (tin tout : TableComm) :
    VSim (F := F) (C := C) (B := B) k id (Mem.IndexTransform.verify E k (TableCommRef.ofTable k tin) (TableCommRef.ofTable k tout))
      (IndexTransform.verify E tin tout) := by
  unfold Mem.IndexTransform.verify IndexTransform.verify
  rw [show (TableCommRef.ofTable k tin).colVals.length = tin.colVals.length from List.length_map _]
  refine Sim.bind (f := id) (vmem_part k) ?_ fun rs => ?_
  · exact Sim.bind (vmem_part k) (vsim_on k _) fun r => Sim.pure (vmem_part k) id _
  · refine Sim.bind (vmem_part k) (vsim_agg tin rs) fun b => ?_
    refine Sim.bind (vmem_part k) (vsim_agg tout rs) fun b' => ?_
    exact vsim_inclusion E (inc := BagCommRef.ofBag k b') (sup := BagCommRef.ofBag k b) ⟨rfl, rfl⟩ ⟨rfl, rfl⟩

/-! #### One-to-many join -/

theorem psim_transform (a b : Table) (ai bi : Nat) : PSim (F := F) (C := C) k id
    (Mem.FinalJoin.transform (TableRef.ofTable k a) (TableRef.ofTable k b) ai bi) (FinalJoin.transform a b ai bi) := by
  unfold Mem.FinalJoin.transform FinalJoin.transform
  refine Sim.bind (heap_part k) (psim_idx a.colVals ai) fun c => ?_
  refine Sim.bind (heap_part k) (psim_evaluations (a := PolyRef.ofPoly k c) rfl) fun _ => ?_
  refine Sim.bind (heap_part k) (psim_evaluations (a := PolyRef.ofPoly k a.selector) rfl) fun _ => ?_
  pLift
  refine Sim.bind (heap_part k) (psim_idx b.colVals bi) fun c => ?_
  refine Sim.bind (heap_part k) (psim_evaluations (a := PolyRef.ofPoly k c) rfl) fun _ => ?_
  refine Sim.bind (heap_part k) (psim_evaluations (a := PolyRef.ofPoly k b.selector) rfl) fun _ => ?_
  exact Sim.lift (heap_part k) _

theorem psim_applyTransform (E : Env F C) (ks : List Nat) (o s : TPoly) : PSim (F := F) (C := C) k id
    (Mem.FinalJoin.applyTransform E ks (PolyRef.ofPoly k o) (PolyRef.ofPoly k s)) (FinalJoin.applyTransform E ks o s) := by
  unfold Mem.FinalJoin.applyTransform FinalJoin.applyTransform
  refine Sim.bind (heap_part k) (psim_evaluations (a := PolyRef.ofPoly k o) rfl) fun _ => ?_
  refine Sim.bind (heap_part k) (psim_evaluations (a := PolyRef.ofPoly k s) rfl) fun _ => ?_
  refine Sim.bind (heap_part k) (psim_assert _) fun _ => ?_
  pLift
  exact Sim.lift (heap_part k) _

theorem psim_applyAll (E : Env F C) (ks : List Nat) (s : TPoly) : ∀ cols : List TPoly, PSim (F := F) (C := C) k id
    (Mem.FinalJoin.applyAll E ks (PolyRef.ofPoly k s) (cols.map (PolyRef.ofPoly k))) (FinalJoin.applyAll E ks s cols)
  | [] => Sim.pure (heap_part k) id []
  | c :: cs => by
    show PSim k _ (Mem.FinalJoin.applyAll E ks _ (PolyRef.ofPoly k c :: cs.map (PolyRef.ofPoly k))) _
    unfold Mem.FinalJoin.applyAll FinalJoin.applyAll
    refine Sim.bind (heap_part k) (psim_applyTransform E ks c s) fun _ => ?_
    refine Sim.bind (heap_part k) (psim_applyAll E ks s cs) fun _ => ?_
    exact Sim.pure (heap_part k) id _

theorem psim_commitAll (E : Env F C) : ∀ ms : List (Mle F), PSim (F := F) (C := C) k (List.map (PolyRef.ofPoly k))
    (Mem.FinalJoin.commitAll E k ms) (FinalJoin.commitAll E ms)
  | [] => Sim.pure (heap_part k) (List.map (PolyRef.ofPoly k)) []
  | m :: ms => by
    unfold Mem.FinalJoin.commitAll FinalJoin.commitAll
    refine Sim.bind (heap_part k) (psim_trackAndCommit _ k m) fun c => ?_
    refine Sim.bind (heap_part k) (psim_commitAll E ms) fun cs => ?_
    exact Sim.pure (heap_part k) (List.map (PolyRef.ofPoly k)) (c :: cs)

theorem psim_debugKeys (E : Env F C) (a : Table) (ai : Nat) : PSim (F := F) (C := C) k id
    (Mem.FinalJoin.debugKeys E (TableRef.ofTable k a) ai) (FinalJoin.debugKeys E a ai) := by
  unfold Mem.FinalJoin.debugKeys FinalJoin.debugKeys
  split_ifs
  · refine Sim.bind (heap_part k) (psim_idx a.colVals ai) fun c => ?_
    refine Sim.bind (heap_part k) (psim_evaluations (a := PolyRef.ofPoly k c) rfl) fun l => ?_
    show PSim k id (if l.Nodup then _ else _) _
    split_ifs
    · exact Sim.pure (heap_part k) id ()
    · exact Sim.lift (heap_part k) _
  · exact Sim.pure (heap_part k) id ()

theorem prefixOf_map {α β : Type} (f : α → β) (n : Nat) (l : List α) : FinalJoin.prefixOf n (l.map f) = (FinalJoin.prefixOf n l).map (List.map f) := by
  unfold FinalJoin.prefixOf
  rw [List.length_map]
  split_ifs
  · rfl
  · rw [← List.map_take]; rfl

theorem psim_finalJoinWith (E : Env F C) (a b : Table) (ai bi : Nat) (ta : List TPoly) : PSim (F := F) (C := C) k (TableRef.ofTable k)
    (Mem.FinalJoin.proveWithAdvice E k (TableRef.ofTable k a) (TableRef.ofTable k b) ai bi (ta.map (PolyRef.ofPoly k)))
    (FinalJoin.proveWithAdvice E a b ai bi ta) := by
  unfold Mem.FinalJoin.proveWithAdvice FinalJoin.proveWithAdvice
  rw [show (TableRef.ofTable k a).colVals.length = a.colVals.length from List.length_map _,
    show ta.map (PolyRef.ofPoly k) ++ (TableRef.ofTable k b).colVals = (ta ++ b.colVals).map (PolyRef.ofPoly k) from List.map_append.symm]
  refine Sim.bind (heap_part k) (psim_debugKeys E a ai) fun _ => ?_
  refine Sim.bind (heap_part k) (psim_tableNew _ _ b.selector) fun res => ?_
  have hp := Sim.liftMap (heap_part (F := F) (C := C) k) (List.map (PolyRef.ofPoly k)) (FinalJoin.prefixOf a.colVals.length res.colVals)
  rw [← prefixOf_map] at hp
  refine Sim.bind (heap_part k) hp fun cols => ?_
  refine Sim.bind (heap_part k) (psim_tableNew _ cols res.selector) fun tr => ?_
  refine Sim.bind (heap_part k) (psim_indexTransform E a tr) fun _ => ?_
  refine Sim.bind (heap_part k) (psim_idx res.colVals ai) fun ja => ?_
  refine Sim.bind (heap_part k) (psim_idx res.colVals _) fun jb => ?_
  refine Sim.bind (heap_part k) (psim_sub (a := PolyRef.ofPoly k ja) (b := PolyRef.ofPoly k jb) rfl rfl) fun d => ?_
  refine Sim.bind (heap_part k) (psim_mul (a := PolyRef.ofPoly k d) (b := PolyRef.ofPoly k res.selector) rfl rfl) fun c => ?_
  pOn
  exact Sim.pure (heap_part k) (TableRef.ofTable k) res

theorem psim_finalJoin (E : Env F C) (a b : Table) (ai bi : Nat) : PSim (F := F) (C := C) k (TableRef.ofTable k)
    (Mem.FinalJoin.prove E k (TableRef.ofTable k a) (TableRef.ofTable k b) ai bi) (FinalJoin.prove E a b ai bi) := by
  unfold Mem.FinalJoin.prove FinalJoin.prove
  refine Sim.bind (heap_part k) (psim_transform a b ai bi) fun ks => ?_
  refine Sim.bind (heap_part k) (psim_applyAll E ks b.selector a.colVals) fun ms => ?_
  refine Sim.bind (heap_part k) (psim_commitAll E ms) fun ta => ?_
  exact psim_finalJoinWith E a b ai bi ta

theorem vsim_transferAll (E : Env F C) : ∀ n : Nat, VSim (F := F) (C := C) (B := B) k (List.map (CommRef.ofId k))
    (Mem.FinalJoin.transferAll E k n) (FinalJoin.transferAll E n)
  | 0 => Sim.pure (vmem_part k) (List.map (CommRef.ofId k)) []
  | n + 1 => by
    unfold Mem.FinalJoin.transferAll FinalJoin.transferAll
    vOn
    refine Sim.bind (vmem_part k) (vsim_transfer _ k _) fun c => ?_
    refine Sim.bind (vmem_part k) (vsim_transferAll E n) fun cs => ?_
    exact Sim.pure (vmem_part k) (List.map (CommRef.ofId k)) (c :: cs)

theorem vsim_finalJoinWith (E : Env F C) (a b : TableComm) (ai bi : Nat) (ta : List Nat) : VSim (F := F) (C := C) (B := B) k (TableCommRef.ofTable k)
    (Mem.FinalJoin.verifyWithAdvice E k (TableCommRef.ofTable k a) (TableCommRef.ofTable k b) ai bi (ta.map (CommRef.ofId k)))
    (FinalJoin.verifyWithAdvice E a b ai bi ta) := by
  unfold Mem.FinalJoin.verifyWithAdvice FinalJoin.verifyWithAdvice
  rw [show (TableCommRef.ofTable k a).colVals.length = a.colVals.length from List.length_map _,
    show ta.map (CommRef.ofId k) ++ (TableCommRef.ofTable k b).colVals = (ta ++ b.colVals).map (CommRef.ofId k) from List.map_append.symm]
  have hp := Sim.liftMap (vmem_part (F := F) (C := C) (B := B) k) (List.map (CommRef.ofId k)) (FinalJoin.prefixOf a.colVals.length (ta ++ b.colVals))
  rw [← prefixOf_map] at hp
  refine Sim.bind (vmem_part k) hp fun cols => ?_
  refine Sim.bind (vmem_part k) (vsim_indexTransform E a ⟨cols, b.selector, b.numVars⟩) fun _ => ?_
  refine Sim.bind (vmem_part k) (vsim_idx (ta ++ b.colVals) ai) fun ja => ?_
  refine Sim.bind (vmem_part k) (vsim_idx (ta ++ b.colVals) _) fun jb => ?_
  refine Sim.bind (vmem_part k) (vsim_sub (a := CommRef.ofId k ja) (b := CommRef.ofId k jb) rfl rfl) fun d => ?_
  refine Sim.bind (vmem_part k) (vsim_mul (a := CommRef.ofId k d) (b := CommRef.ofId k b.selector) rfl rfl) fun c => ?_
  vOn
  exact Sim.pure (vmem_part k) (TableCommRef.ofTable k) ⟨ta ++ b.colVals, b.selector, b.numVars⟩

theorem vsim_finalJoin (E : Env F C) (a b : TableComm) (ai bi : Nat) : VSim (F := F) (C := C) (B := B) k (TableCommRef.ofTable k)
    (Mem.FinalJoin.verify E k (TableCommRef.ofTable k a) (TableCommRef.ofTable k b) ai bi) (FinalJoin.verify E a b ai bi) := by
  unfold Mem.FinalJoin.verify FinalJoin.verify
  rw [show (TableCommRef.ofTable k a).colVals.length = a.colVals.length from List.length_map _]
  refine Sim.bind (vmem_part k) (vsim_transferAll E _) fun ta => ?_
  exact vsim_finalJoinWith E a b ai bi ta

/-! #### Group by -/

theorem validate_map {H H' : Type} (f : H → H') (n : Nat) (i : GroupInstr H) :
    GroupBy.validate n (i.map f) = (GroupBy.validate n i).map fun e => (e.1, f e.2) := by
  unfold GroupBy.validate
  rw [show (i.map f).groupingCols = i.groupingCols from rfl, show (i.map f).supportCols = i.supportCols.map f from rfl, idx_map_res,
    show ((i.map f).aggs.any fun e => decide (n ≤ e.1)) = i.aggs.any fun e => decide (n ≤ e.1) by simp only [GroupInstr.map, List.any_map]; rfl]
  by_cases h1 : 1 < i.groupingCols.length
  · rw [if_pos h1, if_pos h1]; rfl
  · rw [if_neg h1, if_neg h1]
    rcases idx i.groupingCols 0 with e | g
    · rfl
    · simp only [ok_bind]
      by_cases h2 : n ≤ g
      · rw [if_pos h2, if_pos h2]; rfl
      · rw [if_neg h2, if_neg h2]
        by_cases h3 : (i.aggs.any fun e => decide (n ≤ e.1)) = true
        · rw [if_pos h3, if_pos h3]; rfl
        · rw [if_neg h3, if_neg h3]
          rcases idx i.supportCols 0 with e | s <;> rfl

theorem psim_aggs (E : Env F C) (inp : Table) (pre grp : Bag) (mult : TPoly) : ∀ (aggs : List (Nat × AggType × TPoly)) (cols : List TPoly),
    PSim (F := F) (C := C) k (List.map (PolyRef.ofPoly k))
      (Mem.GroupBy.proveAggs E k (TableRef.ofTable k inp) (BagRef.ofBag k pre) (BagRef.ofBag k grp) (PolyRef.ofPoly k mult)
        (aggs.map fun e => (e.1, e.2.1, PolyRef.ofPoly k e.2.2)) (cols.map (PolyRef.ofPoly k))) (GroupBy.proveAggs E inp pre grp mult aggs cols)
  | [], cols => Sim.pure (heap_part k) (List.map (PolyRef.ofPoly k)) cols
  | (_, .count, _) :: r, cols => by
    have := psim_aggs E inp pre grp mult r (cols ++ [mult])
    rw [List.map_append] at this
    exact this
  | (c, .sum, p) :: r, cols => by
    rw [List.map_cons]
    unfold Mem.GroupBy.proveAggs GroupBy.proveAggs
    refine Sim.bind (heap_part k) (psim_idx inp.colVals c) fun x => ?_
    refine Sim.bind (heap_part k) (psim_multitool E (forall_one (a := BagRef.ofBag k pre) ⟨rfl, rfl⟩) (forall_one (a := BagRef.ofBag k grp) ⟨rfl, rfl⟩)
      (forall_one (a := PolyRef.ofPoly k x) rfl) (forall_one (a := PolyRef.ofPoly k p) rfl)) fun _ => ?_
    exact psim_aggs E inp pre grp mult r cols
  | (_, .avg, _) :: _, _ => Sim.liftMap (heap_part k) _ (.error .panic)
  | (_, .min, _) :: _, _ => Sim.liftMap (heap_part k) _ (.error .panic)
  | (_, .max, _) :: _, _ => Sim.liftMap (heap_part k) _ (.error .panic)

theorem psim_groupBy (E : Env F C) (inp : Table) (i : GroupInstr TPoly) {range : BagRef} (hr : range.poly.tracker = k) :
    PSim (F := F) (C := C) k (TableRef.ofTable k) (Mem.GroupBy.proveWithAdvice E k (TableRef.ofTable k inp) (i.map (PolyRef.ofPoly k)) range)
      (GroupBy.proveWithAdvice E inp i range.bag) := by
  unfold Mem.GroupBy.proveWithAdvice GroupBy.proveWithAdvice
  rw [show (TableRef.ofTable k inp).colVals.length = inp.colVals.length from List.length_map _, validate_map]
  refine Sim.bind (heap_part k) (Sim.liftMap (heap_part k) _ _) fun e => ?_
  obtain ⟨g, supp⟩ := e
  refine Sim.bind (heap_part k) (psim_idx inp.colVals g) fun c => ?_
  refine Sim.bind (heap_part k) (psim_bagNew _ (p := PolyRef.ofPoly k c) (q := PolyRef.ofPoly k inp.selector) rfl rfl) fun pre => ?_
  refine Sim.bind (heap_part k) (psim_bagNew _ (p := PolyRef.ofPoly k supp) (q := PolyRef.ofPoly k i.supportSel) rfl rfl) fun grp => ?_
  refine Sim.bind (heap_part k) (psim_suppWith E (bag := BagRef.ofBag k pre) (supp := BagRef.ofBag k grp) (m := PolyRef.ofPoly k i.supportMult) ⟨rfl, rfl⟩
    ⟨rfl, rfl⟩ rfl hr) fun _ => ?_
  refine Sim.bind (heap_part k) (psim_tableNew _ [supp] i.supportSel) fun res => ?_
  refine Sim.bind (heap_part k) (psim_aggs E inp pre grp i.supportMult i.aggs res.colVals) fun cols => ?_
  exact Sim.pure (heap_part k) (TableRef.ofTable k) { res with colVals := cols }

theorem vsim_aggs (E : Env F C) (inp : TableComm) (pre grp : BagComm) (mult : Nat) : ∀ (aggs : List (Nat × AggType × Nat)) (cols : List Nat),
    VSim (F := F) (C := C) (B := B) k (List.map (CommRef.ofId k))
      (Mem.GroupBy.verifyAggs E k (TableCommRef.ofTable k inp) (BagCommRef.ofBag k pre) (BagCommRef.ofBag k grp) (CommRef.ofId k mult)
        (aggs.map fun e => (e.1, e.2.1, CommRef.ofId k e.2.2)) (cols.map (CommRef.ofId k))) (GroupBy.verifyAggs E inp pre grp mult aggs cols)
  | [], cols => Sim.pure (vmem_part k) (List.map (CommRef.ofId k)) cols
  | (_, .count, _) :: r, cols => by
    have := vsim_aggs E inp pre grp mult r (cols ++ [mult])
    rw [List.map_append] at this
    exact this
  | (c, .sum, p) :: r, cols => by
    rw [List.map_cons]
    unfold Mem.GroupBy.verifyAggs GroupBy.verifyAggs
    refine Sim.bind (vmem_part k) (vsim_idx inp.colVals c) fun x => ?_
    refine Sim.bind (vmem_part k) (vsim_multitool E (forall_one (a := BagCommRef.ofBag k pre) ⟨rfl, rfl⟩)
      (forall_one (a := BagCommRef.ofBag k grp) ⟨rfl, rfl⟩)
      (forall_one (a := CommRef.ofId k x) rfl) (forall_one (a := CommRef.ofId k p) rfl)) fun _ => ?_
    exact vsim_aggs E inp pre grp mult r cols
  | (_, .avg, _) :: _, _ => Sim.liftMap (vmem_part k) _ (.error .panic)
  | (_, .min, _) :: _, _ => Sim.liftMap (vmem_part k) _ (.error .panic)
  | (_, .max, _) :: _, _ => Sim.liftMap (vmem_part k) _ (.error .panic)

theorem vsim_groupBy (E : Env F C) (inp : TableComm) (i : GroupInstr Nat) {range : BagCommRef} (hr : range.poly.tracker = k) :
    VSim (F := F) (C := C) (B := B) k (TableCommRef.ofTable k)
      (Mem.GroupBy.verifyWithAdvice E k (TableCommRef.ofTable k inp) (i.map (CommRef.ofId k)) range) (GroupBy.verifyWithAdvice E inp i range.bag) := by
  unfold Mem.GroupBy.verifyWithAdvice GroupBy.verifyWithAdvice
  rw [show (TableCommRef.ofTable k inp).colVals.length = inp.colVals.length from List.length_map _, validate_map]
  refine Sim.bind (vmem_part k) (Sim.liftMap (vmem_part k) _ _) fun e => ?_
  obtain ⟨g, supp⟩ := e
  refine Sim.bind (vmem_part k) (vsim_idx inp.colVals g) fun c => ?_
  refine Sim.bind (vmem_part k) (vsim_suppWith E (bag := BagCommRef.ofBag k ⟨c, inp.selector, inp.numVars⟩)
    (supp := BagCommRef.ofBag k ⟨supp, i.supportSel, inp.numVars⟩) (m := CommRef.ofId k i.supportMult) ⟨rfl, rfl⟩ ⟨rfl, rfl⟩ rfl hr) fun _ => ?_
  refine Sim.bind (vmem_part k) (vsim_aggs E inp ⟨c, inp.selector, inp.numVars⟩ ⟨supp, i.supportSel, inp.numVars⟩ i.supportMult i.aggs [supp]) fun cols => ?_
  exact Sim.pure (vmem_part k) (TableCommRef.ofTable k) ⟨cols, i.supportSel, inp.numVars⟩

end Zksql
