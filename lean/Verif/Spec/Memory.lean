import Verif.Spec.Joint
import Verif.Model.MemoryChecks
/-!
Histories of calls in a program with several trackers.
-/
namespace Zksql

/-- Both handles of a bag are handles of tracker `k`. -/
def BagRef.Of (b : BagRef) (k : Nat) : Prop := b.poly.tracker = k ∧ b.selector.tracker = k

/-- Both handles of a bag are handles of tracker `k`. -/
def BagCommRef.Of (b : BagCommRef) (k : Nat) : Prop := b.poly.tracker = k ∧ b.selector.tracker = k

/-- All handles of a table are handles of tracker `k`. -/
def TableRef.Of (t : TableRef) (k : Nat) : Prop := (∀ c ∈ t.colVals, c.tracker = k) ∧ t.selector.tracker = k

/-- All handles of a table are handles of tracker `k`. -/
def TableCommRef.Of (t : TableCommRef) (k : Nat) : Prop := (∀ c ∈ t.colVals, c.tracker = k) ∧ t.selector.tracker = k

/-- A commitment handle of tracker `k`. -/
def CommRef.ofId (k i : Nat) : CommRef := ⟨i, k⟩

/-- A bag whose handles are of tracker `k`. -/
def BagRef.ofBag (k : Nat) (b : Bag) : BagRef := ⟨PolyRef.ofPoly k b.poly, PolyRef.ofPoly k b.selector⟩

/-- A table whose handles are of tracker `k`. -/
def TableRef.ofTable (k : Nat) (t : Table) : TableRef := ⟨t.colVals.map (PolyRef.ofPoly k), PolyRef.ofPoly k t.selector⟩

/-- A table whose handles are of tracker `k`. -/
def TableCommRef.ofTable (k : Nat) (t : TableComm) : TableCommRef := ⟨t.colVals.map (CommRef.ofId k), CommRef.ofId k t.selector, t.numVars⟩

/-- A bag whose handles are of tracker `k`. -/
def BagCommRef.ofBag (k : Nat) (b : BagComm) : BagCommRef := ⟨CommRef.ofId k b.poly, CommRef.ofId k b.selector, b.numVars⟩

/-- A request with other handles. -/
def GroupInstr.map {H H' : Type} (f : H → H') (i : GroupInstr H) : GroupInstr H' :=
  ⟨i.groupingCols, i.supportCols.map f, f i.supportSel, f i.supportMult, i.aggs.map fun e => (e.1, e.2.1, f e.2.2)⟩

/-- A prover call `m` on memory is the call `a` of the one-tracker model on the tracker at address `k`: same outcome, with the results translated by
`f`, the same new state of that tracker, and no other tracker changes. -/
def Spec.ActsOn {F C α β : Type} [Field F] (k : Nat) (f : α → β) (m : Act (PHeap F C) β) (a : Act (PTracker F C) α) : Prop :=
  ∀ heap t, heap[k]? = some t → m heap = ((a t).1.map f, heap.set k (a t).2)

/-- The same for a verifier call: `VMem.put k mem s` is memory with the tracker at address `k` and its maps replaced. -/
def Spec.VActsOn {F C B α β : Type} [Field F] (k : Nat) (f : α → β) (m : Act (VMem F C B) β) (a : Act (VSt F C B) α) : Prop :=
  ∀ mem s, VMem.get k mem = some s → m mem = ((a s).1.map f, VMem.put k mem (a s).2)

end Zksql

namespace Zksql.Spec
variable {F C B : Type} [Field F]

/-! ### Provers -/

/-- A call.  `k` is the address of a tracker, `i` and `j` are positions in the list of all handles returned so far by any tracker.  A claim is
made on the tracker of its handle (the API takes a tracker and a bare identifier; see C89 for what happens otherwise). -/
inductive MOp (F C : Type) where
  | new
  | copy (k : Nat)
  | track (k : Nat) (p : Mle F) (wf : p.WF)
  | commit (k : Nat) (p : Mle F) (wf : p.WF)
  | add (i j : Nat)
  | sub (i j : Nat)
  | mul (i j : Nat)
  | addScalar (i : Nat) (c : F)
  | mulScalar (i : Nat) (c : F)
  | incFront (i n : Nat)
  | incBack (i n : Nat)
  | evaluations (i : Nat)
  | challenge (k : Nat) (label : String)
  | append (k : Nat) (label : String) (d : TItem F C)
  | sumClaim (i : Nat) (v : F)
  | zeroClaim (i : Nat)

/-- The trackers in memory and all handles returned so far. -/
structure MState (F C : Type) where
  heap : PHeap F C
  handles : List PolyRef

/-- A call that returns a handle. -/
def MState.stepHandle (st : MState F C) (a : Act (PHeap F C) PolyRef) : Res (MState F C) :=
  match a st.heap with
  | (.ok h, t) => .ok ⟨t, st.handles ++ [h]⟩
  | (.error (.err _), t) => .ok ⟨t, st.handles⟩
  | (.error .panic, _) => .error .panic

/-- A call that returns anything else. -/
def MState.stepOther {α : Type} (st : MState F C) (a : Act (PHeap F C) α) : Res (MState F C) :=
  match a st.heap with
  | (.ok _, t) => .ok ⟨t, st.handles⟩
  | (.error (.err _), t) => .ok ⟨t, st.handles⟩
  | (.error .panic, _) => .error .panic

/-- Run one call. -/
def MOp.run (commit : Mle F → Res C) (H : Oracle F C) (st : MState F C) : MOp F C → Res (MState F C)
  | .new => .ok ⟨st.heap ++ [PTracker.new], st.handles⟩
  | .copy k => do
    let heap ← st.heap.copy k
    .ok ⟨heap, st.handles⟩
  | .track k p _ => st.stepHandle (PHeap.trackMat k p)
  | .commit k p _ => st.stepHandle (PHeap.trackAndCommit commit k p)
  | .add i j => do
    let a ← idx st.handles i
    let b ← idx st.handles j
    st.stepHandle (a.add b)
  | .sub i j => do
    let a ← idx st.handles i
    let b ← idx st.handles j
    st.stepHandle (a.sub b)
  | .mul i j => do
    let a ← idx st.handles i
    let b ← idx st.handles j
    st.stepHandle (a.mul b)
  | .addScalar i c => do
    let a ← idx st.handles i
    st.stepHandle (a.addScalar c)
  | .mulScalar i c => do
    let a ← idx st.handles i
    st.stepHandle (a.mulScalar c)
  | .incFront i n => do
    let a ← idx st.handles i
    st.stepHandle (a.incFront n)
  | .incBack i n => do
    let a ← idx st.handles i
    st.stepHandle (a.incBack n)
  | .evaluations i => do
    let a ← idx st.handles i
    st.stepOther a.evaluations
  | .challenge k label => st.stepOther (PHeap.on k (PTracker.challenge H label))
  | .append k label d => st.stepOther (PHeap.on k (PTracker.append label d))
  | .sumClaim i v => do
    let a ← idx st.handles i
    st.stepOther (PHeap.on a.tracker (PTracker.addSumClaim a.id v))
  | .zeroClaim i => do
    let a ← idx st.handles i
    st.stepOther (PHeap.on a.tracker (PTracker.addZeroClaim a.id))

/-- Run a history. -/
def MState.runAll (commit : Mle F → Res C) (H : Oracle F C) (st : MState F C) (ops : List (MOp F C)) : Res (MState F C) :=
  ops.foldlM (MOp.run commit H) st

/-- No tracker, no handle. -/
def MState.init : MState F C := ⟨[], []⟩

/-- The handles of one tracker, in the order they were returned. -/
def MState.handlesOf (st : MState F C) (k : Nat) : List TPoly := (st.handles.filter fun h => h.tracker == k).map (·.poly)

/-! ### Verifiers -/

/-- A call, as for provers. -/
inductive MVOp (F C B : Type) where
  | new
  | trackComm (k : Nat) (c : C)
  | transfer (k id : Nat)
  | virt (k : Nat) (f : List F → Res F)
  | add (i j : Nat)
  | sub (i j : Nat)
  | mul (i j : Nat)
  | addScalar (i : Nat) (c : F)
  | mulScalar (i : Nat) (c : F)
  | incFront (i n : Nat)
  | incBack (i n : Nat)
  | setProof (k : Nat) (p : CompiledProof F C B)
  | transferEvals (k : Nat)
  | challenge (k : Nat) (label : String)
  | append (k : Nat) (label : String) (d : TItem F C)
  | sumClaim (i : Nat) (v : F)
  | zeroClaim (i : Nat)

/-- The trackers in memory and all handles returned so far. -/
structure MVState (F C B : Type) where
  mem : VMem F C B
  handles : List CommRef

/-- A call that returns a handle. -/
def MVState.stepHandle (st : MVState F C B) (a : Act (VMem F C B) CommRef) : Res (MVState F C B) :=
  match a st.mem with
  | (.ok h, t) => .ok ⟨t, st.handles ++ [h]⟩
  | (.error (.err _), t) => .ok ⟨t, st.handles⟩
  | (.error .panic, _) => .error .panic

/-- A call that returns anything else. -/
def MVState.stepOther {α : Type} (st : MVState F C B) (a : Act (VMem F C B) α) : Res (MVState F C B) :=
  match a st.mem with
  | (.ok _, t) => .ok ⟨t, st.handles⟩
  | (.error (.err _), t) => .ok ⟨t, st.handles⟩
  | (.error .panic, _) => .error .panic

/-- Run one call. -/
def MVOp.run [DecidableEq F] (debug : Bool) (H : Oracle F C) (st : MVState F C B) : MVOp F C B → Res (MVState F C B)
  | .new => .ok ⟨st.mem.alloc, st.handles⟩
  | .trackComm k c => st.stepHandle (VMem.trackMatComm k c)
  | .transfer k id => st.stepHandle (VMem.transferComm debug k id)
  | .virt k f => st.stepHandle (VMem.trackVirtual k (.fn f))
  | .add i j => do
    let a ← idx st.handles i
    let b ← idx st.handles j
    st.stepHandle (a.add b)
  | .sub i j => do
    let a ← idx st.handles i
    let b ← idx st.handles j
    st.stepHandle (a.sub b)
  | .mul i j => do
    let a ← idx st.handles i
    let b ← idx st.handles j
    st.stepHandle (a.mul b)
  | .addScalar i c => do
    let a ← idx st.handles i
    st.stepHandle (a.addScalar c)
  | .mulScalar i c => do
    let a ← idx st.handles i
    st.stepHandle (a.mulScalar c)
  | .incFront i n => do
    let a ← idx st.handles i
    st.stepHandle (a.incFront n)
  | .incBack i n => do
    let a ← idx st.handles i
    st.stepHandle (a.incBack n)
  | .setProof k p => st.stepOther (VMem.on k (VSt.setProof p))
  | .transferEvals k => st.stepOther (VMem.on k VSt.transferEvals)
  | .challenge k label => st.stepOther (VMem.on k (VSt.challenge H label))
  | .append k label d => st.stepOther (VMem.on k (VSt.append label d))
  | .sumClaim i v => do
    let a ← idx st.handles i
    st.stepOther (VMem.on a.tracker (VSt.addSumClaim a.id v))
  | .zeroClaim i => do
    let a ← idx st.handles i
    st.stepOther (VMem.on a.tracker (VSt.addZeroClaim a.id))

/-- Run a history. -/
def MVState.runAll [DecidableEq F] (debug : Bool) (H : Oracle F C) (st : MVState F C B) (ops : List (MVOp F C B)) : Res (MVState F C B) :=
  ops.foldlM (MVOp.run debug H) st

/-- No tracker, no handle. -/
def MVState.init : MVState F C B := ⟨⟨[], []⟩, []⟩

/-- The handles of one tracker. -/
def MVState.handlesOf (st : MVState F C B) (k : Nat) : List Nat := (st.handles.filter fun h => h.tracker == k).map (·.id)

end Zksql.Spec
