import Verif.Spec.Joint
import Verif.Model.Handles
/-!
Histories over several trackers that are copies of each other.
-/
namespace Zksql.Spec
variable {F C B : Type} [Field F]

/-- A call on the tracker at address `k`, or a deep copy of it. -/
inductive WOp (α : Type) where
  | on (k : Nat) (op : α)
  | copy (k : Nat)

/-- Prover trackers with the handles returned by each. -/
structure PWorld (F C : Type) where
  heap : PHeap F C
  handles : List (List TPoly)

/-- Run one call.  The copy may be used with the identifiers of the original's handles. -/
def PWorld.run (commit : Mle F → Res C) (H : Oracle F C) (w : PWorld F C) : WOp (POp F C) → Res (PWorld F C)
  | .on k op => do
    let t ← idx w.heap k
    let hs ← idx w.handles k
    let st ← op.run commit H ⟨t, hs⟩
    .ok ⟨w.heap.put k st.tracker, w.handles.set k st.handles⟩
  | .copy k => do
    let heap ← w.heap.copy k
    let hs ← idx w.handles k
    .ok ⟨heap, w.handles ++ [hs]⟩

/-- Run a history. -/
def PWorld.runAll (commit : Mle F → Res C) (H : Oracle F C) (w : PWorld F C) (ops : List (WOp (POp F C))) : Res (PWorld F C) :=
  ops.foldlM (PWorld.run commit H) w

/-- The tracker at address `k` with its handles. -/
def PWorld.at (w : PWorld F C) (k : Nat) : Option (PState F C) :=
  match w.heap[k]?, w.handles[k]? with
  | some t, some hs => some ⟨t, hs⟩
  | _, _ => none

/-- Verifier trackers with the handles returned by each. -/
structure VWorld (F C B : Type) where
  heap : VHeap F C B
  handles : List (List Nat)

/-- Run one call. -/
def VWorld.run [DecidableEq F] (debug : Bool) (H : Oracle F C) (w : VWorld F C B) : WOp (VOp F C B) → Res (VWorld F C B)
  | .on k op => do
    let s ← w.heap.get k
    let hs ← idx w.handles k
    let vs ← op.run debug H ⟨s, hs⟩
    .ok ⟨w.heap.put k vs.st, w.handles.set k vs.handles⟩
  | .copy k => do
    let heap ← w.heap.copy k
    let hs ← idx w.handles k
    .ok ⟨heap, w.handles ++ [hs]⟩

/-- Run a history. -/
def VWorld.runAll [DecidableEq F] (debug : Bool) (H : Oracle F C) (w : VWorld F C B) (ops : List (WOp (VOp F C B))) : Res (VWorld F C B) :=
  ops.foldlM (VWorld.run debug H) w

/-- One tracker, not yet copied. -/
def VWorld.one (vs : VState F C B) : VWorld F C B := ⟨⟨[vs.st.own], vs.st.sh⟩, [vs.handles]⟩

/-- What the handle with identifier `id` evaluates to at `x` (`eval_virtual_comm`), on any tracker that uses these maps. -/
def VWorld.eval [DecidableEq F] (w : VWorld F C B) (id : Nat) (x : List F) : Res F := VSt.evalVirtual w.heap.sh id x

end Zksql.Spec
