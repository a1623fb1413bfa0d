import Verif.Model.Guards
/-!
Which object keeps which other one alive: the `Rc`s and `Arc`s of src/tracker.
-/
namespace Zksql
variable {F C B : Type}

/-- The `Rc` a closure of `virtual_comms` captures, when the maps are at address `a`: `query_map_clone` for a committed polynomial
(src/tracker/verifier_tracker.rs L79-88), `virtual_comms_clone` for one made from others (L130-145, L157-170, L182-197, L210-223, L234-247, L257-268,
L278-289).  Simplification: a function given to `track_virtual_comm` (L99-110) captures none, as is the case for all of src/zksql_poly_iop. -/
def VComm.captures (a : Nat) : VComm F → Cell → Prop
  | .query _, o => o = .queries a
  | .fn _, _ => False
  | .add _ _, o => o = .comms a
  | .sub _ _, o => o = .comms a
  | .mul _ _, o => o = .comms a
  | .addScalar _ _, o => o = .comms a
  | .mulScalar _ _, o => o = .comms a
  | .incFront _ _, o => o = .comms a
  | .incBack _ _, o => o = .comms a

/-- The object `p` holds an `Rc` of the object `o`: a tracker those of its maps (src/tracker/verifier_tracker.rs L42-43), the map `virtual_comms` those
captured by its closures. -/
def VMem.refs (mem : VMem F C B) (p o : Cell) : Prop :=
  match p with
  | .tracker k => ∃ t a, mem.trackers[k]? = some (t, a) ∧ (o = .comms a ∨ o = .queries a)
  | .comms a => ∃ sh, mem.maps[a]? = some sh ∧ ∃ e ∈ sh.comms, e.2.captures a o
  | .queries _ => False

/-- The objects of provers: trackers (src/tracker/prover_wrapper.rs L30, L143) and evaluation tables (src/tracker/prover_tracker.rs L56). -/
inductive PObj where
  | tracker (k : Nat)
  | table (ptr : Nat)

/-- A prover tracker holds the `Arc`s of its tables (src/tracker/prover_tracker.rs L52-61), and no other `Rc` or `Arc`. -/
def PHeap.refs (heap : PHeap F C) : PObj → PObj → Prop
  | .tracker k, .table ptr => ∃ t, heap[k]? = some t ∧ ∃ e ∈ t.mats, e.2.ptr = ptr
  | _, _ => False

end Zksql
