import Verif.Model.VerifierTracker
/-!
Handles and copies of trackers: src/tracker/prover_wrapper.rs and src/tracker/verifier_wrapper.rs.
-/
namespace Zksql
variable {F C B : Type} [Field F]

/-- `TrackedPoly` (src/tracker/prover_wrapper.rs L140-144); `tracker` is the address behind the `Rc`. -/
structure PolyRef where
  id : Nat
  numVars : Nat
  tracker : Nat

/-- `TrackedPoly::eq` (src/tracker/prover_wrapper.rs L145-149). -/
def PolyRef.eq (a b : PolyRef) : Bool := a.id == b.id && a.tracker == b.tracker

/-- `TrackedComm` (src/tracker/verifier_wrapper.rs L170-173). -/
structure CommRef where
  id : Nat
  tracker : Nat

/-- `TrackedComm::eq` (src/tracker/verifier_wrapper.rs L174-178). -/
def CommRef.eq (a b : CommRef) : Bool := a.tracker == b.tracker

/-- `ProverTrackerRef::eq` and `VerifierTrackerRef::eq` on addresses (src/tracker/prover_wrapper.rs L30-34, src/tracker/verifier_wrapper.rs
L28-32), and `same_tracker` (L159-161, L185-187). -/
def trackerEq (a b : Nat) : Bool := a == b

/-- The derived `Clone` of `ProverTracker` used by `deep_copy` (src/tracker/prover_wrapper.rs L128-132): every field is copied.  Tables are
behind `Arc`s that both copies point to; they are never written to, so sharing them is not visible and the addresses stay the same. -/
def PTracker.deepCopy (t : PTracker F C) : PTracker F C := t

/-- The derived `Clone` of `VerifierTracker` used by `deep_copy` (src/tracker/verifier_wrapper.rs L159-163): all fields are copied, but
`virtual_comms` and `query_map` are `Rc`s, so the copy keeps using the original's maps (`VShared`). -/
def VTracker.deepCopy (t : VTracker F C B) : VTracker F C B := t

/-- A set of prover trackers in memory, by address. -/
abbrev PHeap (F C : Type) := List (PTracker F C)

/-- `deep_copy` of the tracker at address `k` (src/tracker/prover_wrapper.rs L128-132): a new `Rc`. -/
def PHeap.copy (m : PHeap F C) (k : Nat) : Res (PHeap F C) := do
  let t ← idx m k
  .ok (m ++ [t.deepCopy])

/-- `borrow_mut` of the tracker at address `k`, a change, and the end of the borrow. -/
def PHeap.put (m : PHeap F C) (k : Nat) (t : PTracker F C) : PHeap F C := m.set k t

/-- A verifier tracker and its copies, by address; all of them use the same shared maps. -/
structure VHeap (F C B : Type) where
  owns : List (VTracker F C B)
  sh : VShared F

/-- `deep_copy` of the tracker at address `k` (src/tracker/verifier_wrapper.rs L159-163). -/
def VHeap.copy (m : VHeap F C B) (k : Nat) : Res (VHeap F C B) := do
  let t ← idx m.owns k
  .ok ⟨m.owns ++ [t.deepCopy], m.sh⟩

/-- `borrow` of the tracker at address `k`: its own fields and the shared maps. -/
def VHeap.get (m : VHeap F C B) (k : Nat) : Res (VSt F C B) := do
  let t ← idx m.owns k
  .ok ⟨t, m.sh⟩

/-- The end of a `borrow_mut` of the tracker at address `k`. -/
def VHeap.put (m : VHeap F C B) (k : Nat) (s : VSt F C B) : VHeap F C B := ⟨m.owns.set k s.own, s.sh⟩

end Zksql
