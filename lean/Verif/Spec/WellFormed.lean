import Verif.Model.ProverTracker
import Verif.Spec.Tracker
/-!
Well-formed prover trackers.
-/
namespace Zksql
variable {F C : Type} [Field F]
namespace PTracker

/-- A representation over material polynomials in `nv` variables. -/
def AllNv (t : PTracker F C) (nv : Nat) (v : VRep F) : Prop :=
  v ≠ [] ∧ ∀ q ∈ v, q.2 ≠ [] ∧ ∀ m ∈ q.2, ∃ a, t.mats.lookup m = some a ∧ a.mle.numVars = nv

/-- A well-formed tracker; `R` relates committed polynomials and their commitments.  Identifiers are below the counter, tables have the right
size, members of virtual polynomials are material and of one size, equal addresses mean equal tables, and commitments are to known tables. -/
structure Inv (R : Mle F → C → Prop) (t : PTracker F C) : Prop where
  matOk : ∀ id a, t.mats.lookup id = some a → id < t.idCounter ∧ a.mle.WF ∧ a.ptr < t.heap
  virtOk : ∀ id v, t.virts.lookup id = some v → id < t.idCounter ∧ t.mats.lookup id = none ∧ ∃ nv, t.AllNv nv v
  ptrs : ∀ id a id' a', t.mats.lookup id = some a → t.mats.lookup id' = some a' → a.ptr = a'.ptr → a.mle = a'.mle
  commOk : ∀ id c, t.comms.lookup id = some c → ∃ a, t.mats.lookup id = some a ∧ R a.mle c

end PTracker
end Zksql
