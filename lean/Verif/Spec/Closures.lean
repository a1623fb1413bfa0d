import Verif.Model.VerifierTracker
/-!
Well-formed verifier states: what the closures may refer to.
-/
namespace Zksql
variable {F C B : Type} [Field F]

/-- The identifiers a closure refers to. -/
def VComm.refs : VComm F → List Nat
  | .query _ => []
  | .fn _ => []
  | .add i j => [i, j]
  | .sub i j => [i, j]
  | .mul i j => [i, j]
  | .addScalar i _ => [i]
  | .mulScalar i _ => [i]
  | .incFront i _ => [i]
  | .incBack i _ => [i]

namespace VSt

/-- Closures refer to smaller known identifiers. -/
def CWf (comms : List (Nat × VComm F)) : Prop :=
  ∀ id c, comms.lookup id = some c → ∀ r ∈ c.refs, r < id ∧ (comms.lookup r).isSome

/-- The invariant of the verifier tracker. -/
structure Wf (s : VSt F C B) : Prop where
  refs : CWf s.sh.comms
  lt : ∀ id c, s.sh.comms.lookup id = some c → id < s.own.idCounter

end VSt
end Zksql
