import Verif.Spec.Guards
import Verif.Model.Release
/-!
Reference counting.
-/
namespace Zksql.Spec
variable {F C B : Type}

/-- `Released refs held o`: with reference counting, `o` is released, where `held` are the objects the program still has a handle of and `refs p o` says
that `p` holds a reference of `o`.  An object is released when its last reference goes: no handle of it is left, and whatever refers to it was released
before.  (What refers to itself, directly or through others, never is.) -/
inductive Released {O : Type} (refs : O → O → Prop) (held : O → Prop) : O → Prop
  | release (o : O) : ¬ held o → (∀ p, refs p o → Released refs held p) → Released refs held o

/-- The trackers a program has handles or tracker references of. -/
def heldBy (handles : List Nat) (o : Cell) : Prop := ∃ k ∈ handles, o = .tracker k

/-- The same for provers. -/
def heldByP (handles : List Nat) (o : PObj) : Prop := ∃ k ∈ handles, o = .tracker k

/-- A handle that is computed from other handles. -/
def isDerived : VComm F → Bool
  | .query _ | .fn _ => false
  | _ => true

/-- A handle of a committed polynomial. -/
def isCommitted : VComm F → Bool
  | .query _ => true
  | _ => false

/-- The calls that compute handles from handles, or make some that are (`verify_claims` combines all claims). -/
def computes : GMem.Call F C B → Bool
  | .verifyClaims | .addComms _ _ | .subComms _ _ | .mulComms _ _ | .addScalar _ _ | .mulScalar _ _ | .incFront _ _ | .incBack _ _ => true
  | _ => false

/-- The same for steps of a program. -/
def GOp.computes : GOp F C B → Bool
  | .call _ c => Spec.computes c
  | _ => false

end Zksql.Spec
