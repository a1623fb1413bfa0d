import Verif.Spec.Compilable
/-!
The same checks in a session with other columns.
-/
namespace Zksql.Spec
open Zksql
variable {F : Type} [Field F] [DecidableEq F]

/-- The columns `cols` are among the columns `cols'`: the one at position `i` is at position `φ i`. -/
def Placed (φ : Nat → Nat) (cols cols' : List (Mle F)) : Prop := Function.Injective φ ∧ ∀ i p, cols[i]? = some p → cols'[φ i]? = some p

/-- Checks, one after the other. -/
def justChecks (cs : List (Check Nat)) : List (Step F) := cs.map Step.check

/-- The checks of two sessions in one: the `k` columns of the first are followed by those of the second. -/
def mergeChecks (k : Nat) (cs cs' : List (Check Nat)) : List (Check Nat) := cs ++ cs'.map (Check.map (k + ·))

end Zksql.Spec
