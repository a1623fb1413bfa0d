import Verif.Spec.Compilable
/-!
Programs with the same checks.
-/
namespace Zksql.Spec
open Zksql
variable {F : Type} [Field F] [DecidableEq F]

namespace Step

/-- The checks of a program. -/
def checks (prog : List (Step F)) : List (Check Nat) := prog.filterMap fun | check c => some c | _ => none

/-- The steps of a program that make columns, in order. -/
def makes (prog : List (Step F)) : List (Step F) := prog.filter fun | check _ => false | _ => true

/-- The programs make the same columns and check the same, in any order and any number of times. -/
def SameChecks (prog prog' : List (Step F)) : Prop := makes prog' = makes prog ∧ ∀ c, c ∈ checks prog' ↔ c ∈ checks prog

end Step
end Zksql.Spec
