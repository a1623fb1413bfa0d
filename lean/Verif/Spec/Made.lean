import Verif.Spec.Reorder
import Verif.Spec.Inactive
/-!
Programs that make columns in different ways and check the same of them.
-/
namespace Zksql.Spec
open Zksql
variable {F : Type} [Field F] [DecidableEq F]

/-- The second program checks the same as the first, of columns at the places given by `φ`; and when both have ended, the columns that are checked have the same contents.
How the columns were made, by commitments, arithmetic or joins, may be different. -/
def SameQuestions (φ : Nat → Nat) (V : List (Column F)) (prog : List (Step F)) (V' : List (Column F)) (prog' : List (Step F)) : Prop :=
  (∀ c', c' ∈ Step.checks prog' ↔ ∃ c ∈ Step.checks prog, c.map φ = c') ∧
    ∀ c ∈ Step.checks prog, ∀ k ∈ c.names, SameCol (colAt (Step.nextAll V prog)) (fun k => colAt (Step.nextAll V' prog') (φ k)) k

/-- Arithmetic on columns and checks only. -/
def Step.Computes : Step F → Prop
  | commit _ => False
  | join _ _ _ _ => False
  | _ => True

end Zksql.Spec
