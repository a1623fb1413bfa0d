import Verif.Spec.Program
/-!
Checks whose meaning is all an honest prover needs.
-/
namespace Zksql.Spec
open Zksql
variable {F K : Type} [Field F] [DecidableEq F]

/-- The checks that commit to no sorted advice and do not combine columns of a table.  Inclusion needs selectors of zeros and ones. -/
def Check.Settles (W : K → Column F) : Check K → Prop
  | multiset _ _ => True
  | bagEq _ _ => True
  | bagSum _ _ _ => True
  | inclusion f g => (bagTab W f).Boolean ∧ (bagTab W g).Boolean
  | inclusionAdvice _ _ _ => True
  | noZeros _ => True
  | selector _ => True
  | permutation _ _ _ => True
  | sort _ _ => True
  | _ => False

end Zksql.Spec
