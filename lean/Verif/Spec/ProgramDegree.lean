import Verif.Spec.Program
import Verif.Spec.Verified
/-!
The degrees of what programs claim: a table.
-/
namespace Zksql.Spec
open Zksql
variable {F C B K : Type} [Field F]

/-- The degree of the claims of a check when the columns it is about have degree at most `d`. -/
def Check.degree (d : Nat) : Check K → Nat
  | .multiset _ _ => 2 * d + 1
  | .bagEq _ _ => d + 2
  | .bagSum _ _ _ => d + 2
  | .inclusion _ _ => d + 2
  | .inclusionAdvice _ _ _ => 2 * d + 1
  | .noZeros _ => 2 * d + 1
  | .selector _ => 2 * d
  | .permutation _ _ _ => max 3 d
  | .sort _ _ => 2 * d + 2
  | .support _ _ _ => 2 * d + 2
  | .supportAdvice _ _ _ _ => 2 * d + 2
  | .disjoint _ _ _ => max 4 (d + 2)
  | .setDisjoint _ _ _ => max 4 (d + 2)
  | .union _ _ _ _ => 2 * d + 2
  | .diff _ _ _ _ _ _ => max 4 (2 * d + 1)
  | .intersect _ _ _ _ _ _ => max 4 (d + 2)
  | .joinReduction _ _ _ _ _ => 2 * d + 2
  /- The columns of a table are multiplied with each other: the degree grows with their number. -/
  | .indexTransform inp out => max (d + 2) ((max inp.1.length out.1.length + 1) * d + 1)
  | .joinAdvice a _ _ _ _ => max (max (d + 2) (2 * d)) ((a.1.length + 1) * d + 1)
  | .groupBy _ _ _ _ _ _ => 2 * d + 2

/-- The largest of the degrees of the columns at these positions, and at least one. -/
def topDegree (L : List Nat) (names : List Nat) : Nat := (names.map fun i => L.getD i 0).foldr max 1

namespace Step

/-- The degrees of the columns after a step. -/
def degreesNext (L : List Nat) : Step F → List Nat
  | commit _ => L ++ [1]
  | add i j => L ++ [max (L.getD i 0) (L.getD j 0)]
  | sub i j => L ++ [max (L.getD i 0) (L.getD j 0)]
  | mul i j => L ++ [L.getD i 0 + L.getD j 0]
  | addScalar i _ => L ++ [L.getD i 0]
  | mulScalar i _ => L ++ [L.getD i 0]
  | check _ => L
  | join a _ _ _ => L ++ List.replicate a.1.length 1

/-- The degree of the claims of a step. -/
def degree (L : List Nat) : Step F → Nat
  | check c => c.degree (topDegree L c.names)
  | join a b ai bi => (Check.joinAdvice a b ai bi []).degree (topDegree L (a.1 ++ a.2 :: (b.1 ++ [b.2])))
  | _ => 0

/-- The degree of the claims of a program whose first columns have the degrees `L`. -/
def degreeAll : List Nat → List (Step F) → Nat
  | _, [] => 0
  | L, s :: r => max (s.degree L) (degreeAll (s.degreesNext L) r)

end Step

/-- The degree of a handle of the verifier, read off from its construction. -/
def handleDegree (s : VSt F C B) (h : Nat) : Nat := degreeOf s.sh.comms (h + 1) h

end Zksql.Spec
