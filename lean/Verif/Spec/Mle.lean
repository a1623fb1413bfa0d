import Mathlib.Algebra.BigOperators.Group.Finset.Basic
import Mathlib.Algebra.Field.Defs
/-!
Independent specification of multilinear extensions: sums of table entries weighted by products of coordinates.
-/
namespace Zksql.Spec
variable {F : Type} [Field F]

/-- `∏_j (x_j if bit j of i is set, else 1 - x_j)`. -/
def eqWeight (pt : List F) (i : Nat) : F :=
  ∏ j ∈ Finset.range pt.length, if i.testBit j then pt.getD j 0 else 1 - pt.getD j 0

/-- Value at `pt` of the multilinear polynomial in `pt.length` variables whose value at the Boolean point with
index `i` is `f i`. -/
def mle (f : Nat → F) (pt : List F) : F :=
  ∑ i ∈ Finset.range (2 ^ pt.length), f i * eqWeight pt i

/-- Sum of `f` over the Boolean hypercube of dimension `n`. -/
def cubeSum (n : Nat) (f : Nat → F) : F := ∑ i ∈ Finset.range (2 ^ n), f i

/-- The Boolean point with index `i`, least significant bit first. -/
def boolPt (n i : Nat) : List F := (List.range n).map fun j => if i.testBit j then 1 else 0

/-- `∏_j (x_j y_j + (1 - x_j)(1 - y_j))`. -/
def eqPoly (x y : List F) : F :=
  ∏ j ∈ Finset.range x.length,
    (x.getD j 0 * y.getD j 0 + (1 - x.getD j 0) * (1 - y.getD j 0))

end Zksql.Spec
