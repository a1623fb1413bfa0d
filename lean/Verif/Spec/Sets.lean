import Verif.Spec.Iop
/-!
Range tables, pairs, and rows of a bag.
-/
namespace Zksql.Spec
open Zksql
variable {F C B : Type} [Field F] [DecidableEq F]

/-- The range bag holds numbers below `M`. -/
def HoldsRange (s : VSt F C B) (P : C → List F → F) (N : Nat) (range : BagComm) (M : Nat) : Prop :=
  ∃ ρ : Nat → F, Holds s P N range.poly range.numVars ρ ∧ ∀ j < 2 ^ range.numVars, ∃ k < M, ρ j = (k : F)

/-- The number of rows with this pair of values. -/
def pairCount (n : Nat) (A T : Nat → F) (x y : F) : Nat := ((List.range (2 ^ n)).filter fun i => A i = x ∧ T i = y).length

/-- The bag with a further selector. -/
def BagTab.restrict (t : BagTab F) (l : Nat → F) : BagTab F := ⟨t.nv, t.val, fun i => t.sel i * l i⟩

/-- The rows are increasing: every value is the first one plus a number, the numbers do not decrease, and they increase after every active row. -/
def BagTab.Increasing (t : BagTab F) : Prop :=
  ∃ d : Nat → Nat, (∀ i < 2 ^ t.nv, t.val i = t.val 0 + d i) ∧ ∀ i j, i < j → j < 2 ^ t.nv → d i ≤ d j ∧ (t.sel i ≠ 0 → d i < d j)

/-- The commitment that the proof stores under the identifier `id` is to a table of zeros and ones. -/
def CommBoolean (pf : CompiledProof F C B) (id : Nat) (P : C → List F → F) (N : Nat) : Prop :=
  ∀ c, pf.comms.lookup id = some c → ∀ b < 2 ^ N, P c (boolPt N b) = 0 ∨ P c (boolPt N b) = 1

/-- Exceptional challenges of the sort check for a bag of `2^n` rows and a range of `2^r`. -/
def sortBounds (n r : Nat) : List Nat := [(2 * 2 ^ n) * (2 * 2 ^ n), 2 * 2 ^ n, 2 ^ n + 2 ^ r]

/-- Exceptional challenges of the disjointness check for multisets. -/
def disjointBounds (na nb r : Nat) : List Nat := sortBounds (max na nb + 1) r ++ [2 ^ na + 2 ^ (max na nb + 1), 2 ^ nb + 2 ^ (max na nb + 1)]

/-- Exceptional challenges of the disjointness check for sets. -/
def setDisjointBounds (na nb r : Nat) : List Nat := [2 ^ na + 2 ^ nb + 2 ^ (max na nb + 1)] ++ sortBounds (max na nb + 1) r

end Zksql.Spec
