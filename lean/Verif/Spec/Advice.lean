import Verif.Spec.Iop
/-!
What the advice computations should return.
-/
namespace Zksql.Spec
variable {F : Type} [Field F] [DecidableEq F]

/-- The row is active and no earlier active row has its value. -/
def BagTab.FirstActive (t : BagTab F) (i : Nat) : Prop := t.sel i ≠ 0 ∧ ∀ j < i, t.sel j ≠ 0 → t.val j ≠ t.val i

instance (t : BagTab F) (i : Nat) : Decidable (t.FirstActive i) := inferInstanceAs (Decidable (_ ∧ ∀ j < i, _))

/-- Multiplicities for including `I` in `S`: the first active occurrence of a value in `S` gets its number of active occurrences in `I`, all other
rows get 0. -/
def incMult (I S : BagTab F) (i : Nat) : F := if S.FirstActive i then (I.count (S.val i) : F) else 0

/-- `L` lists the distinct active values of the bag in increasing order. -/
def BagTab.Support (t : BagTab F) (rep : F → Nat) (L : List F) : Prop :=
  (L.Pairwise fun x y => rep x < rep y) ∧ ∀ z, z ∈ L ↔ t.Active z

/-- The list with zeros in front of it, up to `2^nv` entries. -/
def frontPadded (nv : Nat) (l : List F) : Mle F := ⟨nv, List.replicate (2 ^ nv - l.length) 0 ++ l⟩

/-- The integer behind a field element represents it, and zero is represented by zero. -/
def Canonical (rep : F → Nat) : Prop := rep 0 = 0 ∧ ∀ x, (rep x : F) = x

/-- The range table contains all numbers below `M`. -/
def Covers (r : Nat) (ρ : Nat → F) (M : Nat) : Prop := ∀ k < M, ∃ j < 2 ^ r, ρ j = (k : F)

/-- All active values are represented by numbers below `M`. -/
def BagTab.Below (t : BagTab F) (rep : F → Nat) (M : Nat) : Prop := ∀ i < 2 ^ t.nv, t.sel i ≠ 0 → rep (t.val i) < M

end Zksql.Spec
