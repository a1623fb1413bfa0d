import Verif.Spec.Verified
import Mathlib.SetTheory.Cardinal.Finite
/-!
Random challenges: how many of all sequences of challenges lead to an outcome.
-/
namespace Zksql.Spec
open Zksql
variable {F C B : Type} [Field F] {M : Nat}

/-- The number of challenges drawn in a history. -/
def draws (h : List (TEvent F C)) : Nat := h.countP fun e => e matches .squeeze _

/-- Challenges that have been dealt in advance: the `k`-th challenge of a session is `c k`, whatever has been absorbed. -/
def dealt (c : Fin M → F) : Oracle F C := fun _ h => if hk : draws h - 1 < M then c ⟨draws h - 1, hk⟩ else 0

/-- What is sent before a challenge does not depend on it or on later ones: when two successful runs have the same challenges before the `k`-th, their histories up to the
`k`-th are the same. -/
def Online (Ok : (Fin M → F) → Prop) (hist : (Fin M → F) → List (List (TEvent F C))) : Prop :=
  ∀ c c' : Fin M → F, Ok c → Ok c' → ∀ k : Nat, (∀ i : Fin M, i.val < k → c i = c' i) → (hist c)[k]? = (hist c')[k]?

/-- When the `M` challenges are drawn independently and uniformly, the outcome has at most the probability `b / |F|`. -/
def ChanceAtMost (b : Nat) (Out : (Fin M → F) → Prop) : Prop := Nat.card { c : Fin M → F // Out c } * Nat.card F ≤ b * Nat.card F ^ M

end Zksql.Spec
