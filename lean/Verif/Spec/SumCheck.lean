import Verif.Spec.Mle
import Mathlib.Algebra.Polynomial.Eval.Defs
import Mathlib.Algebra.Polynomial.Degree.Defs
/-!
Specification vocabulary of the sumcheck protocol.  A polynomial in `n` variables is a function of points, with a bound on
its degree in each variable.
-/
namespace Zksql.Spec
variable {F : Type} [Field F]

/-- Sum of `f` over all points that start with `pre` and continue with Boolean coordinates up to length `n`. -/
def partialSum (f : List F → F) (n : Nat) (pre : List F) : F :=
  cubeSum (n - pre.length) fun i => f (pre ++ boolPt (n - pre.length) i)

/-- `f` is a polynomial of degree at most `d` in each of its `n` variables. -/
def IndivDegree (f : List F → F) (n d : Nat) : Prop :=
  ∀ a b : List F, a.length + 1 + b.length = n →
    ∃ q : Polynomial F, q.natDegree ≤ d ∧ ∀ x, f (a ++ x :: b) = q.eval x

/-- `q` is the univariate polynomial of degree at most `d` obtained from `f` by fixing the prefix `pre`, leaving the next variable
free and summing over Boolean values of the rest. -/
def IsRoundPoly (f : List F → F) (n d : Nat) (pre : List F) (q : Polynomial F) : Prop :=
  q.natDegree ≤ d ∧ ∀ x, q.eval x = partialSum f n (pre ++ [x])

/-- `q` is the polynomial of degree at most `d` whose values at `0, .., d` are the entries of the message. -/
def IsMessagePoly (d : Nat) (msg : List F) (q : Polynomial F) : Prop :=
  q.natDegree ≤ d ∧ msg.length = d + 1 ∧ ∀ i ≤ d, q.eval (i : F) = msg.getD i 0

/-- The round-by-round checks of a sumcheck verifier, in terms of polynomials: the first message polynomial sums to the claim over
`{0, 1}`, each later one to the previous one at the challenge, and the last one at the last challenge gives the final expected value. -/
def Accepted (d : Nat) : F → List (List F) → List F → F → Prop
  | claim, [], [], out => out = claim
  | claim, m :: ms, c :: cs, out =>
    ∃ q : Polynomial F, IsMessagePoly d m q ∧ q.eval 0 + q.eval 1 = claim ∧ Accepted d (q.eval c) ms cs out
  | _, _, _, _ => False

end Zksql.Spec

namespace Zksql

/-- The naturals `1..n` are non-zero in `F`. -/
def NatsNonzero (F : Type) [Field F] (n : Nat) : Prop := ∀ i : Nat, 0 < i → i ≤ n → (i : F) ≠ 0

end Zksql
