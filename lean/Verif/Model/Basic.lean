/-!
Failures shared by the whole model.
-/
namespace Zksql

/-- Kinds of returned `Err` values.  Models the variants of `ArithErrors`
(src/arithmetic/errors.rs), `PolyIOPErrors` (src/tracker/errors.rs and src/subroutines/poly_iop/errors.rs), `PCSError`
(src/subroutines/pcs/errors.rs) and `TranscriptError` (src/transcript/errors.rs).  Simplification: message strings are dropped. -/
inductive ErrKind where
  | invalidParameters
  | invalidProver
  | invalidVerifier
  | invalidProof
  | invalidTranscript
  deriving DecidableEq, Repr

/-- A failed call: either a returned `Err`, or a Rust panic (`unwrap` on `None`, `assert!`, index out of
bounds, arithmetic underflow, division by zero, `todo!`). -/
inductive Fail where
  | err (k : ErrKind)
  | panic
  deriving DecidableEq, Repr

/-- Result of a Rust function that may return `Err` or panic. -/
abbrev Res (α : Type _) := Except Fail α

instance {ε α : Type _} [DecidableEq ε] [DecidableEq α] : DecidableEq (Except ε α)
  | .ok a, .ok b => if h : a = b then .isTrue (by rw [h]) else .isFalse (by simpa using h)
  | .error a, .error b => if h : a = b then .isTrue (by rw [h]) else .isFalse (by simpa using h)
  | .ok _, .error _ => .isFalse (by simp)
  | .error _, .ok _ => .isFalse (by simp)

/-- `Option::unwrap` / `expect`: `None` panics. -/
def unwrap {α : Type _} : Option α → Res α
  | some v => .ok v
  | none => .error .panic

/-- Indexing a vector `v[i]`: panics out of bounds. -/
def idx {α : Type _} (l : List α) (i : Nat) : Res α := unwrap l[i]?

@[simp] theorem unwrap_some {α : Type _} (a : α) : unwrap (some a) = .ok a := rfl
@[simp] theorem unwrap_none {α : Type _} : unwrap (none : Option α) = .error .panic := rfl

@[simp] theorem ok_bind {ε α β : Type _} (a : α) (f : α → Except ε β) : (Except.ok a >>= f) = f a := rfl
@[simp] theorem error_bind {ε α β : Type _} (e : ε) (f : α → Except ε β) : (Except.error e >>= f) = .error e := rfl

/-- Outcome of a call on `&mut self` followed by `.expect(..)`: the new state, an error is a panic. -/
def expectState {σ α : Type _} : Res α × σ → Res σ
  | (.ok _, s) => .ok s
  | (.error _, _) => .error .panic

/-- Outcome of a call on `&mut self` followed by `?`: the new state, an error is returned. -/
def tryState {σ α : Type _} : Res α × σ → Res σ
  | (.ok _, s) => .ok s
  | (.error e, _) => .error e

end Zksql
