import Verif.Model.Basic
/-!
Calls on `&mut self` and association lists.
-/
namespace Zksql

/-- A call that may change a state: the outcome, and the state after it.  On a returned `Err` or a panic the changes made so far stay
visible: nothing in the code rolls them back. -/
def Act (S α : Type) := S → Res α × S

namespace Act
variable {S α β : Type}

/-- Run one call after another, stopping at the first failure (`?` in Rust, or unwinding). -/
def bind' (m : Act S α) (f : α → Act S β) : Act S β := fun s =>
  match m s with
  | (.ok a, s') => f a s'
  | (.error e, s') => (.error e, s')

instance : Monad (Act S) where
  pure a := fun s => (.ok a, s)
  bind := bind'

/-- A computation that reads the state and may fail. -/
def reads (f : S → Res α) : Act S α := fun s => (f s, s)

/-- A computation that does not depend on the state. -/
def lift (r : Res α) : Act S α := fun s => (r, s)

/-- An infallible change. -/
def modify (f : S → S) : Act S Unit := fun s => (.ok (), f s)

/-- `.unwrap()` of a returned `Result`: the error becomes a panic. -/
def expect (m : Act S α) : Act S α := fun s =>
  match m s with
  | (.ok a, s') => (.ok a, s')
  | (.error _, s') => (.error .panic, s')

/-- `assert!`. -/
def assert (p : Prop) [Decidable p] : Act S Unit := fun s => if p then (.ok (), s) else (.error .panic, s)

@[simp] theorem pure_run (a : α) (s : S) : (pure a : Act S α) s = (.ok a, s) := rfl
@[simp] theorem reads_run (f : S → Res α) (s : S) : reads f s = (f s, s) := rfl
@[simp] theorem lift_run (r : Res α) (s : S) : lift r s = (r, s) := rfl
@[simp] theorem modify_run (f : S → S) (s : S) : modify f s = (.ok (), f s) := rfl
theorem bind_run (m : Act S α) (f : α → Act S β) (s : S) :
    (m >>= f) s = match m s with
      | (.ok a, s') => f a s'
      | (.error e, s') => (.error e, s') := rfl
theorem bind_ok {m : Act S α} {f : α → Act S β} {s s' : S} {a : α} (h : m s = (.ok a, s')) : (m >>= f) s = f a s' := by
  rw [bind_run, h]
theorem bind_error {m : Act S α} {f : α → Act S β} {s s' : S} {e : Fail} (h : m s = (.error e, s')) :
    (m >>= f) s = (.error e, s') := by
  rw [bind_run, h]
theorem bind_assoc {γ : Type} (m : Act S α) (f : α → Act S β) (g : β → Act S γ) : (m >>= f) >>= g = m >>= fun a => f a >>= g := by
  funext s
  rw [bind_run, bind_run, bind_run]
  rcases m s with ⟨_ | _, _⟩ <;> rfl
theorem reads_bind (g : S → α) (k : α → Act S β) (s : S) : (reads (fun s => .ok (g s)) >>= k) s = k (g s) s := rfl
@[simp] theorem assert_true {p : Prop} [Decidable p] (h : p) (s : S) : assert p s = (.ok (), s) := by simp [assert, h]
theorem expect_ok {m : Act S α} {s s' : S} {a : α} (h : m s = (.ok a, s')) : expect m s = (.ok a, s') := by
  unfold expect; rw [h]

/-- A successful sequence is a success followed by a success. -/
theorem bind_eq_ok {m : Act S α} {f : α → Act S β} {s s'' : S} {b : β} :
    (m >>= f) s = (.ok b, s'') ↔ ∃ a s', m s = (.ok a, s') ∧ f a s' = (.ok b, s'') := by
  rw [bind_run]
  constructor
  · intro h
    rcases hm : m s with ⟨r | a, s'⟩
    · rw [hm] at h; simp at h
    · rw [hm] at h; exact ⟨a, s', rfl, h⟩
  · rintro ⟨a, s', h1, h2⟩
    rw [h1]; exact h2

end Act

/-- `HashMap::insert`. -/
def amInsert {κ α : Type} [BEq κ] (k : κ) (v : α) (m : List (κ × α)) : List (κ × α) := (k, v) :: m.filter fun e => !(e.1 == k)

/-- `HashMap::remove`. -/
def amErase {κ α : Type} [BEq κ] (k : κ) (m : List (κ × α)) : List (κ × α) := m.filter fun e => !(e.1 == k)

end Zksql
