import Verif.Spec.Lockstep
import Verif.Lemmas.Frame
import Verif.Lemmas.VerifierTracker
import Verif.Lemmas.RunEx
/-!
Rules for `Lockstep`, and the protocols.
-/
set_option linter.unusedSectionVars false
namespace Zksql
open Spec PTracker
variable {F C B : Type} [Field F] [DecidableEq F]
variable {α β α' β' : Type}

/-- `Lockstep`, and the prover's call never loses a commitment. -/
structure Lock (m : Act (PTracker F C) α) (v : Act (VSt F C B) β) (Q : α → β → Prop) : Prop where
  grow : ∀ t a t', FreshIds t → m t = (.ok a, t') → FreshIds t' ∧ ∀ id c, t.comms.lookup id = some c → t'.comms.lookup id = some c
  lock : Lockstep m v Q

namespace Lock
variable {m : Act (PTracker F C) α} {v : Act (VSt F C B) β} {f : α → Act (PTracker F C) α'} {g : β → Act (VSt F C B) β'} {Q : α → β → Prop} {R : α' → β' → Prop}

theorem bind (hq : ∀ a, ∃ b, Q a b) (h1 : Lock m v Q) (h2 : ∀ a b, Q a b → Lock (f a) (g b) R) : Lock (m >>= f) (v >>= g) R := by
  refine ⟨fun t a t' ht e => ?_, fun t s a b t' s' ht hts hc e1 e2 => ?_⟩
  · obtain ⟨x, t1, k1, k2⟩ := Act.bind_eq_ok.1 e
    obtain ⟨y, hy⟩ := hq x
    obtain ⟨a1, a2⟩ := h1.grow t x t1 ht k1
    obtain ⟨b1, b2⟩ := (h2 x y hy).grow t1 a t' a1 k2
    exact ⟨b1, fun id c h => b2 id c (a2 id c h)⟩
  · obtain ⟨x, t1, k1, k2⟩ := Act.bind_eq_ok.1 e1
    obtain ⟨y, s1, l1, l2⟩ := Act.bind_eq_ok.1 e2
    obtain ⟨y', hy'⟩ := hq x
    obtain ⟨a1, -⟩ := h1.grow t x t1 ht k1
    obtain ⟨-, b2⟩ := (h2 x y' hy').grow t1 a t' a1 k2
    obtain ⟨c1, c2, c3, c4⟩ := h1.lock t s x y t1 s1 ht hts (fun id c h => hc id c (b2 id c h)) k1 l1
    obtain ⟨d1, d2, d3, d4⟩ := (h2 x y c4).lock t1 s1 a b t' s' c1 c2 (fun id c h => by rw [c3]; exact hc id c h) k2 l2
    exact ⟨d1, d2, d3.trans c3, d4⟩

/-- A step of the prover alone. -/
theorem leftP {P : α → Prop} (h1 : Eff 0 m) (hP : ∀ t a t', m t = (.ok a, t') → P a) {v : Act (VSt F C B) β'} (h2 : ∀ a, P a → Lock (f a) v R) : Lock (m >>= f) v R := by
  have key : ∀ t a t1, FreshIds t → m t = (.ok a, t1) → FreshIds t1 ∧ t1.comms = t.comms ∧ ∀ s : VSt F C B, Together t s → Together t1 s := by
    intro t a t1 ht e
    obtain ⟨a1, a2, a3, a4, a5⟩ := h1 t a t1 e
    exact ⟨fun id c h => by rw [a1]; exact ht id c (a3 ▸ h), a3, fun s h => ⟨by rw [a1]; exact h.counter, by rw [a2]; exact h.transcript, by rw [a3]; exact h.comms,
      by rw [a4]; exact h.sums, by rw [a5]; exact h.zeros, h.read⟩⟩
  refine ⟨fun t a t' ht e => ?_, fun t s a b t' s' ht hts hc e1 e2 => ?_⟩
  · obtain ⟨x, t1, k1, k2⟩ := Act.bind_eq_ok.1 e
    obtain ⟨a1, a2, -⟩ := key t x t1 ht k1
    obtain ⟨b1, b2⟩ := (h2 x (hP _ _ _ k1)).grow t1 a t' a1 k2
    exact ⟨b1, fun id c h => b2 id c (by rw [a2]; exact h)⟩
  · obtain ⟨x, t1, k1, k2⟩ := Act.bind_eq_ok.1 e1
    obtain ⟨a1, a2, a3⟩ := key t x t1 ht k1
    exact (h2 x (hP _ _ _ k1)).lock t1 s a b t' s' a1 (a3 s hts) hc k2 e2

theorem left (h1 : Eff 0 m) {v : Act (VSt F C B) β'} (h2 : ∀ a, Lock (f a) v R) : Lock (m >>= f) v R := leftP (P := fun _ => True) h1 (fun _ _ _ _ => trivial) fun a _ => h2 a

/-- A step of the verifier alone that only reads. -/
theorem right [Inhabited β] {w : Act (VSt F C B) β} (hw : ∀ s b s', w s = (.ok b, s') → s' = s) {Q : α → β' → Prop} (h2 : ∀ b, Lock m (g b) Q) : Lock m (w >>= g) Q := by
  refine ⟨(h2 default).grow, fun t s a b t' s' ht hts hc e1 e2 => ?_⟩
  obtain ⟨y, s1, l1, l2⟩ := Act.bind_eq_ok.1 e2
  obtain rfl := hw s y s1 l1
  exact (h2 y).lock t s1 a b t' s' ht hts hc e1 l2

/-- The verifier's call ends with a pure computation. -/
theorem vmap {g : β → β'} {Q' : α → β' → Prop} (h : Lock m v Q) (hQ : ∀ a b, Q a b → Q' a (g b)) : Lock m (v >>= fun b => Pure.pure (g b)) Q' := by
  refine ⟨h.grow, fun t s a b t' s' ht hts hc e1 e2 => ?_⟩
  obtain ⟨y, s1, l1, l2⟩ := Act.bind_eq_ok.1 e2
  obtain ⟨k1, rfl⟩ := Prod.mk.inj l2
  obtain ⟨a1, a2, a3, a4⟩ := h.lock t s a y t' s1 ht hts hc e1 l1
  exact ⟨a1, a2, a3, by rw [← Except.ok.inj k1]; exact hQ _ _ a4⟩

theorem pure {a : α} {b : β} (h : Q a b) : Lock (Pure.pure a : Act (PTracker F C) α) (Pure.pure b : Act (VSt F C B) β) Q := by
  refine ⟨fun t x t' ht e => ?_, fun t s x y t' s' ht hts hc e1 e2 => ?_⟩
  · obtain ⟨-, rfl⟩ := Prod.mk.inj e
    exact ⟨ht, fun _ _ h => h⟩
  · obtain ⟨k1, rfl⟩ := Prod.mk.inj e1
    obtain ⟨k2, rfl⟩ := Prod.mk.inj e2
    obtain rfl := Except.ok.inj k1
    obtain rfl := Except.ok.inj k2
    exact ⟨ht, hts, rfl, h⟩

theorem weaken {Q' : α → β → Prop} (h : Lock m v Q) (hQ : ∀ a b, Q a b → Q' a b) : Lock m v Q' :=
  ⟨h.grow, fun t s a b t' s' ht hts hc e1 e2 => by
    obtain ⟨a1, a2, a3, a4⟩ := h.lock t s a b t' s' ht hts hc e1 e2
    exact ⟨a1, a2, a3, hQ _ _ a4⟩⟩

/-- The prover fails. -/
theorem failL {e : Fail} {v : Act (VSt F C B) β} {Q : α → β → Prop} : Lock (Act.lift (.error e) : Act (PTracker F C) α) v Q :=
  ⟨fun t a t' _ h => by simp at h, fun t s a b t' s' _ _ _ h _ => by simp at h⟩

/-- Branches of the prover. -/
theorem iteL {p : Prop} [Decidable p] {m' : Act (PTracker F C) α} (h1 : p → Lock m v Q) (h2 : ¬ p → Lock m' v Q) : Lock (if p then m else m') v Q := by
  split
  · exact h1 ‹_›
  · exact h2 ‹_›

/-- The verifier fails. -/
theorem failR {e : Fail} (h : ∀ t a t', FreshIds t → m t = (.ok a, t') → FreshIds t' ∧ ∀ id c, t.comms.lookup id = some c → t'.comms.lookup id = some c) :
    Lock m (Act.lift (.error e) : Act (VSt F C B) β) Q := ⟨h, fun t s a b t' s' _ _ _ _ h => by simp at h⟩

/-- Branches of the verifier. -/
theorem iteR {p : Prop} [Decidable p] {v' : Act (VSt F C B) β} (h1 : p → Lock m v Q) (h2 : ¬ p → Lock m v' Q) : Lock m (if p then v else v') Q := by
  split
  · exact h1 ‹_›
  · exact h2 ‹_›

end Lock

/-! ### Steps that issue handles -/

/-- `k` identifiers are used, the last one is the result. -/
def Gives (k : Nat) (m : Act (PTracker F C) TPoly) : Prop := Eff k m ∧ ∀ t a t', m t = (.ok a, t') → a.id + 1 = t.idCounter + k

/-- The same for the verifier. -/
def VGives (k : Nat) (v : Act (VSt F C B) Nat) : Prop :=
  ∀ s b s', v s = (.ok b, s') → s'.own = { s.own with idCounter := s.own.idCounter + k } ∧ b + 1 = s.own.idCounter + k

theorem Lock.gives {k : Nat} {m : Act (PTracker F C) TPoly} {v : Act (VSt F C B) Nat} (h1 : Gives k m) (h2 : VGives k v) : Lock m v fun x y => x.id = y := by
  refine ⟨fun t a t' ht e => ?_, fun t s a b t' s' ht hts hc e1 e2 => ?_⟩
  · obtain ⟨a1, -, a3, -⟩ := h1.1 t a t' e
    exact ⟨fun id c h => by have := ht id c (a3 ▸ h); omega, fun id c h => by rw [a3]; exact h⟩
  · obtain ⟨a1, a2, a3, a4, a5⟩ := h1.1 t a t' e1
    obtain ⟨b1, b2⟩ := h2 s b s' e2
    have := h1.2 t a t' e1
    have hco := hts.counter
    refine ⟨fun id c h => by have := ht id c (a3 ▸ h); omega, ⟨?_, ?_, ?_, ?_, ?_, by rw [b1]; exact hts.read⟩, by rw [b1], by omega⟩
    · rw [b1, a1, ← hts.counter]
    · rw [b1, a2, ← hts.transcript]
    · rw [b1, a3, ← hts.comms]
    · rw [b1, a4, ← hts.sums]
    · rw [b1, a5, ← hts.zeros]

theorem gives_trackMat (p : Mle F) : Gives 1 (TPoly.trackMat p : Act (PTracker F C) TPoly) := by
  refine ⟨TPoly.eff_trackMat p, fun t a t' h => ?_⟩
  obtain ⟨h, -⟩ := Prod.mk.inj h
  rw [← Except.ok.inj h]

theorem id_trackVirt {v : VRep F} {t t' : PTracker F C} {i : Nat} (h : trackVirt v t = (.ok i, t')) : i = t.idCounter := by
  obtain ⟨h, -⟩ := Prod.mk.inj h
  exact (Except.ok.inj h).symm

theorem id_addSub {i j k : Nat} {b : Bool} {t t' : PTracker F C} (h : addSubPolys i j b t = (.ok k, t')) : k = t.idCounter := by
  obtain ⟨v, t1, h1, h2⟩ := Act.bind_eq_ok.1 h
  obtain ⟨-, rfl⟩ := Prod.mk.inj h1
  exact id_trackVirt h2

theorem id_mul {i j k : Nat} {t t' : PTracker F C} (h : mulPolys i j t = (.ok k, t')) : k = t.idCounter := by
  obtain ⟨v, t1, h1, h2⟩ := Act.bind_eq_ok.1 h
  obtain ⟨-, rfl⟩ := Prod.mk.inj h1
  exact id_trackVirt h2

theorem id_mulScalar {i k : Nat} {c : F} {t t' : PTracker F C} (h : PTracker.mulScalar i c t = (.ok k, t')) : k = t.idCounter := by
  obtain ⟨v, t1, h1, h2⟩ := Act.bind_eq_ok.1 h
  obtain ⟨-, rfl⟩ := Prod.mk.inj h1
  exact id_trackVirt h2

theorem id_addScalar {i k : Nat} {c : F} {t t' : PTracker F C} (h : PTracker.addScalar i c t = (.ok k, t')) : k = t.idCounter + 1 := by
  obtain ⟨v, t1, h1, h2⟩ := Act.bind_eq_ok.1 h
  obtain ⟨-, rfl⟩ := Prod.mk.inj h1
  obtain ⟨w, t2, h3, h4⟩ := Act.bind_eq_ok.1 h2
  obtain ⟨-, rfl⟩ := Prod.mk.inj h3
  obtain ⟨j, t3, h5, h6⟩ := Act.bind_eq_ok.1 h4
  rw [id_addSub h6, (PTracker.eff_trackMat w _ _ _ h5).1]

theorem id_assert_bind {p : Prop} [Decidable p] {f : Act (PTracker F C) TPoly} {t t' : PTracker F C} {a : TPoly}
    (h : ((Act.assert p : Act (PTracker F C) Unit) >>= fun _ => f) t = (.ok a, t')) : f t = (.ok a, t') := by
  obtain ⟨v, t1, h1, h2⟩ := Act.bind_eq_ok.1 h
  unfold Act.assert at h1
  split at h1
  · obtain ⟨-, rfl⟩ := Prod.mk.inj h1
    exact h2
  · simp at h1

theorem id_wrap {m : Act (PTracker F C) Nat} {nv : Nat} {t t' : PTracker F C} {a : TPoly} (h : (m >>= fun i => Pure.pure (⟨i, nv⟩ : TPoly)) t = (.ok a, t')) :
    m t = (.ok a.id, t') := by
  obtain ⟨i, t1, h1, h2⟩ := Act.bind_eq_ok.1 h
  obtain ⟨h3, rfl⟩ := Prod.mk.inj h2
  rw [← Except.ok.inj h3, h1]

theorem gives_add (a b : TPoly) : Gives 1 (a.add b : Act (PTracker F C) TPoly) :=
  ⟨TPoly.eff_add a b, fun _ _ _ h => by rw [id_addSub (id_wrap (id_assert_bind h))]⟩
theorem gives_sub (a b : TPoly) : Gives 1 (a.sub b : Act (PTracker F C) TPoly) :=
  ⟨TPoly.eff_sub a b, fun _ _ _ h => by rw [id_addSub (id_wrap (id_assert_bind h))]⟩
theorem gives_mul (a b : TPoly) : Gives 1 (a.mul b : Act (PTracker F C) TPoly) :=
  ⟨TPoly.eff_mul a b, fun _ _ _ h => by rw [id_mul (id_wrap (id_assert_bind h))]⟩
theorem gives_mulScalar (a : TPoly) (c : F) : Gives 1 (a.mulScalar c : Act (PTracker F C) TPoly) :=
  ⟨TPoly.eff_mulScalar a c, fun _ _ _ h => by rw [id_mulScalar (id_wrap h)]⟩
theorem gives_addScalar (a : TPoly) (c : F) : Gives 2 (a.addScalar c : Act (PTracker F C) TPoly) :=
  ⟨TPoly.eff_addScalar a c, fun _ _ _ h => by rw [id_addScalar (id_wrap h)]⟩

theorem id_increaseNv {inc : Mle F → Nat → Res (Mle F)} {i k r : Nat} {t t' : PTracker F C} (h : increaseNv inc i k t = (.ok r, t')) : r = t.idCounter := by
  obtain ⟨v, t1, h1, h2⟩ := Act.bind_eq_ok.1 h
  obtain ⟨w, t2, h3, h4⟩ := Act.bind_eq_ok.1 h2
  obtain ⟨-, rfl⟩ := Prod.mk.inj h3
  obtain ⟨x, t3, h5, h6⟩ := Act.bind_eq_ok.1 h4
  obtain ⟨h7, -⟩ := Prod.mk.inj h6
  rw [← Except.ok.inj h7]
  show t3.idCounter = _
  rw [(eff_incArc inc _ _ _ _ _ h5).1, (eff_materialize i _ _ _ h1).1]
  rfl

theorem gives_incFront (a : TPoly) (k : Nat) : Gives 1 (a.incFront k : Act (PTracker F C) TPoly) :=
  ⟨TPoly.eff_incFront a k, fun _ _ _ h => by rw [id_increaseNv (id_wrap h)]⟩
theorem gives_incBack (a : TPoly) (k : Nat) : Gives 1 (a.incBack k : Act (PTracker F C) TPoly) :=
  ⟨TPoly.eff_incBack a k, fun _ _ _ h => by rw [id_increaseNv (id_wrap h)]⟩

theorem vgives_virtual (c : VComm F) : VGives 1 (VSt.trackVirtual c : Act (VSt F C B) Nat) := by
  intro s b s' h
  rw [VSt.trackVirtual_run] at h
  obtain ⟨h1, rfl⟩ := Prod.mk.inj h
  exact ⟨rfl, by rw [← Except.ok.inj h1]⟩

theorem vgives_addScalar (i : Nat) (c : F) : VGives 2 (VSt.addScalar i c : Act (VSt F C B) Nat) := by
  intro s b s' h
  rw [VSt.addScalar_run] at h
  obtain ⟨h1, rfl⟩ := Prod.mk.inj h
  exact ⟨rfl, by rw [← Except.ok.inj h1]⟩

namespace Lock
variable {f : TPoly → Act (PTracker F C) α} {g : Nat → Act (VSt F C B) β} {R : α → β → Prop}

theorem step {k : Nat} {m : Act (PTracker F C) TPoly} {v : Act (VSt F C B) Nat} (h1 : Gives k m) (h2 : VGives k v) (h : ∀ x : TPoly, Lock (f x) (g x.id) R) :
    Lock (m >>= f) (v >>= g) R :=
  bind (fun a => ⟨a.id, rfl⟩) (gives h1 h2) fun a _ e => e ▸ h a

theorem mat {p : Mle F} {c : VComm F} (h : ∀ x : TPoly, Lock (f x) (g x.id) R) : Lock (TPoly.trackMat p >>= f) (VSt.trackVirtual c >>= g) R :=
  step (gives_trackMat p) (vgives_virtual c) h
theorem add {a b : TPoly} {i j : Nat} (h : ∀ x : TPoly, Lock (f x) (g x.id) R) : Lock (a.add b >>= f) (VSt.addComms i j >>= g) R :=
  step (gives_add a b) (vgives_virtual _) h
theorem sub {a b : TPoly} {i j : Nat} (h : ∀ x : TPoly, Lock (f x) (g x.id) R) : Lock (a.sub b >>= f) (VSt.subComms i j >>= g) R :=
  step (gives_sub a b) (vgives_virtual _) h
theorem mul {a b : TPoly} {i j : Nat} (h : ∀ x : TPoly, Lock (f x) (g x.id) R) : Lock (a.mul b >>= f) (VSt.mulComms i j >>= g) R :=
  step (gives_mul a b) (vgives_virtual _) h
theorem mulScalar {a : TPoly} {i : Nat} {c d : F} (h : ∀ x : TPoly, Lock (f x) (g x.id) R) : Lock (a.mulScalar c >>= f) (VSt.mulScalar i d >>= g) R :=
  step (gives_mulScalar a c) (vgives_virtual _) h
theorem addScalar {a : TPoly} {i : Nat} {c d : F} (h : ∀ x : TPoly, Lock (f x) (g x.id) R) : Lock (a.addScalar c >>= f) (VSt.addScalar i d >>= g) R :=
  step (gives_addScalar a c) (vgives_addScalar i d) h
theorem incFront {a : TPoly} {i k l : Nat} (h : ∀ x : TPoly, Lock (f x) (g x.id) R) : Lock (a.incFront k >>= f) (VSt.incFront i l >>= g) R :=
  step (gives_incFront a k) (vgives_virtual _) h
theorem incBack {a : TPoly} {i k l : Nat} (h : ∀ x : TPoly, Lock (f x) (g x.id) R) : Lock (a.incBack k >>= f) (VSt.incBack i l >>= g) R :=
  step (gives_incBack a k) (vgives_virtual _) h

theorem eval {α' : Type} {a : TPoly} {f : List F → Act (PTracker F C) α'} {v : Act (VSt F C B) β} {R : α' → β → Prop} (h : ∀ x, Lock (f x) v R) :
    Lock (a.evaluations >>= f) v R := left (TPoly.eff_evaluations a) h
theorem lift {α' γ : Type} {r : Res γ} {f : γ → Act (PTracker F C) α'} {v : Act (VSt F C B) β} {R : α' → β → Prop} (h : ∀ x, r = .ok x → Lock (f x) v R) :
    Lock (Act.lift r >>= f) v R := by
  cases r with
  | error e => exact ⟨fun t a t' _ k => by rw [Act.bind_error (Act.lift_run _ _)] at k; simp at k, fun t s a b t' s' _ _ _ k _ => by rw [Act.bind_error (Act.lift_run _ _)] at k; simp at k⟩
  | ok x =>
    have : (Act.lift (.ok x) >>= f) = f x := by funext t; rfl
    rw [this]
    exact h x rfl
theorem vlift {α' γ : Type} [Inhabited γ] {r : Res γ} {m : Act (PTracker F C) α'} {g : γ → Act (VSt F C B) β} {R : α' → β → Prop}
    (h : ∀ x, Lock m (g x) R) : Lock m (Act.lift r >>= g) R :=
  right (fun s b s' k => by obtain ⟨-, rfl⟩ := Prod.mk.inj k; rfl) h
theorem assert {α' : Type} {p : Prop} [Decidable p] {f : Unit → Act (PTracker F C) α'} {v : Act (VSt F C B) β} {R : α' → β → Prop} (h : Lock (f ()) v R) :
    Lock (Act.assert p >>= f) v R := left (eff_assert _) fun _ => h
theorem bagNew {α' : Type} {d : Bool} {p s : TPoly} {f : Bag → Act (PTracker F C) α'} {v : Act (VSt F C B) β} {R : α' → β → Prop} (h : Lock (f ⟨p, s⟩) v R) :
    Lock (Bag.new d p s >>= f) v R := by
  unfold Bag.new
  rw [Act.bind_assoc]
  exact assert h
theorem tabNew {α' : Type} {d : Bool} {p : List TPoly} {s : TPoly} {f : Table → Act (PTracker F C) α'} {v : Act (VSt F C B) β} {R : α' → β → Prop} (h : Lock (f ⟨p, s⟩) v R) :
    Lock (Table.new d p s >>= f) v R := by
  unfold Table.new
  rw [Act.bind_assoc]
  exact assert h

theorem zero {i j : Nat} (h : i = j) : Lock (PTracker.addZeroClaim i : Act (PTracker F C) Unit) (VSt.addZeroClaim j : Act (VSt F C B) Unit) fun _ _ => True := by
  subst h
  refine ⟨fun t a t' ht e => ?_, fun t s a b t' s' ht hts hc e1 e2 => ?_⟩
  · obtain ⟨-, rfl⟩ := Prod.mk.inj e
    exact ⟨ht, fun _ _ h => h⟩
  · obtain ⟨-, rfl⟩ := Prod.mk.inj e1
    obtain ⟨-, rfl⟩ := Prod.mk.inj e2
    exact ⟨ht, ⟨hts.counter, hts.transcript, hts.comms, hts.sums, by simp [hts.zeros], hts.read⟩, rfl, trivial⟩

/-- The prover claims a sum, the verifier reads its value in the proof. -/
theorem sum {i j : Nat} {x : F} {m' : Act (PTracker F C) α} {g : F → Act (VSt F C B) β} {R : α → β → Prop} (h : i = j) (h2 : ∀ y, Lock m' (g y) R) :
    Lock (PTracker.addSumClaim i x >>= fun _ => m') (VSt.claimedSum j >>= fun y => VSt.addSumClaim j y >>= fun _ => g y) R := by
  subst h
  refine ⟨fun t a t' ht e => ?_, fun t s a b t' s' ht hts hc e1 e2 => ?_⟩
  · obtain ⟨_, t1, k1, k2⟩ := Act.bind_eq_ok.1 e
    obtain ⟨-, rfl⟩ := Prod.mk.inj k1
    exact (h2 0).grow { t with sumClaims := t.sumClaims ++ [(i, x)] } a t' ht k2
  · obtain ⟨_, t1, k1, k2⟩ := Act.bind_eq_ok.1 e1
    obtain ⟨-, rfl⟩ := Prod.mk.inj k1
    obtain ⟨y, s1, l1, l2⟩ := Act.bind_eq_ok.1 e2
    obtain ⟨hy, rfl⟩ := Prod.mk.inj l1
    obtain ⟨_, s2, l3, l4⟩ := Act.bind_eq_ok.1 l2
    obtain ⟨-, rfl⟩ := Prod.mk.inj l3
    have hl : s.own.proof.sumcheckClaims.lookup i = some y := by
      beta_reduce at hy
      rcases hk : s.own.proof.sumcheckClaims.lookup i with _ | z <;> rw [hk] at hy
      · simp [unwrap] at hy
      · exact congrArg some (Except.ok.inj hy)
    refine (h2 y).lock { t with sumClaims := t.sumClaims ++ [(i, x)] } { s with own := { s.own with sumClaims := s.own.sumClaims ++ [(i, y)] } } a b t' s' ht ⟨hts.counter, hts.transcript, hts.comms, by simp [hts.sums], hts.zeros, fun c hc => ?_⟩ hc k2 l4
    rcases List.mem_append.1 hc with hc | hc
    · exact hts.read c hc
    · obtain rfl : c = (i, y) := by simpa using hc
      exact hl

theorem chal {H : Oracle F C} {l : String} : Lock (PTracker.challenge H l : Act (PTracker F C) F) (VSt.challenge H l : Act (VSt F C B) F) fun x y => x = y := by
  refine ⟨fun t a t' ht e => ?_, fun t s a b t' s' ht hts hc e1 e2 => ?_⟩
  · unfold PTracker.challenge at e
    split at e
    · obtain ⟨-, rfl⟩ := Prod.mk.inj e
      exact ⟨ht, fun _ _ h => h⟩
    · simp at e
  · unfold PTracker.challenge at e1
    unfold VSt.challenge at e2
    rw [hts.transcript] at e2
    split at e1
    · rename_i c tr hch
      rw [hch] at e2
      obtain ⟨k1, rfl⟩ := Prod.mk.inj e1
      obtain ⟨k2, rfl⟩ := Prod.mk.inj e2
      exact ⟨ht, ⟨hts.counter, rfl, hts.comms, hts.sums, hts.zeros, hts.read⟩, rfl, by rw [← Except.ok.inj k1, ← Except.ok.inj k2]⟩
    · simp at e1

theorem commit {cm : Mle F → Res C} {p : Mle F} {d : Bool} (h : ∀ x : TPoly, Lock (f x) (g x.id) R) :
    Lock (TPoly.trackAndCommit cm p >>= f) (VSt.getNextId >>= fun i => VSt.transferComm d i >>= g) R := by
  have hb : (VSt.getNextId >>= fun i => VSt.transferComm d i >>= g) = (VSt.getNextId >>= fun i => VSt.transferComm d i) >>= g := (Act.bind_assoc _ _ _).symm
  rw [hb]
  have run : ∀ (t : PTracker F C) a t', TPoly.trackAndCommit cm p t = (.ok a, t') → ∃ c, a.id = t.idCounter ∧ t'.idCounter = t.idCounter + 1 ∧
      t'.comms = amInsert t.idCounter c t.comms ∧ t'.transcript = t.transcript.append "comm" (.comm c) ∧ t'.sumClaims = t.sumClaims ∧ t'.zeroClaims = t.zeroClaims := by
    intro t a t' e
    have e := id_wrap e
    obtain ⟨c, t1, e1, e2⟩ := Act.bind_eq_ok.1 e
    obtain ⟨-, rfl⟩ := Prod.mk.inj e1
    obtain ⟨i, t2, e3, e4⟩ := Act.bind_eq_ok.1 e2
    obtain ⟨a1, a2, a3, a4, a5⟩ := PTracker.eff_trackMat p _ _ _ e3
    have hi : i = t.idCounter := by
      obtain ⟨h, -⟩ := Prod.mk.inj e3
      exact (Except.ok.inj h).symm
    obtain ⟨k1, rfl⟩ := Prod.mk.inj e4
    exact ⟨c, by rw [← Except.ok.inj k1, hi], a1, by simp [hi, a3], by simp [a2], a4, a5⟩
  refine bind (Q := fun x y => x.id = y) (fun a => ⟨a.id, rfl⟩) ⟨fun t a t' ht e => ?_, fun t s a b t' s' ht hts hc e1 e2 => ?_⟩ fun a _ e => e ▸ h a
  · obtain ⟨c, r1, r2, r3, -⟩ := run t a t' e
    refine ⟨fun id c' h => ?_, fun id c' h => ?_⟩
    · rw [r3, lookup_amInsert] at h
      split at h
      · omega
      · have := ht id c' h; omega
    · rw [r3, lookup_amInsert, if_neg]
      · exact h
      · intro h'
        have := ht id c' h
        omega
  · obtain ⟨c, r1, r2, r3, r4, r5, r6⟩ := run t a t' e1
    have hpf : s.own.proof.comms.lookup s.own.idCounter = some c := hc _ _ (by rw [hts.counter, r3, lookup_amInsert, if_pos rfl])
    obtain ⟨i, s1, k1, k2⟩ := Act.bind_eq_ok.1 e2
    obtain ⟨k3, rfl⟩ := Prod.mk.inj k1
    obtain rfl := Except.ok.inj k3
    obtain ⟨c', s2, k4, k5⟩ := Act.bind_eq_ok.1 k2
    obtain ⟨k6, rfl⟩ := Prod.mk.inj k4
    obtain rfl : c = c' := by
      beta_reduce at k6
      rw [hpf] at k6
      exact Except.ok.inj k6
    rw [Act.bind_ok (Act.expect_ok (VSt.trackMatComm_run c s)), Act.bind_ok (Act.assert_true (fun _ => rfl) _)] at k5
    obtain ⟨k7, rfl⟩ := Prod.mk.inj k5
    refine ⟨fun id c' h => ?_, ⟨?_, ?_, ?_, ?_, ?_, hts.read⟩, rfl, ?_⟩
    · rw [r3, lookup_amInsert] at h
      split at h
      · omega
      · have := ht id c' h; omega
    · rw [r2, ← hts.counter]; rfl
    · rw [r4, ← hts.transcript]; rfl
    · rw [r3, ← hts.comms, ← hts.counter]; rfl
    · rw [r5, ← hts.sums]; rfl
    · rw [r6, ← hts.zeros]; rfl
    · rw [r1, ← hts.counter]; exact Except.ok.inj k7

/-- Unit results. -/
theorem seq {m : Act (PTracker F C) Unit} {v : Act (VSt F C B) Unit} {m' : Act (PTracker F C) α} {v' : Act (VSt F C B) β} {R : α → β → Prop}
    (h1 : Lock m v fun _ _ => True) (h2 : Lock m' v' R) : Lock (m >>= fun _ => m') (v >>= fun _ => v') R :=
  bind (fun _ => ⟨(), trivial⟩) h1 fun _ _ _ => h2

end Lock

/-! ### The protocols on bags -/

/-- The call returns nothing. -/
def Both : Unit → Unit → Prop := fun _ _ => True

namespace Lock
variable (E : Env F C)

theorem multSub (b : Bag) (c : BagComm) (m : TPoly) (n : Nat) (γ δ : F) :
    Lock (Multitool.proveSub E b m γ) (Multitool.verifySub E c n δ : Act (VSt F C B) F) fun _ _ => True := by
  have : Inhabited F := ⟨0⟩
  unfold Multitool.proveSub Multitool.verifySub
  exact eval fun _ => lift fun _ _ => eval fun _ => eval fun _ => lift fun _ _ => commit fun _ => mul fun _ => mul fun _ => mul fun _ => mulScalar fun _ => sub fun _ => addScalar fun _ =>
    sum rfl fun _ => vmap (zero rfl) fun _ _ _ => trivial

theorem multSubs (γ δ : F) (k : Nat) : ∀ (l : List (Bag × TPoly)) (l' : List (BagComm × Nat)) (acc : F), l.length = l'.length →
    Lock (Multitool.proveSubs E γ l) (Multitool.verifySubs E δ k l' acc : Act (VSt F C B) F) fun _ _ => True
  | [], [], _, _ => pure trivial
  | (b, m) :: l, (c, n) :: l', acc, h => by
    have : Inhabited F := ⟨0⟩
    rw [show Multitool.proveSubs E γ ((b, m) :: l) = Multitool.proveSub E b m γ >>= fun _ => Multitool.proveSubs E γ l from rfl]
    exact bind (fun _ => ⟨0, trivial⟩) (multSub E b c m n γ δ) fun _ v _ => vlift fun x => multSubs γ δ k l l' _ (by simpa using h)

theorem multitool (fxs gxs : List Bag) (mfxs mgxs : List TPoly) (fxs' gxs' : List BagComm) (mfxs' mgxs' : List Nat) (h1 : fxs.length = fxs'.length)
    (h2 : gxs.length = gxs'.length) (h3 : mfxs.length = mfxs'.length) (h4 : mgxs.length = mgxs'.length) :
    Lock (Multitool.prove E fxs gxs mfxs mgxs) (Multitool.verify E fxs' gxs' mfxs' mgxs' : Act (VSt F C B) Unit) fun _ _ => True := by
  have main : Lock (do
      let γ ← PTracker.challenge E.H "gamma"
      Multitool.proveSubs E γ (fxs.zip mfxs)
      Multitool.proveSubs E γ (gxs.zip mgxs)) (do
      let γ ← VSt.challenge E.H "gamma"
      let top := max (Multitool.maxNv fxs') (Multitool.maxNv gxs')
      let lhs ← Multitool.verifySubs E γ top (fxs'.zip mfxs') 0
      let rhs ← Multitool.verifySubs E γ top (gxs'.zip mgxs') 0
      if lhs = rhs then Pure.pure () else Act.lift (.error (.err .invalidVerifier)) : Act (VSt F C B) Unit) fun _ _ => True := by
    refine bind (fun a => ⟨a, rfl⟩) chal fun γ δ _ => bind (fun _ => ⟨0, trivial⟩) (multSubs E γ δ _ _ _ _ (by simp [h1, h3])) fun _ x _ => ?_
    have h := multSubs (B := B) E γ δ (max (Multitool.maxNv fxs') (Multitool.maxNv gxs')) (gxs.zip mgxs) (gxs'.zip mgxs') 0 (by simp [h2, h4])
    refine ⟨h.grow, fun t s a b t' s' ht hts hc e1 e2 => ?_⟩
    obtain ⟨y, s1, l1, l2⟩ := Act.bind_eq_ok.1 e2
    obtain ⟨a1, a2, a3, a4⟩ := h.lock t s a y t' s1 ht hts hc e1 l1
    split at l2
    · obtain ⟨-, rfl⟩ := Prod.mk.inj l2
      exact ⟨a1, a2, a3, trivial⟩
    · simp at l2
  unfold Multitool.prove Multitool.verify
  split
  · exact failL
  split
  · exact failL
  split
  · exact failR main.grow
  split
  · exact failR main.grow
  exact main

theorem bagEq (a b : Bag) (a' b' : BagComm) : Lock (BagEq.prove E a b) (BagEq.verify E a' b' : Act (VSt F C B) Unit) fun _ _ => True := by
  unfold BagEq.prove BagEq.verify
  split
  · exact failL
  · exact mat fun x => multitool E _ _ _ _ _ _ _ _ rfl rfl rfl rfl

theorem bagSum (a b c : Bag) (a' b' c' : BagComm) : Lock (BagSum.prove E a b c) (BagSum.verify E a' b' c' : Act (VSt F C B) Unit) fun _ _ => True := by
  unfold BagSum.prove BagSum.verify
  exact mat fun x => mat fun y => mat fun z => multitool E _ _ _ _ _ _ _ _ rfl rfl rfl rfl

theorem noZeros (a : Bag) (a' : BagComm) : Lock (NoZeros.prove E a) (NoZeros.verify E a' : Act (VSt F C B) Unit) fun _ _ => True := by
  unfold NoZeros.prove NoZeros.verify
  exact eval fun _ => lift fun _ _ => commit fun _ => mul fun _ => mul fun _ => sub fun _ => zero rfl

theorem selectorValid (a : TPoly) (a' : Nat) : Lock (SelectorValid.prove a : Act (PTracker F C) Unit) (SelectorValid.verify a' : Act (VSt F C B) Unit) fun _ _ => True := by
  unfold SelectorValid.prove SelectorValid.verify
  exact mulScalar fun _ => addScalar fun _ => mul fun _ => zero rfl

theorem inclusionAdvice (a b : Bag) (m : TPoly) (a' b' : BagComm) (m' : Nat) :
    Lock (Inclusion.proveWithAdvice E a b m) (Inclusion.verifyWithAdvice E a' b' m' : Act (VSt F C B) Unit) fun _ _ => True := by
  unfold Inclusion.proveWithAdvice Inclusion.verifyWithAdvice
  exact mat fun x => multitool E _ _ _ _ _ _ _ _ rfl rfl rfl rfl

theorem eff_advice (a b : Bag) : Eff 0 (Inclusion.advice a b : Act (PTracker F C) (Mle F)) := by
  unfold Inclusion.advice
  exact .bind (k := 0) (l := 0) (TPoly.eff_evaluations _) fun _ => .bind (k := 0) (l := 0) (eff_lift _) fun _ => .bind (k := 0) (l := 0) (TPoly.eff_evaluations _) fun _ =>
    .bind (k := 0) (l := 0) (eff_lift _) fun _ => .bind (k := 0) (l := 0) (TPoly.eff_evaluations _) fun _ => .bind (k := 0) (l := 0) (eff_lift _) fun _ =>
    .bind (k := 0) (l := 0) (TPoly.eff_evaluations _) fun _ => .bind (k := 0) (l := 0) (eff_lift _) fun _ => eff_lift _

theorem inclusion (a b : Bag) (a' b' : BagComm) : Lock (Inclusion.prove E a b) (Inclusion.verify E a' b' : Act (VSt F C B) Unit) fun _ _ => True := by
  unfold Inclusion.prove Inclusion.verify
  exact left (eff_advice a b) fun _ => commit fun _ => inclusionAdvice E _ _ _ _ _ _

theorem prescPerm (a b : Bag) (m : TPoly) (a' b' : BagComm) (m' : Nat) : Lock (PrescPerm.prove E a b m) (PrescPerm.verify E a' b' m' : Act (VSt F C B) Unit) fun _ _ => True := by
  unfold PrescPerm.prove PrescPerm.verify
  split
  · exact failL
  split
  · exact failL
  refine bind (fun a => ⟨a, rfl⟩) chal fun γ δ _ => eval fun _ => eval fun _ => eval fun _ => lift fun _ _ => lift fun _ _ => lift fun _ _ => lift fun _ _ => mat fun _ => mat fun _ =>
    commit fun _ => commit fun _ => bagNew (bagNew (mulScalar fun _ => add fun _ => sub fun _ => mulScalar fun _ => add fun _ => sub fun _ => seq (bagEq E _ _ _ _) (seq (zero rfl) (zero rfl))))

theorem eff_debugDiff (d : Bool) (x : TPoly) (l : List F) : Eff 0 (StrictSort.debugDiff d x l : Act (PTracker F C) Unit) := by
  unfold StrictSort.debugDiff
  split
  · exact .bind (k := 0) (l := 0) (TPoly.eff_evaluations _) fun _ => eff_assert _
  · exact eff_pure _

theorem strictSort (a r : Bag) (a' r' : BagComm) : Lock (StrictSort.prove E a r) (StrictSort.verify E a' r' : Act (VSt F C B) Unit) fun _ _ => True := by
  unfold StrictSort.prove StrictSort.verify
  exact eval fun _ => lift fun _ _ => lift fun _ _ => lift fun _ _ => lift fun _ _ => lift fun _ _ => mat fun _ => mat fun _ => commit fun _ => bagNew (seq (prescPerm E _ _ _ _ _ _)
    (mat fun _ => sub fun _ => mul fun _ => addScalar fun _ => sub fun _ => left (eff_debugDiff _ _ _) fun _ => bagNew (mat fun _ => bagNew (seq (inclusion E _ _ _ _)
      (bagNew (noZeros E _ _))))))

theorem suppAdvice (a b : Bag) (m : TPoly) (r : Bag) (a' b' : BagComm) (m' : Nat) (r' : BagComm) :
    Lock (Supp.proveWithAdvice E a b m r) (Supp.verifyWithAdvice E a' b' m' r' : Act (VSt F C B) Unit) fun _ _ => True := by
  unfold Supp.proveWithAdvice Supp.verifyWithAdvice
  exact seq (inclusionAdvice E _ _ _ _ _ _) (bagNew (seq (noZeros E _ _) (strictSort E _ _ _ _)))

theorem supp (a b r : Bag) (a' b' r' : BagComm) : Lock (Supp.prove E a b r) (Supp.verify E a' b' r' : Act (VSt F C B) Unit) fun _ _ => True := by
  unfold Supp.prove Supp.verify
  exact left (eff_advice a b) fun _ => commit fun _ => suppAdvice E _ _ _ _ _ _ _ _

theorem disjointAdvice (a b c : Bag) (m n : TPoly) (r : Bag) (a' b' c' : BagComm) (m' n' : Nat) (r' : BagComm) :
    Lock (Disjoint.proveWithAdvice E a b c m n r) (Disjoint.verifyWithAdvice E a' b' c' m' n' r' : Act (VSt F C B) Unit) fun _ _ => True := by
  unfold Disjoint.proveWithAdvice Disjoint.verifyWithAdvice
  exact seq (strictSort E _ _ _ _) (mul fun _ => seq (zero rfl) (seq (inclusionAdvice E _ _ _ _ _ _) (inclusionAdvice E _ _ _ _ _ _)))

theorem eff_disjointAdvice (a b : Bag) : Eff 0 (Disjoint.advice E a b) := by
  have h : ∀ a : Bag, Eff 0 (Disjoint.bagCount a : Act (PTracker F C) (List (F × Nat))) := fun a => by
    unfold Disjoint.bagCount
    exact .bind (k := 0) (l := 0) (TPoly.eff_evaluations _) fun _ => .bind (k := 0) (l := 0) (TPoly.eff_evaluations _) fun _ => eff_lift _
  unfold Disjoint.advice
  exact .bind (k := 0) (l := 0) (h _) fun _ => .bind (k := 0) (l := 0) (h _) fun _ => .bind (k := 0) (l := 0) (eff_lift _) fun _ => .bind (k := 0) (l := 0) (eff_lift _) fun _ =>
    .bind (k := 0) (l := 0) (eff_lift _) fun _ => .bind (k := 0) (l := 0) (eff_lift _) fun _ => .bind (k := 0) (l := 0) (eff_lift _) fun _ => eff_pure _

theorem disjoint (a b r : Bag) (a' b' r' : BagComm) : Lock (Disjoint.prove E a b r) (Disjoint.verify E a' b' r' : Act (VSt F C B) Unit) fun _ _ => True := by
  unfold Disjoint.prove Disjoint.verify
  exact left (eff_disjointAdvice E a b) fun _ => commit fun _ => commit fun _ => bagNew (commit fun _ => commit fun _ => disjointAdvice E _ _ _ _ _ _ _ _ _ _ _ _)

theorem setDisjoint (a b r : Bag) (a' b' r' : BagComm) : Lock (SetDisjoint.prove E a b r) (SetDisjoint.verify E a' b' r' : Act (VSt F C B) Unit) fun _ _ => True := by
  unfold SetDisjoint.prove SetDisjoint.verify
  exact eval fun _ => eval fun _ => lift fun _ _ => eval fun _ => eval fun _ => lift fun _ _ => lift fun _ _ => lift fun _ _ => commit fun _ => commit fun _ =>
    bagNew (seq (bagSum E _ _ _ _ _ _) (strictSort E _ _ _ _))

theorem setDiff (a b l m : Bag) (x : TPoly) (r : Bag) (a' b' l' m' : BagComm) (x' : Nat) (r' : BagComm) :
    Lock (SetDiff.prove E a b l m x r) (SetDiff.verify E a' b' l' m' x' r' : Act (VSt F C B) Unit) fun _ _ => True := by
  unfold SetDiff.prove SetDiff.verify
  exact seq (setDisjoint E _ _ _ _ _ _) (seq (bagSum E _ _ _ _ _ _) (inclusionAdvice E _ _ _ _ _ _))

theorem setUnion (a b u r : Bag) (a' b' u' r' : BagComm) : Lock (SetUnion.prove E a b u r) (SetUnion.verify E a' b' u' r' : Act (VSt F C B) Unit) fun _ _ => True := by
  unfold SetUnion.prove SetUnion.verify
  exact eval fun _ => eval fun _ => lift fun _ _ => eval fun _ => eval fun _ => lift fun _ _ => lift fun _ _ => lift fun _ _ => commit fun _ => commit fun _ =>
    bagNew (seq (bagSum E _ _ _ _ _ _) (supp E _ _ _ _ _ _))

theorem setIntersect (a b l m q r : Bag) (a' b' l' m' q' r' : BagComm) :
    Lock (SetIntersect.prove E a b l m q r) (SetIntersect.verify E a' b' l' m' q' r' : Act (VSt F C B) Unit) fun _ _ => True := by
  unfold SetIntersect.prove SetIntersect.verify
  exact seq (bagSum E _ _ _ _ _ _) (seq (bagSum E _ _ _ _ _ _) (setDisjoint E _ _ _ _ _ _))

theorem joinReduction (a b : Bag) (x y : TPoly) (r : Bag) (a' b' : BagComm) (x' y' : Nat) (r' : BagComm) :
    Lock (JoinReduction.prove E a b x y r) (JoinReduction.verify E a' b' x' y' r' : Act (VSt F C B) Unit) fun _ _ => True := by
  unfold JoinReduction.prove JoinReduction.verify
  exact mulScalar fun _ => addScalar fun _ => mulScalar fun _ => addScalar fun _ => mul fun _ => bagNew (mul fun _ => bagNew (mul fun _ => bagNew (mul fun _ => bagNew
    (seq (selectorValid _ _) (seq (selectorValid _ _) (seq (disjoint E _ _ _ _ _ _) (seq (disjoint E _ _ _ _ _ _) (seq (disjoint E _ _ _ _ _ _) (seq (inclusion E _ _ _ _)
      (inclusion E _ _ _ _)))))))))) 

/-! ### The protocols on tables -/

theorem crossFronts (k l : Nat) : ∀ cs cs', cs.length = cs'.length →
    Lock (CrossProduct.incFronts k cs : Act (PTracker F C) (List TPoly)) (CrossProduct.vIncFronts l cs' : Act (VSt F C B) (List Nat)) fun x y => x.map (·.id) = y
  | [], [], _ => pure rfl
  | c :: cs, d :: ds, h => by
    rw [show CrossProduct.incFronts k (c :: cs) = (c.incFront k >>= fun c' => CrossProduct.incFronts k cs >>= fun cs' => Pure.pure (c' :: cs') : Act (PTracker F C) _) from rfl]
    exact incFront fun x => bind (fun a => ⟨_, rfl⟩) (crossFronts k l cs ds (by simpa using h)) fun a b e => pure (by simp [e])

theorem crossBacks (k l : Nat) : ∀ cs cs', cs.length = cs'.length →
    Lock (CrossProduct.incBacks k cs : Act (PTracker F C) (List TPoly)) (CrossProduct.vIncBacks l cs' : Act (VSt F C B) (List Nat)) fun x y => x.map (·.id) = y
  | [], [], _ => pure rfl
  | c :: cs, d :: ds, h => by
    rw [show CrossProduct.incBacks k (c :: cs) = (c.incBack k >>= fun c' => CrossProduct.incBacks k cs >>= fun cs' => Pure.pure (c' :: cs') : Act (PTracker F C) _) from rfl]
    exact incBack fun x => bind (fun a => ⟨_, rfl⟩) (crossBacks k l cs ds (by simpa using h)) fun a b e => pure (by simp [e])

theorem aggLoop : ∀ (acc : TPoly) (cs : List TPoly) (rs : List F) (acc' : Nat) (cs' : List Nat), cs.length = cs'.length →
    Lock (IndexTransform.proverAggLoop acc cs rs : Act (PTracker F C) TPoly) (IndexTransform.verifierAggLoop acc' cs' rs : Act (VSt F C B) Nat) fun _ _ => True
  | acc, [], rs, acc', [], _ => by
    simp only [IndexTransform.proverAggLoop, IndexTransform.verifierAggLoop]
    exact pure trivial
  | acc, c :: cs, [], acc', c' :: cs', _ => failL
  | acc, c :: cs, r :: rs, acc', c' :: cs', h => by
    simp only [IndexTransform.proverAggLoop, IndexTransform.verifierAggLoop]
    exact mulScalar fun x => mul fun y => aggLoop _ cs rs _ cs' (by simpa using h)

theorem agg (a : Table) (a' : TableComm) (co : List F) (ha : a.colVals.length = a'.colVals.length) :
    Lock (IndexTransform.proverAgg E a co) (IndexTransform.verifierAgg a' co : Act (VSt F C B) BagComm) fun _ _ => True := by
  unfold IndexTransform.proverAgg IndexTransform.verifierAgg
  exact bind (fun _ => ⟨0, trivial⟩) (aggLoop _ _ _ _ _ ha) fun x y _ => assert (pure trivial)

theorem rands : ∀ n : Nat, Lock (IndexTransform.proverRands E n) (IndexTransform.verifierRands E n : Act (VSt F C B) (List F)) fun x y => x = y
  | 0 => by
    unfold IndexTransform.proverRands IndexTransform.verifierRands
    exact pure rfl
  | n + 1 => by
    unfold IndexTransform.proverRands IndexTransform.verifierRands
    refine bind (fun a => ⟨a, rfl⟩) chal fun r r' h => ?_
    subst h
    exact bind (fun a => ⟨a, rfl⟩) (rands n) fun x y h => pure (by rw [h])

theorem indexTransform (a b : Table) (a' b' : TableComm) (ha : a.colVals.length = a'.colVals.length) (hb : b.colVals.length = b'.colVals.length) :
    Lock (IndexTransform.prove E a b) (IndexTransform.verify E a' b' : Act (VSt F C B) Unit) fun _ _ => True := by
  unfold IndexTransform.prove IndexTransform.verify
  refine bind (Q := fun x y => x = y) (fun a => ⟨a, rfl⟩) ?_ fun co _ h => ?_
  · unfold IndexTransform.proverPowers IndexTransform.verifierPowers
    exact bind (fun a => ⟨a, rfl⟩) chal fun r r' h => pure (by rw [h, ha])
  · subst h
    exact bind (fun _ => ⟨⟨0, 0, 0⟩, trivial⟩) (agg E a a' co ha) fun x y _ => bind (fun _ => ⟨⟨0, 0, 0⟩, trivial⟩) (agg E b b' co hb) fun z w _ => inclusion E _ _ _ _

theorem nv_wrap {m : Act (PTracker F C) Nat} {nv : Nat} {t t' : PTracker F C} {a : TPoly} (h : (m >>= fun i => Pure.pure (⟨i, nv⟩ : TPoly)) t = (.ok a, t')) : a.numVars = nv := by
  obtain ⟨i, t1, h1, h2⟩ := Act.bind_eq_ok.1 h
  obtain ⟨h3, -⟩ := Prod.mk.inj h2
  rw [← Except.ok.inj h3]

theorem stepP {f : TPoly → Act (PTracker F C) α} {g : Nat → Act (VSt F C B) β} {R : α → β → Prop} {k n : Nat} {m : Act (PTracker F C) TPoly} {v : Act (VSt F C B) Nat}
    (h1 : Gives k m) (hn : ∀ t a t', m t = (.ok a, t') → a.numVars = n) (h2 : VGives k v) (h : ∀ i, Lock (f ⟨i, n⟩) (g i) R) : Lock (m >>= f) (v >>= g) R := by
  have hm : m >>= f = m >>= fun x => f ⟨x.id, n⟩ := by
    funext t
    rcases e : m t with ⟨_ | a, t'⟩
    · rw [Act.bind_error e, Act.bind_error e]
    · rw [Act.bind_ok e, Act.bind_ok e, ← hn t a t' e]
  rw [hm]
  exact step h1 h2 fun x => h x.id

theorem crossProduct (a b : Table) :
    Lock (CrossProduct.prover E a b) (CrossProduct.verifier (sameTab a) (sameTab b) : Act (VSt F C B) TableComm) fun x y => sameTab x = y := by
  unfold CrossProduct.prover CrossProduct.verifier
  exact bind (fun a => ⟨_, rfl⟩) (crossFronts _ _ _ _ (by simp [sameTab])) fun x _ hx => bind (fun a => ⟨_, rfl⟩) (crossBacks _ _ _ _ (by simp [sameTab])) fun y _ hy =>
    stepP (gives_incFront _ _) (fun _ _ _ h => nv_wrap h) (vgives_virtual _) fun _ => incBack fun _ => stepP (gives_mul _ _) (fun _ _ _ h => nv_wrap (id_assert_bind h)) (vgives_virtual _) fun _ =>
      assert (pure (by simp [hx, hy, sameTab, Table.numVars]))

theorem commitAll : ∀ (ms : List (Mle F)) (n : Nat), ms.length = n →
    Lock (FinalJoin.commitAll E ms) (FinalJoin.transferAll E n : Act (VSt F C B) (List Nat)) fun x y => x.map (·.id) = y
  | [], 0, _ => pure rfl
  | m :: ms, n + 1, h => by
    rw [show FinalJoin.commitAll E (m :: ms) = (TPoly.trackAndCommit E.commit m >>= fun c => FinalJoin.commitAll E ms >>= fun cs => Pure.pure (c :: cs)) from rfl]
    exact commit fun x => bind (fun a => ⟨_, rfl⟩) (commitAll ms n (by simpa using h)) fun a b e => pure (by simp [e])

theorem eff_debugKeys (a : Table) (i : Nat) : Eff 0 (FinalJoin.debugKeys E a i) := by
  unfold FinalJoin.debugKeys
  split
  · refine .bind (k := 0) (l := 0) (eff_lift _) fun _ => .bind (k := 0) (l := 0) (TPoly.eff_evaluations _) fun _ => ?_
    split
    · exact eff_pure _
    · exact eff_lift _
  · exact eff_pure _

theorem finalJoinAdvice (a b : Table) (ai bi : Nat) (ta : List TPoly) :
    Lock (FinalJoin.proveWithAdvice E a b ai bi ta) (FinalJoin.verifyWithAdvice E (sameTab a) (sameTab b) ai bi (ta.map (·.id)) : Act (VSt F C B) TableComm) fun x y => sameTab x = y := by
  unfold FinalJoin.proveWithAdvice FinalJoin.verifyWithAdvice
  refine left (eff_debugKeys E a ai) fun _ => tabNew (lift fun cols h => tabNew ?_)
  unfold FinalJoin.prefixOf at h
  split at h
  · simp at h
  rename_i hl
  obtain rfl := Except.ok.inj h
  have hp : FinalJoin.prefixOf (sameTab a).colVals.length ((ta.map (·.id)) ++ (sameTab b).colVals) = .ok (((ta ++ b.colVals).take a.colVals.length).map (·.id)) := by
    unfold FinalJoin.prefixOf
    rw [if_neg (by simpa [sameTab] using hl)]
    simp [sameTab, List.map_take]
  simp only [hp]
  refine seq (indexTransform E _ _ _ _ (by simp [sameTab]) (by simp)) (lift fun ja _ => lift fun jb _ => vlift fun _ => vlift fun _ => sub fun _ => mul fun _ => seq (zero rfl) (pure ?_))
  simp [sameTab, Table.numVars]

theorem applyAll_length (ks : List Nat) (act : TPoly) : ∀ (cs : List TPoly) (t : PTracker F C) ms t', FinalJoin.applyAll E ks act cs t = (.ok ms, t') → ms.length = cs.length
  | [], t, ms, t', h => by
    obtain ⟨h, -⟩ := Prod.mk.inj h
    rw [← Except.ok.inj h]; rfl
  | c :: cs, t, ms, t', h => by
    obtain ⟨m, t1, h1, h2⟩ := Act.bind_eq_ok.1 h
    obtain ⟨ms', t2, h3, h4⟩ := Act.bind_eq_ok.1 h2
    obtain ⟨h5, -⟩ := Prod.mk.inj h4
    rw [← Except.ok.inj h5, List.length_cons, applyAll_length ks act cs _ _ _ h3, List.length_cons]

theorem eff_applyAll (ks : List Nat) (act : TPoly) : ∀ cs : List TPoly, Eff 0 (FinalJoin.applyAll E ks act cs)
  | [] => eff_pure _
  | c :: cs => by
    simp only [FinalJoin.applyAll]
    refine .bind (k := 0) (l := 0) ?_ fun _ => .bind (k := 0) (l := 0) (eff_applyAll ks act cs) fun _ => eff_pure _
    unfold FinalJoin.applyTransform
    exact .bind (k := 0) (l := 0) (TPoly.eff_evaluations _) fun _ => .bind (k := 0) (l := 0) (TPoly.eff_evaluations _) fun _ => .bind (k := 0) (l := 0) (eff_assert _) fun _ =>
      .bind (k := 0) (l := 0) (eff_lift _) fun _ => eff_lift _

theorem eff_transform (a b : Table) (ai bi : Nat) : Eff 0 (FinalJoin.transform a b ai bi : Act (PTracker F C) (List Nat)) := by
  unfold FinalJoin.transform
  exact .bind (k := 0) (l := 0) (eff_lift _) fun _ => .bind (k := 0) (l := 0) (TPoly.eff_evaluations _) fun _ => .bind (k := 0) (l := 0) (TPoly.eff_evaluations _) fun _ =>
    .bind (k := 0) (l := 0) (eff_lift _) fun _ => .bind (k := 0) (l := 0) (eff_lift _) fun _ => .bind (k := 0) (l := 0) (TPoly.eff_evaluations _) fun _ =>
    .bind (k := 0) (l := 0) (TPoly.eff_evaluations _) fun _ => eff_lift _

theorem finalJoin (a b : Table) (ai bi : Nat) :
    Lock (FinalJoin.prove E a b ai bi) (FinalJoin.verify E (sameTab a) (sameTab b) ai bi : Act (VSt F C B) TableComm) fun x y => sameTab x = y := by
  unfold FinalJoin.prove FinalJoin.verify
  refine left (eff_transform a b ai bi) fun ks => leftP (eff_applyAll E ks _ _) (fun t ms t' h => applyAll_length E ks _ _ t ms t' h) fun ms hms =>
    bind (fun a => ⟨_, rfl⟩) (commitAll E ms _ (by rw [hms]; simp [sameTab])) fun x y h => ?_
  rw [← h]
  exact finalJoinAdvice E a b ai bi x

theorem aggs (inp : Table) (pre grp : Bag) (mult : TPoly) (inp' : TableComm) (pre' grp' : BagComm) : ∀ (l : List (Nat × AggType × TPoly)) (cols : List TPoly),
    Lock (GroupBy.proveAggs E inp pre grp mult l cols) (GroupBy.verifyAggs E inp' pre' grp' mult.id (l.map fun e => (e.1, e.2.1, e.2.2.id)) (cols.map (·.id)) : Act (VSt F C B) (List Nat))
      fun x y => x.map (·.id) = y
  | [], cols => pure rfl
  | (c, .count, p) :: r, cols => by
    simp only [List.map_cons, GroupBy.proveAggs, GroupBy.verifyAggs]
    have := aggs inp pre grp mult inp' pre' grp' r (cols ++ [mult])
    rwa [List.map_append] at this
  | (c, .sum, p) :: r, cols => by
    simp only [List.map_cons, GroupBy.proveAggs, GroupBy.verifyAggs]
    exact lift fun x _ => vlift fun y => seq (multitool E _ _ _ _ _ _ _ _ rfl rfl rfl rfl) (aggs inp pre grp mult inp' pre' grp' r cols)
  | (c, .avg, p) :: r, cols => failL
  | (c, .min, p) :: r, cols => failL
  | (c, .max, p) :: r, cols => failL

theorem validate_same (n : Nat) (i : GroupInstr TPoly) :
    (∀ q, GroupBy.validate n i = .ok q → GroupBy.validate n (sameInstr i) = .ok (q.1, q.2.id)) := by
  intro q h
  have hany : (sameInstr i).aggs.any (fun e => decide (n ≤ e.1)) = i.aggs.any fun e => decide (n ≤ e.1) := by
    simp [sameInstr, List.any_map, Function.comp_def]
  have hg : (sameInstr i).groupingCols = i.groupingCols := rfl
  unfold GroupBy.validate at h ⊢
  rw [hg, hany]
  split at h
  · simp at h
  rename_i h1
  rw [if_neg h1]
  cases e : idx i.groupingCols 0 with
  | error x => rw [e] at h; simp [Bind.bind, Except.bind] at h
  | ok g =>
    rw [e] at h
    simp only [Bind.bind, Except.bind] at h ⊢
    split at h
    · simp at h
    rename_i h2
    rw [if_neg h2]
    split at h
    · simp at h
    rename_i h3
    rw [if_neg h3]
    cases hs : i.supportCols with
    | nil => rw [hs] at h; simp [idx] at h
    | cons x xs =>
      rw [hs] at h
      obtain rfl : (g, x) = q := Except.ok.inj h
      simp [sameInstr, hs, idx, unwrap]

theorem groupBy (inp : Table) (i : GroupInstr TPoly) (r : Bag) (r' : BagComm) :
    Lock (GroupBy.proveWithAdvice E inp i r) (GroupBy.verifyWithAdvice E (sameTab inp) (sameInstr i) r' : Act (VSt F C B) TableComm)
      fun x y => x.colVals.map (·.id) = y.colVals ∧ x.selector.id = y.selector ∧ y.numVars = inp.numVars := by
  unfold GroupBy.proveWithAdvice GroupBy.verifyWithAdvice
  refine lift fun q h => ?_
  have hv := validate_same _ _ _ h
  rw [show (sameTab inp).colVals.length = inp.colVals.length by simp [sameTab], hv]
  show Lock _ (Act.lift (idx (sameTab inp).colVals q.1) >>= _) _
  refine lift fun c _ => bagNew (bagNew (vlift fun c' => seq (suppAdvice E _ _ _ _ _ _ _ _) (tabNew (bind (fun a => ⟨a.map (·.id), rfl⟩) (aggs E _ _ _ _ _ _ _ _ _) fun x y hx => pure ?_))))
  subst hx
  exact ⟨rfl, rfl, rfl⟩

end Lock

variable {E : Env F C} {P : C → List F → F} {N : Nat}

open Classical in
/-- The same run, showing both sides: the calls start in step and succeed. -/
theorem Spec.Completes.both {cols : List (Mle F)} (hC : CanCommit E.commit N) (hO : Opens E.commit P N) (hcols : ∀ p ∈ cols, p.WF ∧ p.numVars ≤ N)
    (hne : cols ≠ []) {m : Env F C → Act (PTracker F C) Unit} {v : Env F C → Act (VSt F C B) Unit} {bounds : List Nat} {Inputs Contents : VSt F C B → Prop} {Valid Fits : Prop}
    (h : Ready E.commit (startP E.commit cols PTracker.new) → (∀ i p, cols[i]? = some p → HoldsP (startP E.commit cols PTracker.new) ⟨i, p.numVars⟩ p.tbl) →
      Completes E P N m v (startP E.commit cols PTracker.new) bounds Inputs Contents Valid Fits)
    (hb : ∀ n ∈ bounds, Plenty F n) (hv : Valid) (dflt : CompiledProof F C B)
    (hin : ∀ s : VSt F C B, (∀ i p, cols[i]? = some p → Known s i) → Inputs s)
    (hco : ∀ s : VSt F C B, (∀ i p, cols[i]? = some p → Holds s P N i p.numVars p.tbl) → Contents s) :
    ∃ (H : Oracle F C) (t t' : PTracker F C) (s s' : VSt F C B), FreshIds t ∧ Together t s ∧
      (∀ id c, t'.comms.lookup id = some c → s.own.proof.comms.lookup id = some c) ∧ m (E.withH H) t = (.ok (), t') ∧ v (E.withH H) s = (.ok (), s') := by
  have hi0 : (PTracker.new : PTracker F C).Inv (commR E.commit) := (stInv_init (commit := E.commit)).inv
  set t := startP E.commit cols (PTracker.new : PTracker F C) with ht
  have base := fun H => start_run (B := B) (E := E) (P := P) E.debug H hC cols hcols (Γ := Facts.none) hi0
  obtain ⟨i1, i2, i3, i4, i5, i6, i7, -⟩ := base fun _ _ => 0
  have hr : Ready E.commit t := ⟨i1, i2 (.inl hne)⟩
  have hid : (PTracker.new : PTracker F C).idCounter = 0 := rfl
  obtain ⟨bad, hcomp⟩ := h hr fun i p hip => by
    have := (i7 i p hip).holdsP hr
    rw [hid, Nat.zero_add] at this
    exact this
  let H : Oracle F C := fun _ hh => if hx : ∃ x, x ∉ bad hh then hx.choose else 0
  obtain ⟨a, t', h1, h2, hkeep, h3, h4, h5, h6, h7⟩ := hcomp H
  have hs0 : SumsTrueP t := by
    intro c hc
    rw [i4] at hc
    exact absurd hc (by simp [PTracker.new])
  have hav : ∀ hh ∈ drawn t t', H t.transcript.label hh ∉ bad hh := by
    intro hh hhm
    obtain ⟨k, hk, rfl⟩ := List.getElem_of_mem hhm
    have hcard := h4 k _ (List.getElem?_eq_getElem hk)
    have hkb : k < bounds.length := h3 ▸ hk
    have hx : ∃ x, x ∉ bad (drawn t t')[k] := hb _ (List.getElem_mem hkb) _ (by
      rw [List.getD_eq_getElem?_getD, List.getElem?_eq_getElem hkb] at hcard
      exact hcard)
    simp only [H, dif_pos hx]
    exact hx.choose_spec
  obtain ⟨pf, hpf1, hpf2⟩ := exists_proof h2 (h5 hs0) N dflt
  have hback : Carries pf t := by
    refine ⟨fun id c hc => hpf1.comms id c (hkeep id c hc), fun e he => ?_⟩
    rw [i4] at he
    exact absurd he (by simp [PTracker.new])
  have hm0 : Match Facts.none (PTracker.new : PTracker F C) (VState.withProof pf : VState F C B).st :=
    ⟨VReachable.sane (debug := true) (H := fun _ _ => 0) ⟨[.setProof pf], rfl⟩, ⟨rfl, rfl, rfl, rfl, rfl, fun _ h => by simp [VState.withProof, VSt.new] at h⟩, fun _ _ _ h => h.elim⟩
  have htr0 : Truth E P N True Facts.none (VState.withProof pf : VState F C B).st := ⟨trivial, fun _ _ _ h => h.elim, fun _ h => by simp [VState.withProof, VSt.new] at h, fun _ h => by simp [VState.withProof, VSt.new] at h⟩
  obtain ⟨-, -, -, -, -, -, -, i8⟩ := base H
  obtain ⟨vs, j1, j2, j3, j4, -⟩ := i8 (VState.withProof pf) hm0 hback
  have htr := j4 (hO.ot i1) htr0
  have hpf : vs.st.own.proof = pf := j3
  have mem : ∀ i p, cols[i]? = some p → colFacts Facts.none (PTracker.new : PTracker F C).idCounter cols i p.numVars p.tbl := fun i p hip => by
    have := colFacts_mem (PTracker.new : PTracker F C).idCounter cols Facts.none hip
    rwa [hid, Nat.zero_add, ← hid] at this
  have hkn : ∀ i p, cols[i]? = some p → Known vs.st i := fun i p hip => j2.known _ _ _ (mem i p hip)
  have hho : ∀ i p, cols[i]? = some p → Holds vs.st P N i p.numVars p.tbl := fun i p hip => htr.holds _ _ _ (mem i p hip)
  rcases h7 vs.st j2.sane j2.tog (hin _ hkn) (by rw [hpf]; exact hpf1) with ⟨b, s', k1, k2, k3, -, k4⟩ | ⟨s', k1, k2⟩
  · exact ⟨H, t, t', vs.st, s', fun id c hc => by obtain ⟨a, ha, -⟩ := i1.commOk id c hc; exact (i1.matOk id a ha).1, j2.tog, fun id c hc => by rw [hpf]; exact hpf1.comms id c hc, h1, k1⟩
  · exact absurd ⟨by rw [hpf]; exact hpf2, hv, hav⟩ k2

namespace REx

theorem both {N : Nat} (cols : List (Mle G)) (hcols : (cols.all fun p => p.evals.length = 2 ^ p.numVars ∧ p.numVars ≤ N) = true) (hne : cols ≠ [])
    {m : Env G (Mle G) → Act (PTracker G (Mle G)) Unit} {v : Env G (Mle G) → Act (VSt G (Mle G) Unit) Unit} {bounds : List Nat}
    {Inputs Contents : VSt G (Mle G) Unit → Prop} {Valid Fits : Prop}
    (h : Ready env.commit (startP env.commit cols PTracker.new) → (∀ i p, cols[i]? = some p → HoldsP (startP env.commit cols PTracker.new) ⟨i, p.numVars⟩ p.tbl) →
      Completes env poly N m v (startP env.commit cols PTracker.new) bounds Inputs Contents Valid Fits)
    (hb : (bounds.all fun n => n < 101) = true) (hv : Valid)
    (hin : ∀ s : VSt G (Mle G) Unit, (∀ i p, cols[i]? = some p → Known s i) → Inputs s)
    (hco : ∀ s : VSt G (Mle G) Unit, (∀ i p, cols[i]? = some p → Holds s poly N i p.numVars p.tbl) → Contents s) :
    ∃ (H : Oracle G (Mle G)) (t t' : PTracker G (Mle G)) (s s' : VSt G (Mle G) Unit), FreshIds t ∧ Together t s ∧
      (∀ id c, t'.comms.lookup id = some c → s.own.proof.comms.lookup id = some c) ∧ m (env.withH H) t = (.ok (), t') ∧ v (env.withH H) s = (.ok (), s') := by
  refine Completes.both (E := env) (canCommit N) (opens N) (fun p hp => ?_) hne h (fun n hn => plenty ?_) hv CompiledProof.default hin hco
  · have := List.all_eq_true.1 hcols p hp
    simp only [decide_eq_true_eq] at this
    exact ⟨this.1, this.2⟩
  · simpa using List.all_eq_true.1 hb n hn

end REx
end Zksql
