import Verif.Props.SetOps
import Verif.Lemmas.Rigged
/-!
Join reduction of key columns of different sizes (C87).
-/
set_option linter.unusedSectionVars false
namespace Zksql
open Spec
variable {F C B : Type} [Field F] [DecidableEq F]

/-- C87: for key columns of any sizes the honest run of the join reduction succeeds, when the claims are settled over the hypercube of the sum of the two key columns. -/
def C87_statement : Prop :=
  ∀ (F C B : Type) [Field F] [DecidableEq F] (E : Env F C) (P : C → List F → F) (N : Nat) (t : PTracker F C) (f g range : Bag) (Tf Tg : BagTab F) (lSel rSel : TPoly) (ll lr : Nat → F)
    (r M : Nat) (ρ : Nat → F), (2 : F) ≠ 0 → CanCommit E.commit N → Ready E.commit t → HoldsBagP t f Tf → HoldsBagP t g Tg → lSel.numVars = Tf.nv → HoldsP t lSel ll →
    rSel.numVars = Tg.nv → HoldsP t rSel lr → HoldsP t range.poly ρ → range.poly.numVars = r → max Tf.nv Tg.nv + 1 ≤ N → r ≤ N →
    Completes (B := B) E P N (fun E => JoinReduction.prove E f g lSel rSel range)
      (fun E => JoinReduction.verify E (sameBag f) (sameBag g) lSel.id rSel.id (sameBag range)) t (hJoin Tf.nv Tg.nv r)
      (fun s => KnownBag s (sameBag f) ∧ KnownBag s (sameBag g) ∧ Known s lSel.id ∧ Known s rSel.id ∧ Known s range.poly.id)
      (fun s => HoldsBag s P N (sameBag f) Tf ∧ HoldsBag s P N (sameBag g) Tg ∧ Holds s P N lSel.id Tf.nv ll ∧ Holds s P N rSel.id Tg.nv lr ∧ Holds s P N range.poly.id r ρ)
      (Canonical E.rep ∧ 0 < M ∧ Covers r ρ M ∧ Tf.Below E.rep M ∧ Tg.Below E.rep M ∧ Tf.Boolean ∧ Tg.Boolean ∧
        (∀ i < 2 ^ Tf.nv, ll i = 0 ∨ ll i = 1) ∧ (∀ i < 2 ^ Tg.nv, lr i = 0 ∨ lr i = 1) ∧
        (∀ i < 2 ^ Tf.nv, Tf.sel i ≠ 0 → (ll i ≠ 0 ↔ ¬ Tg.Active (Tf.val i))) ∧ (∀ i < 2 ^ Tg.nv, Tg.sel i ≠ 0 → (lr i ≠ 0 ↔ ¬ Tf.Active (Tg.val i)))) (N = max Tf.nv Tg.nv + 1)

/-- C87, what holds: key columns of the same size. -/
theorem C87_equal_sizes_partial {E : Env F C} {P : C → List F → F} {N : Nat} {t : PTracker F C} {f g range : Bag} {Tf Tg : BagTab F} {lSel rSel : TPoly} {ll lr : Nat → F}
    {r M : Nat} {ρ : Nat → F} (h2 : (2 : F) ≠ 0) (hC : CanCommit E.commit N)
    (hr : Ready E.commit t) (hf : HoldsBagP t f Tf) (hg : HoldsBagP t g Tg) (hln : lSel.numVars = Tf.nv) (hl : HoldsP t lSel ll)
    (hsn : rSel.numVars = Tg.nv) (hs : HoldsP t rSel lr)
    (hR : HoldsP t range.poly ρ) (hrn : range.poly.numVars = r) (hN : max Tf.nv Tg.nv + 1 ≤ N) (hNr : r ≤ N) (he : Tf.nv = Tg.nv) :
    Completes (B := B) E P N (fun E => JoinReduction.prove E f g lSel rSel range)
      (fun E => JoinReduction.verify E (sameBag f) (sameBag g) lSel.id rSel.id (sameBag range)) t (hJoin Tf.nv Tg.nv r)
      (fun s => KnownBag s (sameBag f) ∧ KnownBag s (sameBag g) ∧ Known s lSel.id ∧ Known s rSel.id ∧ Known s range.poly.id)
      (fun s => HoldsBag s P N (sameBag f) Tf ∧ HoldsBag s P N (sameBag g) Tg ∧ Holds s P N lSel.id Tf.nv ll ∧ Holds s P N rSel.id Tg.nv lr ∧ Holds s P N range.poly.id r ρ)
      (Canonical E.rep ∧ 0 < M ∧ Covers r ρ M ∧ Tf.Below E.rep M ∧ Tg.Below E.rep M ∧ Tf.Boolean ∧ Tg.Boolean ∧
        (∀ i < 2 ^ Tf.nv, ll i = 0 ∨ ll i = 1) ∧ (∀ i < 2 ^ Tg.nv, lr i = 0 ∨ lr i = 1) ∧
        (∀ i < 2 ^ Tf.nv, Tf.sel i ≠ 0 → (ll i ≠ 0 ↔ ¬ Tg.Active (Tf.val i))) ∧ (∀ i < 2 ^ Tg.nv, Tg.sel i ≠ 0 → (lr i ≠ 0 ↔ ¬ Tf.Active (Tg.val i)))) (N = max Tf.nv Tg.nv + 1) := by
  have h := C69_join_reduction_complete (B := B) (P := P) (M := M) h2 hC hr hf hg hln hl hsn hs hR hrn hN hNr
  have e : (N = max Tf.nv Tg.nv + 1) = (N = Tf.nv + 1 ∧ N = Tg.nv + 1) := by rw [← he]; simp
  rw [e]
  exact h

/-- C87, what happens otherwise: for key columns of different sizes the claims are false whatever any prover sends, except for few challenges. -/
theorem C87_unequal_rejected {E : Env F C} {s : VSt F C B} {N : Nat} {a b range : BagComm} {lSel rSel : Nat} (hab : a.numVars ≠ b.numVars) (h2 : (2 : F) ≠ 0)
    (hn : NatsNonzero F (2 ^ (max a.numVars b.numVars + 1))) (hs : Sane s)
    (ka : KnownBag s a) (kb : KnownBag s b) (kl : Known s lSel) (kr : Known s rSel) (krg : Known s range.poly) :
    SoundExcept (fun H => JoinReduction.verify (E.withH H) a b lSel rSel range) s N
      (disjointBounds a.numVars b.numVars range.numVars ++ (disjointBounds a.numVars a.numVars range.numVars ++
        (disjointBounds b.numVars b.numVars range.numVars ++ [2 ^ a.numVars + 2 ^ b.numVars, 2 ^ b.numVars + 2 ^ a.numVars]))) fun _ _ => False := by
  refine Snd.except hs ((joinReduction_sound (N := N) h2 hn hs ka kb kl kr krg).mono hs fun _ _ h => hab ?_)
  have := h.1
  omega

namespace REx

/-- The keys 1 and 2, 2: neither has a partner. -/
def unequalCols : List (Mle G) := [⟨0, [1]⟩, ⟨0, [1]⟩, ⟨1, [2, 2]⟩, ⟨1, [1, 1]⟩, ⟨2, [0, 1, 2, 3]⟩]

/-- `C87_unequal_rejected` applies to reachable verifier states with key columns of one and two rows. -/
example : ∃ (H : Oracle G (Mle G)) (vs : VState G (Mle G) Unit), VReachable true H vs ∧ Sane vs.st ∧ (0 : Nat) ≠ 1 ∧ NatsNonzero G (2 ^ (max 0 1 + 1)) ∧
    KnownBag vs.st ⟨0, 1, 0⟩ ∧ KnownBag vs.st ⟨2, 3, 1⟩ ∧ Known vs.st 1 ∧ Known vs.st 3 ∧ Known vs.st 4 := by
  obtain ⟨H, vs, h1, hk, -, -⟩ := REx.cheat (N := 2) (bounds := []) (bounds2 := []) (α := Unit) (β := Unit) (Valid := True) (Fits := True) (m := fun _ => Pure.pure ()) (v := fun _ => Pure.pure ())
    (Inputs := fun _ => True) (Contents := fun _ => True) unequalCols (by decide) (by decide)
    (fun hr _ => by
      obtain ⟨bad, h⟩ := GF.pure (B := Unit) (E := env) (P := poly) (N := 2) (Sz := True) (Γ := Facts.none) (Φ := True) (a := ()) (b := fun _ => ()) hr
      exact ⟨bad, GFB.completes h (fun _ _ => known_none) fun _ _ => holds_none⟩)
    (by decide) trivial (fun _ _ => trivial) (fun _ _ => trivial)
  exact ⟨H, vs, h1, h1.sane, by decide, natsNonzero_mono natsNonzero (by decide), ⟨hk 0 _ rfl, hk 1 _ rfl⟩, ⟨hk 2 _ rfl, hk 3 _ rfl⟩, hk 1 _ rfl, hk 3 _ rfl, hk 4 _ rfl⟩

end REx

open REx in
/-- C87 fails: one row with key 1 against two rows with key 2; the marks say that no row has a partner. -/
theorem C87_violated : ¬ C87_statement := by
  intro hst
  obtain ⟨H, vs, h1, hk, hv, h⟩ := REx.cheat (N := 2)
    (bounds2 := disjointBounds 0 1 2 ++ (disjointBounds 0 0 2 ++ (disjointBounds 1 1 2 ++ [2 ^ 0 + 2 ^ 1, 2 ^ 1 + 2 ^ 0]))) unequalCols (by decide) (by decide)
    (fun hr hp => hst G (Mle G) Unit env poly 2 _ (bag 0 1 0) (bag 2 3 1) (bag 4 4 2) (tab ⟨0, [1]⟩ ⟨0, [1]⟩) (tab ⟨1, [2, 2]⟩ ⟨1, [1, 1]⟩) ⟨1, 0⟩ ⟨3, 1⟩
      (Mle.tbl ⟨0, [1]⟩) (Mle.tbl ⟨1, [1, 1]⟩) 2 4 (Mle.tbl ⟨2, [0, 1, 2, 3]⟩)
      two_ne (canCommit 2) hr ⟨rfl, rfl, hp 0 _ rfl, hp 1 _ rfl⟩ ⟨rfl, rfl, hp 2 _ rfl, hp 3 _ rfl⟩ rfl (hp 1 _ rfl) rfl (hp 3 _ rfl) (hp 4 _ rfl) rfl (by decide) (by decide))
    (by decide)
    ⟨canonical, by decide, by decide +kernel, by decide +kernel, by decide +kernel, by decide +kernel, by decide +kernel, by decide +kernel, by decide +kernel, by decide +kernel, by decide +kernel⟩
    (fun s k => ⟨⟨k 0 _ rfl, k 1 _ rfl⟩, ⟨k 2 _ rfl, k 3 _ rfl⟩, k 1 _ rfl, k 3 _ rfl, k 4 _ rfl⟩)
    (fun s h => ⟨⟨rfl, h 0 _ rfl, h 1 _ rfl⟩, ⟨rfl, h 2 _ rfl, h 3 _ rfl⟩, h 1 _ rfl, h 3 _ rfl, h 4 _ rfl⟩)
  obtain ⟨pf, hc⟩ := h _ (C87_unequal_rejected (a := sameBag (bag 0 1 0)) (b := sameBag (bag 2 3 1)) (range := sameBag (bag 4 4 2)) (lSel := 1) (rSel := 3) (E := env) (N := 2)
    (by decide) two_ne (natsNonzero_mono REx.natsNonzero (by decide)) h1.sane ⟨hk 0 _ rfl, hk 1 _ rfl⟩ ⟨hk 2 _ rfl, hk 3 _ rfl⟩ (hk 1 _ rfl) (hk 3 _ rfl) (hk 4 _ rfl))
  exact hc

end Zksql
