import Verif.Lemmas.Rigged
import Verif.Props.Honest
import Verif.Props.SetOps
/-!
The set-disjointness check and the set operations resting on it do not imply what they are used for: the prover chooses the sum bag, the verifier checks
that it adds up and is strictly sorted, but not that its selector is 0/1, so a value common to both sides can be put in one row with selector 2.

The full statements are `C65_set_disjoint_statement`, `C66_set_diff_statement`, `C66_set_intersect_statement`.  They are those of the `_partial` theorems in
`Props/SetChecks` and `Props/SetOps` without the assumption on the prover's selector, and only for verifiers in a reachable state.
-/
set_option linter.unusedSectionVars false
namespace Zksql
open Spec

/-- C65 for sets: acceptance implies that no value is active in both sides. -/
def C65_set_disjoint_statement : Prop :=
  ∀ (F C B : Type) [Field F] [DecidableEq F] (E : Env F C) (H : Oracle F C) (vs : VState F C B) (N M : Nat) (a b range : BagComm), (2 : F) ≠ 0 → 0 < M →
    NatsNonzero F (2 ^ (max a.numVars b.numVars + 1) * M) → VReachable E.debug H vs → KnownBag vs.st a → KnownBag vs.st b → Known vs.st range.poly →
    SoundExcept (fun H => SetDisjoint.verify (E.withH H) a b range) vs.st N (setDisjointBounds a.numVars b.numVars range.numVars) fun _ P => HoldsRange vs.st P N range M →
      ∀ ta tb : BagTab F, HoldsBag vs.st P N a ta → HoldsBag vs.st P N b tb → ta.Boolean → tb.Boolean → ta.Nodup → tb.Nodup → ∀ z, ¬(ta.Active z ∧ tb.Active z)

namespace Rigged
open REx

/-- The table of a value list. -/
def col (l : List G) : Nat → G := fun b => l.getD b 0

theorem sums : ∀ z : G, (tab ⟨1, [3, 0]⟩ ⟨1, [1, 0]⟩).weight (fun _ => 1) z + (tab ⟨1, [3, 0]⟩ ⟨1, [1, 0]⟩).weight (fun _ => 1) z =
    (⟨2, col [0, 1, 2, 3], col [0, 0, 0, 2]⟩ : BagTab G).weight (fun _ => 1) z := by decide +kernel

theorem sorted : SortedIn 2 2 (col [0, 1, 2, 3]) (col [0, 0, 0, 2]) (col [0, 1, 2, 3]) := REx.sortedIn_of (by decide +kernel)

end Rigged

open REx Rigged in
/-- C65 fails for sets: {3} and {3} are accepted as disjoint by a verifier that received them honestly, whatever small sets of challenges are excepted. -/
theorem C65_violated_set_disjoint : ¬ C65_set_disjoint_statement := by
  intro hst
  obtain ⟨H, vs, h1, hk, hv, h⟩ := REx.cheat (N := 2) (bounds := hSetDisjoint 1 1 2) (bounds2 := setDisjointBounds 1 1 2) (Valid := True) (Fits := True)
    (m := fun E => Rigged.setDisjoint E (tabMle 2 (col [0, 1, 2, 3])) (tabMle 2 (col [0, 0, 0, 2])) (bag 0 1 1) (bag 0 1 1) (bag 2 2 2))
    (v := fun E => SetDisjoint.verify E ⟨0, 1, 1⟩ ⟨0, 1, 1⟩ ⟨2, 2, 2⟩)
    (Inputs := fun s => Known s 0 ∧ Known s 1 ∧ Known s 2)
    (Contents := fun s => HoldsBag s poly 2 ⟨0, 1, 1⟩ (tab ⟨1, [3, 0]⟩ ⟨1, [1, 0]⟩) ∧ Holds s poly 2 2 2 (col [0, 1, 2, 3]))
    [⟨1, [3, 0]⟩, ⟨1, [1, 0]⟩, ⟨2, [0, 1, 2, 3]⟩] (by decide) (by decide)
    (fun hr hp => by
      have hb : HoldsBagP (startP env.commit [⟨1, [3, 0]⟩, ⟨1, [1, 0]⟩, ⟨2, [0, 1, 2, 3]⟩] PTracker.new) (bag 0 1 1) (tab ⟨1, [3, 0]⟩ ⟨1, [1, 0]⟩) := ⟨rfl, rfl, hp 0 _ rfl, hp 1 _ rfl⟩
      have hR : HoldsP (startP env.commit [⟨1, [3, 0]⟩, ⟨1, [1, 0]⟩, ⟨2, [0, 1, 2, 3]⟩] PTracker.new) ⟨2, 2⟩ (col [0, 1, 2, 3]) := hp 2 _ rfl
      have := Rigged.setDisjoint_cmp (B := Unit) (E := env) (P := poly) (N := 2) (Sz := True) (Φ := True) (r := 2) (ρ := col [0, 1, 2, 3]) (V := col [0, 1, 2, 3]) (S := col [0, 0, 0, 2])
        (Γ := (Facts.none.ins 2 2 (col [0, 1, 2, 3])).insBag (bag 0 1 1) (tab ⟨1, [3, 0]⟩ ⟨1, [1, 0]⟩)) (br := bag 2 2 2) (cr := ⟨2, 2, 2⟩)
        hr (bok_of hr hb le_rfl) (bok_of hr hb le_rfl) (cok_of hr rfl hR (le_insBag _ _ _)) rfl (by decide) (by decide) two_ne (canCommit 2)
        (fun _ => rfl) fun _ => ⟨sums, sorted⟩
      exact Cmp.completes this (fun s ⟨k1, k2, k3⟩ => known_bag ⟨k1, k2⟩ (known_ins k3 known_none)) fun s ⟨k1, k3⟩ => holds_bag k1 (holds_ins k3 holds_none))
    (by decide) trivial (fun s k => ⟨k 0 _ rfl, k 1 _ rfl, k 2 _ rfl⟩) (fun s h => ⟨⟨rfl, h 0 _ rfl, h 1 _ rfl⟩, h 2 _ rfl⟩)
  obtain ⟨pf, hc⟩ := h _ (hst G (Mle G) Unit env H vs 2 4 ⟨0, 1, 1⟩ ⟨0, 1, 1⟩ ⟨2, 2, 2⟩ two_ne (by decide) (natsNonzero_mono natsNonzero (by decide)) h1
    ⟨hk 0 _ rfl, hk 1 _ rfl⟩ ⟨hk 0 _ rfl, hk 1 _ rfl⟩ (hk 2 _ rfl))
  exact hc ⟨_, hv 2 _ rfl, by decide +kernel⟩ (tab ⟨1, [3, 0]⟩ ⟨1, [1, 0]⟩) (tab ⟨1, [3, 0]⟩ ⟨1, [1, 0]⟩) ⟨rfl, hv 0 _ rfl, hv 1 _ rfl⟩ ⟨rfl, hv 0 _ rfl, hv 1 _ rfl⟩
    (by decide +kernel) (by decide +kernel) (by decide +kernel) (by decide +kernel) 3 (by decide +kernel)

/-- C66 for difference: acceptance implies that `l` holds the values of `a` outside `b`. -/
def C66_set_diff_statement : Prop :=
  ∀ (F C B : Type) [Field F] [DecidableEq F] (E : Env F C) (H : Oracle F C) (vs : VState F C B) (N M : Nat) (a b l m range : BagComm) (bm : Nat), (2 : F) ≠ 0 → 0 < M →
    NatsNonzero F (2 ^ (max l.numVars b.numVars + 1) * M) → NatsNonzero F (max (2 ^ l.numVars + 2 ^ m.numVars) (2 ^ a.numVars)) → VReachable E.debug H vs →
    KnownBag vs.st a → KnownBag vs.st b → KnownBag vs.st l → KnownBag vs.st m → Known vs.st bm → Known vs.st range.poly →
    SoundExcept (fun H => SetDiff.verify (E.withH H) a b l m bm range) vs.st N
      (setDisjointBounds l.numVars b.numVars range.numVars ++ [2 ^ l.numVars + 2 ^ m.numVars + 2 ^ a.numVars, 2 ^ m.numVars + 2 ^ b.numVars]) fun _ P =>
      HoldsRange vs.st P N range M → ∀ (ta tb tl tm : BagTab F) (μ : Nat → F),
        HoldsBag vs.st P N a ta → HoldsBag vs.st P N b tb → HoldsBag vs.st P N l tl → HoldsBag vs.st P N m tm → Vals vs.st P N bm μ →
        ta.Boolean → tb.Boolean → tl.Boolean → tm.Boolean → ta.Nodup → tb.Nodup → ∀ z, tl.Active z ↔ ta.Active z ∧ ¬tb.Active z

open REx Rigged in
/-- C66 fails for difference: {3} is accepted as {3} without {3}. -/
theorem C66_violated_set_diff : ¬ C66_set_diff_statement := by
  intro hst
  obtain ⟨H, vs, h1, hk, hv, h⟩ := REx.cheat (N := 2) (bounds := hDiff 1 1 1 1 2) (bounds2 := setDisjointBounds 1 1 2 ++ [2 ^ 1 + 2 ^ 1 + 2 ^ 1, 2 ^ 1 + 2 ^ 1]) (Valid := True) (Fits := True)
    (m := fun E => Rigged.setDiff E (tabMle 2 (col [0, 1, 2, 3])) (tabMle 2 (col [0, 0, 0, 2])) (bag 0 1 1) (bag 0 1 1) (bag 0 1 1) (bag 0 3 1) ⟨3, 1⟩ (bag 2 2 2))
    (v := fun E => SetDiff.verify E ⟨0, 1, 1⟩ ⟨0, 1, 1⟩ ⟨0, 1, 1⟩ ⟨0, 3, 1⟩ 3 ⟨2, 2, 2⟩)
    (Inputs := fun s => Known s 0 ∧ Known s 1 ∧ Known s 2 ∧ Known s 3)
    (Contents := fun s => HoldsBag s poly 2 ⟨0, 1, 1⟩ (tab ⟨1, [3, 0]⟩ ⟨1, [1, 0]⟩) ∧ HoldsBag s poly 2 ⟨0, 3, 1⟩ (tab ⟨1, [3, 0]⟩ ⟨1, [0, 0]⟩) ∧ Holds s poly 2 3 1 (col [0, 0]) ∧
      Holds s poly 2 2 2 (col [0, 1, 2, 3]))
    [⟨1, [3, 0]⟩, ⟨1, [1, 0]⟩, ⟨2, [0, 1, 2, 3]⟩, ⟨1, [0, 0]⟩] (by decide) (by decide)
    (fun hr hp => by
      have hb : HoldsBagP (startP env.commit [⟨1, [3, 0]⟩, ⟨1, [1, 0]⟩, ⟨2, [0, 1, 2, 3]⟩, ⟨1, [0, 0]⟩] PTracker.new) (bag 0 1 1) (tab ⟨1, [3, 0]⟩ ⟨1, [1, 0]⟩) := ⟨rfl, rfl, hp 0 _ rfl, hp 1 _ rfl⟩
      have hm : HoldsBagP (startP env.commit [⟨1, [3, 0]⟩, ⟨1, [1, 0]⟩, ⟨2, [0, 1, 2, 3]⟩, ⟨1, [0, 0]⟩] PTracker.new) (bag 0 3 1) (tab ⟨1, [3, 0]⟩ ⟨1, [0, 0]⟩) := ⟨rfl, rfl, hp 0 _ rfl, hp 3 _ rfl⟩
      have hz : HoldsP (startP env.commit [⟨1, [3, 0]⟩, ⟨1, [1, 0]⟩, ⟨2, [0, 1, 2, 3]⟩, ⟨1, [0, 0]⟩] PTracker.new) ⟨3, 1⟩ (col [0, 0]) := hp 3 _ rfl
      have hR : HoldsP (startP env.commit [⟨1, [3, 0]⟩, ⟨1, [1, 0]⟩, ⟨2, [0, 1, 2, 3]⟩, ⟨1, [0, 0]⟩] PTracker.new) ⟨2, 2⟩ (col [0, 1, 2, 3]) := hp 2 _ rfl
      have := Rigged.setDiff_cmp (B := Unit) (E := env) (P := poly) (N := 2) (Sz := True) (Φ := True) (r := 2) (ρ := col [0, 1, 2, 3]) (V := col [0, 1, 2, 3]) (S := col [0, 0, 0, 2])
        (Γ := (((Facts.none.ins 2 2 (col [0, 1, 2, 3])).ins 3 1 (col [0, 0])).insBag (bag 0 3 1) (tab ⟨1, [3, 0]⟩ ⟨1, [0, 0]⟩)).insBag (bag 0 1 1) (tab ⟨1, [3, 0]⟩ ⟨1, [1, 0]⟩))
        (br := bag 2 2 2) (cr := ⟨2, 2, 2⟩)
        hr (bok_of hr hb le_rfl) (bok_of hr hb le_rfl) (bok_of hr hb le_rfl) (bok_of hr hm (le_insBag _ _ _)) (cok_of hr rfl hz ((le_insBag _ _ _).trans (le_insBag _ _ _)))
        (cok_of hr rfl hR ((Facts.le_ins _ _ _ _).trans ((le_insBag _ _ _).trans (le_insBag _ _ _)))) rfl (by decide) (by decide) (by decide) (by decide) two_ne (canCommit 2)
        (fun _ => rfl) fun _ => ⟨⟨sums, sorted⟩, by decide +kernel, by decide +kernel⟩
      exact Cmp.completes this (fun s ⟨k1, k2, k3, k4⟩ => known_bag ⟨k1, k2⟩ (known_bag ⟨k1, k4⟩ (known_ins k4 (known_ins k3 known_none))))
        fun s ⟨k1, k2, k3, k4⟩ => holds_bag k1 (holds_bag k2 (holds_ins k3 (holds_ins k4 holds_none))))
    (by decide) trivial (fun s k => ⟨k 0 _ rfl, k 1 _ rfl, k 2 _ rfl, k 3 _ rfl⟩) (fun s h => ⟨⟨rfl, h 0 _ rfl, h 1 _ rfl⟩, ⟨rfl, h 0 _ rfl, h 3 _ rfl⟩, h 3 _ rfl, h 2 _ rfl⟩)
  obtain ⟨pf, hc⟩ := h _ (hst G (Mle G) Unit env H vs 2 4 ⟨0, 1, 1⟩ ⟨0, 1, 1⟩ ⟨0, 1, 1⟩ ⟨0, 3, 1⟩ ⟨2, 2, 2⟩ 3 two_ne (by decide) (natsNonzero_mono natsNonzero (by decide))
    (natsNonzero_mono natsNonzero (by decide)) h1 ⟨hk 0 _ rfl, hk 1 _ rfl⟩ ⟨hk 0 _ rfl, hk 1 _ rfl⟩ ⟨hk 0 _ rfl, hk 1 _ rfl⟩ ⟨hk 0 _ rfl, hk 3 _ rfl⟩ (hk 3 _ rfl) (hk 2 _ rfl))
  have hb : HoldsBag vs.st poly 2 ⟨0, 1, 1⟩ (tab ⟨1, [3, 0]⟩ ⟨1, [1, 0]⟩) := ⟨rfl, hv 0 _ rfl, hv 1 _ rfl⟩
  exact absurd (hc ⟨_, hv 2 _ rfl, by decide +kernel⟩ (tab ⟨1, [3, 0]⟩ ⟨1, [1, 0]⟩) (tab ⟨1, [3, 0]⟩ ⟨1, [1, 0]⟩) (tab ⟨1, [3, 0]⟩ ⟨1, [1, 0]⟩) (tab ⟨1, [3, 0]⟩ ⟨1, [0, 0]⟩) _
    hb hb hb ⟨rfl, hv 0 _ rfl, hv 3 _ rfl⟩ (hv 3 _ rfl).vals (by decide +kernel) (by decide +kernel) (by decide +kernel) (by decide +kernel) (by decide +kernel) (by decide +kernel) 3)
    (by decide +kernel)

/-- C66 for intersection: acceptance implies that `m` holds the common values. -/
def C66_set_intersect_statement : Prop :=
  ∀ (F C B : Type) [Field F] [DecidableEq F] (E : Env F C) (H : Oracle F C) (vs : VState F C B) (N M : Nat) (a b l m r range : BagComm), (2 : F) ≠ 0 → 0 < M →
    NatsNonzero F (2 ^ (max l.numVars r.numVars + 1) * M) → NatsNonzero F (max (2 ^ l.numVars + 2 ^ m.numVars) (2 ^ a.numVars)) →
    NatsNonzero F (max (2 ^ m.numVars + 2 ^ r.numVars) (2 ^ b.numVars)) → VReachable E.debug H vs →
    KnownBag vs.st a → KnownBag vs.st b → KnownBag vs.st l → KnownBag vs.st m → KnownBag vs.st r → Known vs.st range.poly →
    SoundExcept (fun H => SetIntersect.verify (E.withH H) a b l m r range) vs.st N
      ([2 ^ l.numVars + 2 ^ m.numVars + 2 ^ a.numVars, 2 ^ m.numVars + 2 ^ r.numVars + 2 ^ b.numVars] ++
        setDisjointBounds l.numVars r.numVars range.numVars) fun _ P =>
      HoldsRange vs.st P N range M → ∀ ta tb tl tm tr : BagTab F,
        HoldsBag vs.st P N a ta → HoldsBag vs.st P N b tb → HoldsBag vs.st P N l tl → HoldsBag vs.st P N m tm → HoldsBag vs.st P N r tr →
        ta.Boolean → tb.Boolean → tl.Boolean → tm.Boolean → tr.Boolean → ta.Nodup → tb.Nodup → ∀ z, tm.Active z ↔ ta.Active z ∧ tb.Active z

open REx Rigged in
/-- C66 fails for intersection: the empty set is accepted as the intersection of {3} and {3}. -/
theorem C66_violated_set_intersect : ¬ C66_set_intersect_statement := by
  intro hst
  obtain ⟨H, vs, h1, hk, hv, h⟩ := REx.cheat (N := 2) (bounds := hIntersect 1 1 1 1 1 2) (bounds2 := [2 ^ 1 + 2 ^ 1 + 2 ^ 1, 2 ^ 1 + 2 ^ 1 + 2 ^ 1] ++ setDisjointBounds 1 1 2) (Valid := True) (Fits := True)
    (m := fun E => Rigged.setIntersect E (tabMle 2 (col [0, 1, 2, 3])) (tabMle 2 (col [0, 0, 0, 2])) (bag 0 1 1) (bag 0 1 1) (bag 0 1 1) (bag 0 3 1) (bag 0 1 1) (bag 2 2 2))
    (v := fun E => SetIntersect.verify E ⟨0, 1, 1⟩ ⟨0, 1, 1⟩ ⟨0, 1, 1⟩ ⟨0, 3, 1⟩ ⟨0, 1, 1⟩ ⟨2, 2, 2⟩)
    (Inputs := fun s => Known s 0 ∧ Known s 1 ∧ Known s 2 ∧ Known s 3)
    (Contents := fun s => HoldsBag s poly 2 ⟨0, 1, 1⟩ (tab ⟨1, [3, 0]⟩ ⟨1, [1, 0]⟩) ∧ HoldsBag s poly 2 ⟨0, 3, 1⟩ (tab ⟨1, [3, 0]⟩ ⟨1, [0, 0]⟩) ∧
      Holds s poly 2 2 2 (col [0, 1, 2, 3]))
    [⟨1, [3, 0]⟩, ⟨1, [1, 0]⟩, ⟨2, [0, 1, 2, 3]⟩, ⟨1, [0, 0]⟩] (by decide) (by decide)
    (fun hr hp => by
      have hb : HoldsBagP (startP env.commit [⟨1, [3, 0]⟩, ⟨1, [1, 0]⟩, ⟨2, [0, 1, 2, 3]⟩, ⟨1, [0, 0]⟩] PTracker.new) (bag 0 1 1) (tab ⟨1, [3, 0]⟩ ⟨1, [1, 0]⟩) := ⟨rfl, rfl, hp 0 _ rfl, hp 1 _ rfl⟩
      have hm : HoldsBagP (startP env.commit [⟨1, [3, 0]⟩, ⟨1, [1, 0]⟩, ⟨2, [0, 1, 2, 3]⟩, ⟨1, [0, 0]⟩] PTracker.new) (bag 0 3 1) (tab ⟨1, [3, 0]⟩ ⟨1, [0, 0]⟩) := ⟨rfl, rfl, hp 0 _ rfl, hp 3 _ rfl⟩
      have hR : HoldsP (startP env.commit [⟨1, [3, 0]⟩, ⟨1, [1, 0]⟩, ⟨2, [0, 1, 2, 3]⟩, ⟨1, [0, 0]⟩] PTracker.new) ⟨2, 2⟩ (col [0, 1, 2, 3]) := hp 2 _ rfl
      have := Rigged.setIntersect_cmp (B := Unit) (E := env) (P := poly) (N := 2) (Sz := True) (Φ := True) (r := 2) (ρ := col [0, 1, 2, 3]) (V := col [0, 1, 2, 3]) (S := col [0, 0, 0, 2])
        (Γ := ((Facts.none.ins 2 2 (col [0, 1, 2, 3])).insBag (bag 0 3 1) (tab ⟨1, [3, 0]⟩ ⟨1, [0, 0]⟩)).insBag (bag 0 1 1) (tab ⟨1, [3, 0]⟩ ⟨1, [1, 0]⟩))
        (br := bag 2 2 2) (cr := ⟨2, 2, 2⟩)
        hr (bok_of hr hb le_rfl) (bok_of hr hb le_rfl) (bok_of hr hb le_rfl) (bok_of hr hm (le_insBag _ _ _)) (bok_of hr hb le_rfl)
        (cok_of hr rfl hR ((le_insBag _ _ _).trans (le_insBag _ _ _))) rfl (by decide) (by decide) (by decide) (by decide) (by decide) two_ne (canCommit 2)
        (fun _ => rfl) fun _ => ⟨⟨sums, sorted⟩, by decide +kernel, by decide +kernel⟩
      exact Cmp.completes this (fun s ⟨k1, k2, k3, k4⟩ => known_bag ⟨k1, k2⟩ (known_bag ⟨k1, k4⟩ (known_ins k3 known_none)))
        fun s ⟨k1, k2, k4⟩ => holds_bag k1 (holds_bag k2 (holds_ins k4 holds_none)))
    (by decide) trivial (fun s k => ⟨k 0 _ rfl, k 1 _ rfl, k 2 _ rfl, k 3 _ rfl⟩) (fun s h => ⟨⟨rfl, h 0 _ rfl, h 1 _ rfl⟩, ⟨rfl, h 0 _ rfl, h 3 _ rfl⟩, h 2 _ rfl⟩)
  obtain ⟨pf, hc⟩ := h _ (hst G (Mle G) Unit env H vs 2 4 ⟨0, 1, 1⟩ ⟨0, 1, 1⟩ ⟨0, 1, 1⟩ ⟨0, 3, 1⟩ ⟨0, 1, 1⟩ ⟨2, 2, 2⟩ two_ne (by decide) (natsNonzero_mono natsNonzero (by decide))
    (natsNonzero_mono natsNonzero (by decide)) (natsNonzero_mono natsNonzero (by decide)) h1 ⟨hk 0 _ rfl, hk 1 _ rfl⟩ ⟨hk 0 _ rfl, hk 1 _ rfl⟩ ⟨hk 0 _ rfl, hk 1 _ rfl⟩ ⟨hk 0 _ rfl, hk 3 _ rfl⟩
    ⟨hk 0 _ rfl, hk 1 _ rfl⟩ (hk 2 _ rfl))
  have hb : HoldsBag vs.st poly 2 ⟨0, 1, 1⟩ (tab ⟨1, [3, 0]⟩ ⟨1, [1, 0]⟩) := ⟨rfl, hv 0 _ rfl, hv 1 _ rfl⟩
  exact absurd (hc ⟨_, hv 2 _ rfl, by decide +kernel⟩ (tab ⟨1, [3, 0]⟩ ⟨1, [1, 0]⟩) (tab ⟨1, [3, 0]⟩ ⟨1, [1, 0]⟩) (tab ⟨1, [3, 0]⟩ ⟨1, [1, 0]⟩) (tab ⟨1, [3, 0]⟩ ⟨1, [0, 0]⟩)
    (tab ⟨1, [3, 0]⟩ ⟨1, [1, 0]⟩) hb hb hb ⟨rfl, hv 0 _ rfl, hv 3 _ rfl⟩ hb (by decide +kernel) (by decide +kernel) (by decide +kernel) (by decide +kernel) (by decide +kernel)
    (by decide +kernel) (by decide +kernel) 3) (by decide +kernel)

end Zksql
