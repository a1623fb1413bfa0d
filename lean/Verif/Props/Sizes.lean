import Verif.Props.SetChecks
import Verif.Lemmas.Rigged
/-!
The sort, support and disjointness checks and the prescribed permutation check only work when the sumcheck that settles the claims runs over the
hypercube of the sorted tables.  The prover and the verifier settle all claims of a proof over one hypercube, that of the largest table in the proof, so
these checks cannot be combined with a larger table.

Two kinds of theorem say so.  `C62_size_sound`, `C63_size_sound`, `C65_disjoint_size_sound`, `C65_set_disjoint_size_sound`: if the claims are true over the hypercube of dimension `N`, then `N` is the
dimension of the sorted table (except for few challenges).  `C61_honest_violated`, `C62_honest_violated`, `C65_honest_violated`: the statements that honest runs
succeed, without the restriction on `N` of the `_complete_partial` theorems, are false.
-/
set_option linter.unusedSectionVars false
namespace Zksql
open Spec
variable {F C B : Type} [Field F] [DecidableEq F]
variable {E : Env F C} {s : VSt F C B} {N : Nat}

/-! ### Sizes that acceptance implies -/

/-- C62: the claims of the sort check can only be true over the hypercube of the sorted bag. -/
theorem C62_size_sound {sorted range : BagComm} (h2 : (2 : F) ≠ 0) (hn : NatsNonzero F (2 ^ sorted.numVars)) (hs : Sane s)
    (kb : KnownBag s sorted) (kr : Known s range.poly) :
    SoundExcept (fun H => StrictSort.verify (E.withH H) sorted range) s N (sortBounds sorted.numVars range.numVars) fun _ _ => N = sorted.numVars :=
  Snd.except hs ((sort_tabs (N := N) h2 hn hs kb kr).mono hs fun _ _ h => h.1)

/-- C63: the claims of the support check can only be true over the hypercube of the support. -/
theorem C63_size_sound {bag supp range : BagComm} (h2 : (2 : F) ≠ 0) (hn : NatsNonzero F (2 ^ supp.numVars)) (hs : Sane s)
    (kb : KnownBag s bag) (ks : KnownBag s supp) (kr : Known s range.poly) :
    SoundExcept (fun H => Supp.verify (E.withH H) bag supp range) s N ([2 ^ bag.numVars + 2 ^ supp.numVars] ++ sortBounds supp.numVars range.numVars) fun _ _ =>
      N = supp.numVars := by
  refine Snd.except hs ?_
  intro β K b2 Concl hK
  unfold Supp.verify
  simp only [Act.bind_assoc, withH_debug]
  refine step_transfer hs fun m c s1 q1 l1 m1 => ?_
  refine (supp_tabs (N := N) h2 hn q1.sane (q1.knownBag kb) (q1.knownBag ks) (known_look l1) (q1.known kr)).bind fun _ s2 L2 => ?_
  exact (hK () s2 (q1.toLater.trans L2)).mono L2.sane fun P _ hC h => hC h.1

/-- C65 for multisets: the claims can only be true over the hypercube of the sum of the two bags. -/
theorem C65_disjoint_size_sound {a b range : BagComm} (h2 : (2 : F) ≠ 0) (hn : NatsNonzero F (2 ^ (max a.numVars b.numVars + 1))) (hs : Sane s)
    (ka : KnownBag s a) (kb : KnownBag s b) (kr : Known s range.poly) :
    SoundExcept (fun H => Disjoint.verify (E.withH H) a b range) s N (disjointBounds a.numVars b.numVars range.numVars) fun _ _ =>
      N = max a.numVars b.numVars + 1 :=
  Snd.except hs ((disjoint_tabs (N := N) h2 hn hs ka kb kr).mono hs fun _ _ h => h.1)

/-- C65 for sets: the claims can only be true over the hypercube of the sum of the two bags. -/
theorem C65_set_disjoint_size_sound {a b range : BagComm} (h2 : (2 : F) ≠ 0) (hn : NatsNonzero F (2 ^ (max a.numVars b.numVars + 1))) (hs : Sane s)
    (ka : KnownBag s a) (kb : KnownBag s b) (kr : Known s range.poly) :
    SoundExcept (fun H => SetDisjoint.verify (E.withH H) a b range) s N (setDisjointBounds a.numVars b.numVars range.numVars) fun _ _ =>
      N = max a.numVars b.numVars + 1 :=
  SndP.except hs ((setDisjoint_tabs (N := N) h2 hn hs ka kb kr).mono hs fun _ _ h => h.1)

namespace REx

/-- The run of the sort check for (2, 3) meets the hypotheses of `C62_size_sound`, with claims that are true. -/
example : NatsNonzero G (2 ^ 1) ∧ ∃ (H : Oracle G (Mle G)) (vs : VState G (Mle G) Unit) (s' : VSt G (Mle G) Unit), VReachable true H vs ∧ Sane vs.st ∧
    StrictSort.verify (env.withH H) ⟨0, 1, 1⟩ ⟨2, 1, 1⟩ vs.st = (.ok (), s') ∧ ClaimsTrue poly 1 s' := by
  obtain ⟨H, vs, s', h1, h2, h3, -⟩ := run_strict_sort
  exact ⟨natsNonzero_mono natsNonzero (by decide), H, vs, s', h1, h1.sane, h2, h3⟩

/-- The run for {2} and {3, 3} meets the hypotheses of `C65_disjoint_size_sound`, with claims that are true. -/
example : NatsNonzero G (2 ^ (max 1 1 + 1)) ∧ ∃ (H : Oracle G (Mle G)) (vs : VState G (Mle G) Unit) (s' : VSt G (Mle G) Unit), VReachable true H vs ∧ Sane vs.st ∧
    Disjoint.verify (env.withH H) ⟨0, 1, 1⟩ ⟨2, 3, 1⟩ ⟨4, 4, 2⟩ vs.st = (.ok (), s') ∧ ClaimsTrue poly 2 s' := by
  obtain ⟨H, vs, s', h1, h2, h3, -⟩ := run_disjoint
  exact ⟨natsNonzero_mono natsNonzero (by decide), H, vs, s', h1, h1.sane, h2, h3⟩

end REx

/-! ### Honest runs over larger hypercubes -/

/-- C61, honest runs over every hypercube that contains the tables: if `g` is `f` read in the order of the permutation column, the run succeeds. -/
def C61_honest_statement : Prop :=
  ∀ (F C B : Type) [Field F] [DecidableEq F] (E : Env F C) (P : C → List F → F) (N : Nat) (t : PTracker F C) (f g : Bag) (Tf Tg : BagTab F) (perm : TPoly)
    (p : Nat → F), (2 : F) ≠ 0 → CanCommit E.commit N → Ready E.commit t → HoldsBagP t f Tf → HoldsBagP t g Tg → Tg.nv = Tf.nv → HoldsP t perm p →
    perm.numVars = Tf.nv → Tf.nv ≤ N →
    Completes (B := B) E P N (fun E => PrescPerm.prove E f g perm) (fun E => PrescPerm.verify E (sameBag f) (sameBag g) perm.id) t [0, 2 ^ Tf.nv + 2 ^ Tf.nv]
      (fun s => KnownBag s (sameBag f) ∧ KnownBag s (sameBag g) ∧ Known s perm.id)
      (fun s => HoldsBag s P N (sameBag f) Tf ∧ HoldsBag s P N (sameBag g) Tg ∧ Holds s P N perm.id Tf.nv p)
      (Permutes Tf.nv Tf.val Tg.val p)

/-- C62, honest runs over every hypercube that contains the tables. -/
def C62_honest_statement : Prop :=
  ∀ (F C B : Type) [Field F] [DecidableEq F] (E : Env F C) (P : C → List F → F) (N : Nat) (t : PTracker F C) (f range : Bag) (Tf : BagTab F) (r : Nat)
    (ρ : Nat → F), (2 : F) ≠ 0 → CanCommit E.commit N → Ready E.commit t → HoldsBagP t f Tf → HoldsP t range.poly ρ → range.poly.numVars = r →
    Tf.nv ≤ N → r ≤ N →
    Completes (B := B) E P N (fun E => StrictSort.prove E f range) (fun E => StrictSort.verify E (sameBag f) (sameBag range)) t (hSort Tf.nv r)
      (fun s => KnownBag s (sameBag f) ∧ Known s range.poly.id)
      (fun s => HoldsBag s P N (sameBag f) Tf ∧ Holds s P N range.poly.id r ρ)
      (SortedIn Tf.nv r Tf.val Tf.sel ρ)

/-- C65, honest runs of the multiset check over every hypercube that contains the sum of the bags. -/
def C65_honest_statement : Prop :=
  ∀ (F C B : Type) [Field F] [DecidableEq F] (E : Env F C) (P : C → List F → F) (N : Nat) (t : PTracker F C) (f g range : Bag) (Tf Tg : BagTab F) (r M : Nat)
    (ρ : Nat → F), (2 : F) ≠ 0 → CanCommit E.commit N → Ready E.commit t → HoldsBagP t f Tf → HoldsBagP t g Tg → HoldsP t range.poly ρ →
    range.poly.numVars = r → max Tf.nv Tg.nv + 1 ≤ N → r ≤ N →
    Completes (B := B) E P N (fun E => Disjoint.prove E f g range) (fun E => Disjoint.verify E (sameBag f) (sameBag g) (sameBag range)) t (hDisjoint Tf.nv Tg.nv r)
      (fun s => KnownBag s (sameBag f) ∧ KnownBag s (sameBag g) ∧ Known s range.poly.id)
      (fun s => HoldsBag s P N (sameBag f) Tf ∧ HoldsBag s P N (sameBag g) Tg ∧ Holds s P N range.poly.id r ρ)
      (Canonical E.rep ∧ 0 < M ∧ Covers r ρ M ∧ Tf.Below E.rep M ∧ Tg.Below E.rep M ∧ Tf.Boolean ∧ Tg.Boolean ∧ ∀ z, ¬ (Tf.Active z ∧ Tg.Active z))

open REx in
/-- C61 fails over larger hypercubes: (2, 3) is swapped to (3, 2), and the claims are settled over four rows. -/
theorem C61_honest_violated : ¬ C61_honest_statement := by
  intro hst
  obtain ⟨H, vs, h1, hk, hv, h⟩ := REx.cheat (N := 2) (bounds2 := [(2 * 2 ^ 2) * (2 * 2 ^ 2), 2 * 2 ^ 2]) [⟨1, [2, 3]⟩, ⟨1, [1, 1]⟩, ⟨1, [3, 2]⟩, ⟨1, [1, 0]⟩] (by decide) (by decide)
    (fun hr hp => hst G (Mle G) Unit env poly 2 _ (bag 0 1 1) (bag 2 1 1) (tab ⟨1, [2, 3]⟩ ⟨1, [1, 1]⟩) (tab ⟨1, [3, 2]⟩ ⟨1, [1, 1]⟩) ⟨3, 1⟩ (fun b => ([1, 0] : List G).getD b 0)
      two_ne (canCommit 2) hr ⟨rfl, rfl, hp 0 _ rfl, hp 1 _ rfl⟩ ⟨rfl, rfl, hp 2 _ rfl, hp 1 _ rfl⟩ rfl (hp 3 _ rfl) rfl (by decide))
    (by decide)
    ⟨fun i => 1 - i, by decide +kernel⟩
    (fun s k => ⟨⟨k 0 _ rfl, k 1 _ rfl⟩, ⟨k 2 _ rfl, k 1 _ rfl⟩, k 3 _ rfl⟩) (fun s h => ⟨⟨rfl, h 0 _ rfl, h 1 _ rfl⟩, ⟨rfl, h 2 _ rfl, h 1 _ rfl⟩, h 3 _ rfl⟩)
  obtain ⟨pf, hc⟩ := h _ (C61_prescribed_permutation_sound_partial (f := sameBag (bag 0 1 1)) (g := sameBag (bag 2 1 1)) (perm := 3) (E := env) (N := 2)
    two_ne h1.sane (hk 0 _ rfl) (hk 2 _ rfl) (hk 3 _ rfl) rfl (natsNonzero_mono REx.natsNonzero (by decide)))
  have := (hc _ _ _ (hv 0 _ rfl).2 (hv 2 _ rfl).2 (hv 3 _ rfl).2).1 2 2
  revert this
  decide +kernel

open REx in
/-- C62 fails over larger hypercubes: (2, 3) is sorted, and the claims are settled over four rows. -/
theorem C62_honest_violated : ¬ C62_honest_statement := by
  intro hst
  obtain ⟨H, vs, h1, hk, hv, h⟩ := REx.cheat (N := 2) (bounds2 := sortBounds 1 1) [⟨1, [2, 3]⟩, ⟨1, [1, 1]⟩, ⟨1, [0, 1]⟩] (by decide) (by decide)
    (fun hr hp => hst G (Mle G) Unit env poly 2 _ (bag 0 1 1) (bag 2 1 1) (tab ⟨1, [2, 3]⟩ ⟨1, [1, 1]⟩) 1 (fun b => ([0, 1] : List G).getD b 0)
      two_ne (canCommit 2) hr ⟨rfl, rfl, hp 0 _ rfl, hp 1 _ rfl⟩ (hp 2 _ rfl) rfl (by decide) (by decide))
    (by decide)
    (REx.sortedIn_of (by decide +kernel))
    (fun s k => ⟨⟨k 0 _ rfl, k 1 _ rfl⟩, k 2 _ rfl⟩) (fun s h => ⟨⟨rfl, h 0 _ rfl, h 1 _ rfl⟩, h 2 _ rfl⟩)
  obtain ⟨pf, hc⟩ := h _ (C62_size_sound (sorted := sameBag (bag 0 1 1)) (range := sameBag (bag 2 1 1)) (E := env) (N := 2)
    two_ne (natsNonzero_mono REx.natsNonzero (by decide)) h1.sane ⟨hk 0 _ rfl, hk 1 _ rfl⟩ (hk 2 _ rfl))
  exact absurd hc (by decide)

open REx in
/-- C65 fails over larger hypercubes: {2} and {3, 3} are disjoint, and the claims are settled over eight rows. -/
theorem C65_honest_violated : ¬ C65_honest_statement := by
  intro hst
  obtain ⟨H, vs, h1, hk, hv, h⟩ := REx.cheat (N := 3) (bounds2 := disjointBounds 1 1 2) [⟨1, [2, 0]⟩, ⟨1, [1, 0]⟩, ⟨1, [3, 3]⟩, ⟨1, [1, 1]⟩, ⟨2, [0, 1, 2, 3]⟩] (by decide) (by decide)
    (fun hr hp => hst G (Mle G) Unit env poly 3 _ (bag 0 1 1) (bag 2 3 1) (bag 4 4 2) (tab ⟨1, [2, 0]⟩ ⟨1, [1, 0]⟩) (tab ⟨1, [3, 3]⟩ ⟨1, [1, 1]⟩) 2 4 (fun b => ([0, 1, 2, 3] : List G).getD b 0)
      two_ne (canCommit 3) hr ⟨rfl, rfl, hp 0 _ rfl, hp 1 _ rfl⟩ ⟨rfl, rfl, hp 2 _ rfl, hp 3 _ rfl⟩ (hp 4 _ rfl) rfl (by decide) (by decide))
    (by decide)
    ⟨canonical, by decide, by decide +kernel, by decide +kernel, by decide +kernel, by decide +kernel, by decide +kernel, by decide +kernel⟩
    (fun s k => ⟨⟨k 0 _ rfl, k 1 _ rfl⟩, ⟨k 2 _ rfl, k 3 _ rfl⟩, k 4 _ rfl⟩) (fun s h => ⟨⟨rfl, h 0 _ rfl, h 1 _ rfl⟩, ⟨rfl, h 2 _ rfl, h 3 _ rfl⟩, h 4 _ rfl⟩)
  obtain ⟨pf, hc⟩ := h _ (C65_disjoint_size_sound (a := sameBag (bag 0 1 1)) (b := sameBag (bag 2 3 1)) (range := sameBag (bag 4 4 2)) (E := env) (N := 3)
    two_ne (natsNonzero_mono REx.natsNonzero (by decide)) h1.sane ⟨hk 0 _ rfl, hk 1 _ rfl⟩ ⟨hk 2 _ rfl, hk 3 _ rfl⟩ (hk 4 _ rfl))
  exact absurd hc (by decide)

end Zksql
