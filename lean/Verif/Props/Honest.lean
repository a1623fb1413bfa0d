import Verif.Lemmas.HonestSets
import Verif.Lemmas.RunEx
/-!
Honest runs of the bag and set checks: prover and verifier stay in step and, on valid data, all recorded claims are true.

In every theorem `t` is the prover's state before the call (`Ready`: reachable and started), the tables are what the prover's handles evaluate to,
`Completes` is defined in `Spec/Honest`, and the verifier is given the handles the prover used.  `CanCommit` says that the commitment scheme accepts
tables of the size of the setup.
-/
set_option linter.unusedSectionVars false
namespace Zksql
open Spec
variable {F C B : Type} [Field F] [DecidableEq F]
variable {E : Env F C} {P : C → List F → F} {N : Nat} {t : PTracker F C} {Γ : Facts F}

theorem bok_of {b : Bag} {T : BagTab F} (hr : Ready E.commit t) (h : HoldsBagP t b T) (hΓ : Γ.insBag b T ≤ Γ1) : BOk Γ1 t b (sameBag b) T :=
  ⟨h.nv, h.nvSel, h.nv, h.val.ph hr, h.sel.ph hr, hΓ _ _ _ (.inl (.inr ⟨rfl, rfl, rfl⟩)), hΓ _ _ _ (.inr ⟨rfl, rfl, rfl⟩)⟩

theorem cok_of {a : TPoly} {nv : Nat} {T : Nat → F} (hr : Ready E.commit t) (hn : a.numVars = nv) (h : HoldsP t a T) (hΓ : Γ.ins a.id nv T ≤ Γ1) : COk Γ1 t a a.id nv T :=
  ⟨hn, h.ph hr, hΓ _ _ _ (.inr ⟨rfl, rfl, rfl⟩)⟩

theorem le_insBag (Γ : Facts F) (b : Bag) (T : BagTab F) : Γ ≤ Γ.insBag b T := (Facts.le_ins _ _ _ _).trans (Facts.le_ins _ _ _ _)

/-! ### C52 -/

/-- C52.  If both sides give every field value the same total weight, then for every challenge different from all values in the bags (outside
`Side.values`) the verifier's comparison passes and all claims recorded are true. -/
theorem C52_multiset_complete {fs gs : List (Entry F)} (h2 : (2 : F) ≠ 0) (hC : CanCommit E.commit N) (hr : Ready E.commit t)
    (hf : fs ≠ []) (hg : gs ≠ []) (he : ∀ e ∈ fs ++ gs, e.HoldsP t) (hN : ∀ e ∈ fs ++ gs, e.tab.nv ≤ N) :
    CompletesOutside (B := B) (fun _ => Side.values ((fs ++ gs).map fun e => (e.tab, e.weights))) E P N
      (fun E => Multitool.prove E (fs.map (·.bag)) (gs.map (·.bag)) (fs.map (·.mult)) (gs.map (·.mult)))
      (fun E => Multitool.verify E (fs.map fun e => sameBag e.bag) (gs.map fun e => sameBag e.bag) (fs.map (·.mult.id)) (gs.map (·.mult.id))) t
      [((fs ++ gs).map fun e => 2 ^ e.tab.nv).sum] (fun s => ∀ e ∈ fs ++ gs, e.Known s)
      (fun s => ∀ e ∈ fs ++ gs, e.Holds s P N)
      (∀ z, Side.total (fs.map fun e => (e.tab, e.weights)) z = Side.total (gs.map fun e => (e.tab, e.weights)) z) := by
  let J : Entry F → Joint F := fun e => ((e.bag, e.mult), (sameBag e.bag, e.mult.id), (e.tab, e.weights))
  let Γ : Facts F := fun i nv T => ∃ e ∈ fs ++ gs, Facts.insBag (Facts.none.ins e.mult.id e.tab.nv e.weights) e.bag e.tab i nv T
  have ok : ∀ l ⊆ fs ++ gs, ∀ q ∈ l.map J, EOk Γ t q := by
    intro l hl q hq
    obtain ⟨e, hm, rfl⟩ := List.mem_map.1 hq
    have hm' := hl hm
    have := he e hm'
    have b := bok_of hr this.bag (Γ := Facts.none.ins e.mult.id e.tab.nv e.weights) (Γ1 := Γ) fun i nv T h => ⟨e, hm', h⟩
    exact b.eok this.nv (this.mult.ph hr) ⟨e, hm', le_insBag _ _ _ _ _ _ (Facts.mem_ins _ _ _ _)⟩
  refine GFB.completes (Γ := Γ) ?_ ?_ ?_
  · have := multitool_gfb (B := B) (E := E) (P := P) (N := N) (Sz := True) (Γ := Γ)
      (Φ := ∀ z, Side.total (fs.map fun e => (e.tab, e.weights)) z = Side.total (gs.map fun e => (e.tab, e.weights)) z) (Lf := fs.map J) (Lg := gs.map J) (D := ((fs ++ gs).map fun e => 2 ^ e.tab.nv).sum) hr
      (ok fs (List.subset_append_left _ _)) (ok gs (List.subset_append_right _ _)) (by simpa using hf) (by simpa using hg) (fun q hq => by
        rw [← List.map_append] at hq
        obtain ⟨e, hm, rfl⟩ := List.mem_map.1 hq
        exact hN e hm) h2 hC (fun hφ z => by
        rw [List.map_map, List.map_map]
        exact hφ z) (by rw [← List.map_append, List.map_map]; exact le_rfl)
    rw [← List.map_append] at this
    simp only [List.map_map] at this
    exact this
  · rintro s hi i nv T ⟨e, hm, h⟩
    exact known_bag (hi e hm).1 (known_ins (hi e hm).2 known_none) i nv T h
  · rintro s hv i nv T ⟨e, hm, h⟩
    exact holds_bag (hv e hm).1 (holds_ins (hv e hm).2 holds_none) i nv T h

namespace REx

/-- {2, 3} against {2} and {3}. -/
theorem run_multiset : ∃ (H : Oracle G (Mle G)) (vs : VState G (Mle G) Unit) (s' : VSt G (Mle G) Unit), VReachable true H vs ∧
    Multitool.verify (env.withH H) [⟨0, 1, 1⟩] [⟨2, 3, 0⟩, ⟨4, 3, 0⟩] [1] [3, 3] vs.st = (.ok (), s') ∧ ClaimsTrue poly 1 s' := by
  let e1 : Entry G := ⟨bag 0 1 1, ⟨1, 1⟩, tab ⟨1, [2, 3]⟩ ⟨1, [1, 1]⟩, (⟨1, [1, 1]⟩ : Mle G).tbl⟩
  let e2 : Entry G := ⟨bag 2 3 0, ⟨3, 0⟩, tab ⟨0, [2]⟩ ⟨0, [1]⟩, (⟨0, [1]⟩ : Mle G).tbl⟩
  let e3 : Entry G := ⟨bag 4 3 0, ⟨3, 0⟩, tab ⟨0, [3]⟩ ⟨0, [1]⟩, (⟨0, [1]⟩ : Mle G).tbl⟩
  obtain ⟨H, vs, s', h1, h2, h3, hk, hv⟩ := whole (N := 1) [⟨1, [2, 3]⟩, ⟨1, [1, 1]⟩, ⟨0, [2]⟩, ⟨0, [1]⟩, ⟨0, [3]⟩] (by decide) (by decide)
    (fun hr hp => ⟨_, C52_multiset_complete (fs := [e1]) (gs := [e2, e3]) two_ne (canCommit 1) hr (by simp) (by simp)
      (by
        intro e he
        simp only [List.cons_append, List.nil_append, List.mem_cons, List.not_mem_nil, or_false] at he
        rcases he with rfl | rfl | rfl
        · exact ⟨⟨rfl, rfl, hp 0 _ rfl, hp 1 _ rfl⟩, rfl, hp 1 _ rfl⟩
        · exact ⟨⟨rfl, rfl, hp 2 _ rfl, hp 3 _ rfl⟩, rfl, hp 3 _ rfl⟩
        · exact ⟨⟨rfl, rfl, hp 4 _ rfl, hp 3 _ rfl⟩, rfl, hp 3 _ rfl⟩)
      (by
        intro e he
        simp only [List.cons_append, List.nil_append, List.mem_cons, List.not_mem_nil, or_false] at he
        rcases he with rfl | rfl | rfl <;> decide)⟩)
    (by decide) (by decide +kernel)
    (fun s k e he => by
      simp only [List.cons_append, List.nil_append, List.mem_cons, List.not_mem_nil, or_false] at he
      rcases he with rfl | rfl | rfl
      · exact ⟨⟨k 0 _ rfl, k 1 _ rfl⟩, k 1 _ rfl⟩
      · exact ⟨⟨k 2 _ rfl, k 3 _ rfl⟩, k 3 _ rfl⟩
      · exact ⟨⟨k 4 _ rfl, k 3 _ rfl⟩, k 3 _ rfl⟩)
    (fun s h e he => by
      simp only [List.cons_append, List.nil_append, List.mem_cons, List.not_mem_nil, or_false] at he
      rcases he with rfl | rfl | rfl
      · exact ⟨⟨rfl, h 0 _ rfl, h 1 _ rfl⟩, h 1 _ rfl⟩
      · exact ⟨⟨rfl, h 2 _ rfl, h 3 _ rfl⟩, h 3 _ rfl⟩
      · exact ⟨⟨rfl, h 4 _ rfl, h 3 _ rfl⟩, h 3 _ rfl⟩)
  exact ⟨H, vs, s', h1, h2, h3⟩

end REx

/-! ### C55-C57 -/

section
variable {f g h : Bag} {Tf Tg Th : BagTab F}

/-- C55, honest runs. -/
theorem C55_bag_equality_complete (h2 : (2 : F) ≠ 0) (hC : CanCommit E.commit N) (hr : Ready E.commit t)
    (hf : HoldsBagP t f Tf) (hg : HoldsBagP t g Tg) (hn : Tf.nv = Tg.nv) (hN : Tf.nv ≤ N) :
    Completes (B := B) E P N (fun E => BagEq.prove E f g) (fun E => BagEq.verify E (sameBag f) (sameBag g)) t [2 ^ Tf.nv + 2 ^ Tg.nv]
      (fun s => KnownBag s (sameBag f) ∧ KnownBag s (sameBag g))
      (fun s => HoldsBag s P N (sameBag f) Tf ∧ HoldsBag s P N (sameBag g) Tg)
      (∀ z, Tf.weight (fun _ => 1) z = Tg.weight (fun _ => 1) z) := by
  have := fun Φ (hΦ : Φ → _) => bagEq_cmp (B := B) (E := E) (P := P) (N := N) (Sz := True) (Γ := (Facts.none.insBag g Tg).insBag f Tf) (Φ := Φ) hr (bok_of hr hf le_rfl)
    (bok_of hr hg (le_insBag _ _ _)) hn hN h2 hC hΦ
  rw [show (sameBag f).numVars = Tf.nv from hf.nv, show (sameBag g).numVars = Tg.nv from hg.nv] at this
  exact Cmp.completes (this _ id)
    (fun s hi => known_bag hi.1 (known_bag hi.2 known_none)) fun s hv => holds_bag hv.1 (holds_bag hv.2 holds_none)

namespace REx

/-- The bags {2, 3} and {3, 2}. -/
theorem run_bag_equality : ∃ (H : Oracle G (Mle G)) (vs : VState G (Mle G) Unit) (s' : VSt G (Mle G) Unit), VReachable true H vs ∧
    BagEq.verify (env.withH H) ⟨0, 1, 1⟩ ⟨2, 1, 1⟩ vs.st = (.ok (), s') ∧ ClaimsTrue poly 1 s' ∧
    HoldsBag vs.st poly 1 ⟨0, 1, 1⟩ (tab ⟨1, [2, 3]⟩ ⟨1, [1, 1]⟩) ∧ HoldsBag vs.st poly 1 ⟨2, 1, 1⟩ (tab ⟨1, [3, 2]⟩ ⟨1, [1, 1]⟩) := by
  obtain ⟨H, vs, s', h1, h2, h3, hk, hv⟩ := whole (N := 1) [⟨1, [2, 3]⟩, ⟨1, [1, 1]⟩, ⟨1, [3, 2]⟩] (by decide) (by decide)
    (fun hr hp => C55_bag_equality_complete (f := bag 0 1 1) (g := bag 2 1 1) (Tf := tab ⟨1, [2, 3]⟩ ⟨1, [1, 1]⟩) (Tg := tab ⟨1, [3, 2]⟩ ⟨1, [1, 1]⟩)
      two_ne (canCommit 1) hr ⟨rfl, rfl, hp 0 _ rfl, hp 1 _ rfl⟩ ⟨rfl, rfl, hp 2 _ rfl, hp 1 _ rfl⟩ rfl (by decide))
    (by decide)
    (by decide +kernel)
    (fun s k => ⟨⟨k 0 _ rfl, k 1 _ rfl⟩, ⟨k 2 _ rfl, k 1 _ rfl⟩⟩) (fun s h => ⟨⟨rfl, h 0 _ rfl, h 1 _ rfl⟩, ⟨rfl, h 2 _ rfl, h 1 _ rfl⟩⟩)
  exact ⟨H, vs, s', h1, h2, h3, ⟨⟨rfl, hv 0 _ rfl, hv 1 _ rfl⟩, ⟨rfl, hv 2 _ rfl, hv 1 _ rfl⟩⟩⟩

end REx

/-- C56, honest runs. -/
theorem C56_bag_sum_complete (h2 : (2 : F) ≠ 0) (hC : CanCommit E.commit N) (hr : Ready E.commit t)
    (hf : HoldsBagP t f Tf) (hg : HoldsBagP t g Tg) (hh : HoldsBagP t h Th) (hNf : Tf.nv ≤ N) (hNg : Tg.nv ≤ N) (hNh : Th.nv ≤ N) :
    Completes (B := B) E P N (fun E => BagSum.prove E f g h) (fun E => BagSum.verify E (sameBag f) (sameBag g) (sameBag h)) t [2 ^ Tf.nv + 2 ^ Tg.nv + 2 ^ Th.nv]
      (fun s => KnownBag s (sameBag f) ∧ KnownBag s (sameBag g) ∧ KnownBag s (sameBag h))
      (fun s => HoldsBag s P N (sameBag f) Tf ∧ HoldsBag s P N (sameBag g) Tg ∧ HoldsBag s P N (sameBag h) Th)
      (∀ z, Tf.weight (fun _ => 1) z + Tg.weight (fun _ => 1) z = Th.weight (fun _ => 1) z) := by
  have := fun Φ (hΦ : Φ → _) => bagSum_cmp (B := B) (E := E) (P := P) (N := N) (Sz := True) (Γ := ((Facts.none.insBag h Th).insBag g Tg).insBag f Tf) (Φ := Φ) hr (bok_of hr hf le_rfl)
    (bok_of hr hg (le_insBag _ _ _)) (bok_of hr hh ((le_insBag _ _ _).trans (le_insBag _ _ _))) hNf hNg hNh h2 hC hΦ
  rw [show (sameBag f).numVars = Tf.nv from hf.nv, show (sameBag g).numVars = Tg.nv from hg.nv, show (sameBag h).numVars = Th.nv from hh.nv] at this
  exact Cmp.completes (this _ id)
    (fun s hi => known_bag hi.1 (known_bag hi.2.1 (known_bag hi.2.2 known_none))) fun s hv => holds_bag hv.1 (holds_bag hv.2.1 (holds_bag hv.2.2 holds_none))

namespace REx

/-- {2, 3} and {5} add up to {5, 3, 2}, in tables of three sizes. -/
theorem run_bag_sum : ∃ (H : Oracle G (Mle G)) (vs : VState G (Mle G) Unit) (s' : VSt G (Mle G) Unit), VReachable true H vs ∧
    BagSum.verify (env.withH H) ⟨0, 1, 1⟩ ⟨2, 3, 0⟩ ⟨4, 5, 2⟩ vs.st = (.ok (), s') ∧ ClaimsTrue poly 2 s' ∧
    HoldsBag vs.st poly 2 ⟨0, 1, 1⟩ (tab ⟨1, [2, 3]⟩ ⟨1, [1, 1]⟩) ∧
    HoldsBag vs.st poly 2 ⟨2, 3, 0⟩ (tab ⟨0, [5]⟩ ⟨0, [1]⟩) ∧
    HoldsBag vs.st poly 2 ⟨4, 5, 2⟩ (tab ⟨2, [5, 3, 2, 9]⟩ ⟨2, [1, 1, 1, 0]⟩) := by
  obtain ⟨H, vs, s', h1, h2, h3, hk, hv⟩ := whole (N := 2) [⟨1, [2, 3]⟩, ⟨1, [1, 1]⟩, ⟨0, [5]⟩, ⟨0, [1]⟩, ⟨2, [5, 3, 2, 9]⟩, ⟨2, [1, 1, 1, 0]⟩] (by decide) (by decide)
    (fun hr hp => C56_bag_sum_complete (f := bag 0 1 1) (Tf := tab ⟨1, [2, 3]⟩ ⟨1, [1, 1]⟩) (g := bag 2 3 0) (Tg := tab ⟨0, [5]⟩ ⟨0, [1]⟩) (h := bag 4 5 2) (Th := tab ⟨2, [5, 3, 2, 9]⟩ ⟨2, [1, 1, 1, 0]⟩) two_ne (canCommit 2) hr ⟨rfl, rfl, hp 0 _ rfl, hp 1 _ rfl⟩ ⟨rfl, rfl, hp 2 _ rfl, hp 3 _ rfl⟩ ⟨rfl, rfl, hp 4 _ rfl, hp 5 _ rfl⟩ (by decide) (by decide) (by decide))
    (by decide)
    (by decide +kernel)
    (fun s k => ⟨⟨k 0 _ rfl, k 1 _ rfl⟩, ⟨k 2 _ rfl, k 3 _ rfl⟩, ⟨k 4 _ rfl, k 5 _ rfl⟩⟩) (fun s h => ⟨⟨rfl, h 0 _ rfl, h 1 _ rfl⟩, ⟨rfl, h 2 _ rfl, h 3 _ rfl⟩, ⟨rfl, h 4 _ rfl, h 5 _ rfl⟩⟩)
  exact ⟨H, vs, s', h1, h2, h3, ⟨⟨rfl, hv 0 _ rfl, hv 1 _ rfl⟩, ⟨rfl, hv 2 _ rfl, hv 3 _ rfl⟩, ⟨rfl, hv 4 _ rfl, hv 5 _ rfl⟩⟩⟩

end REx

/-- C57, honest runs: the prover computes the multiplicities. -/
theorem C57_inclusion_complete (h2 : (2 : F) ≠ 0) (hC : CanCommit E.commit N) (hr : Ready E.commit t)
    (hf : HoldsBagP t f Tf) (hg : HoldsBagP t g Tg) (hNf : Tf.nv ≤ N) (hNg : Tg.nv ≤ N) :
    Completes (B := B) E P N (fun E => Inclusion.prove E f g) (fun E => Inclusion.verify E (sameBag f) (sameBag g)) t [2 ^ Tf.nv + 2 ^ Tg.nv]
      (fun s => KnownBag s (sameBag f) ∧ KnownBag s (sameBag g))
      (fun s => HoldsBag s P N (sameBag f) Tf ∧ HoldsBag s P N (sameBag g) Tg)
      (Tf.Boolean ∧ Tg.Boolean ∧ ∀ z, Tf.Active z → Tg.Active z) := by
  have := fun Φ (hΦ : Φ → _) => inclusion_cmp (B := B) (E := E) (P := P) (N := N) (Sz := True) (Γ := (Facts.none.insBag g Tg).insBag f Tf) (Φ := Φ) hr (bok_of hr hf le_rfl)
    (bok_of hr hg (le_insBag _ _ _)) hNf hNg h2 hC hΦ
  rw [show (sameBag f).numVars = Tf.nv from hf.nv, show (sameBag g).numVars = Tg.nv from hg.nv] at this
  exact Cmp.completes (this _ id)
    (fun s hi => known_bag hi.1 (known_bag hi.2 known_none)) fun s hv => holds_bag hv.1 (holds_bag hv.2 holds_none)

namespace REx

/-- {2, 2} is included in {3, 2}. -/
theorem run_inclusion : ∃ (H : Oracle G (Mle G)) (vs : VState G (Mle G) Unit) (s' : VSt G (Mle G) Unit), VReachable true H vs ∧
    Inclusion.verify (env.withH H) ⟨0, 1, 1⟩ ⟨2, 1, 1⟩ vs.st = (.ok (), s') ∧ ClaimsTrue poly 1 s' ∧
    HoldsBag vs.st poly 1 ⟨0, 1, 1⟩ (tab ⟨1, [2, 2]⟩ ⟨1, [1, 1]⟩) ∧
    HoldsBag vs.st poly 1 ⟨2, 1, 1⟩ (tab ⟨1, [3, 2]⟩ ⟨1, [1, 1]⟩) := by
  obtain ⟨H, vs, s', h1, h2, h3, hk, hv⟩ := whole (N := 1) [⟨1, [2, 2]⟩, ⟨1, [1, 1]⟩, ⟨1, [3, 2]⟩] (by decide) (by decide)
    (fun hr hp => C57_inclusion_complete (f := bag 0 1 1) (Tf := tab ⟨1, [2, 2]⟩ ⟨1, [1, 1]⟩) (g := bag 2 1 1) (Tg := tab ⟨1, [3, 2]⟩ ⟨1, [1, 1]⟩) two_ne (canCommit 1) hr ⟨rfl, rfl, hp 0 _ rfl, hp 1 _ rfl⟩ ⟨rfl, rfl, hp 2 _ rfl, hp 1 _ rfl⟩ (by decide) (by decide))
    (by decide)
    (by decide +kernel)
    (fun s k => ⟨⟨k 0 _ rfl, k 1 _ rfl⟩, ⟨k 2 _ rfl, k 1 _ rfl⟩⟩) (fun s h => ⟨⟨rfl, h 0 _ rfl, h 1 _ rfl⟩, ⟨rfl, h 2 _ rfl, h 1 _ rfl⟩⟩)
  exact ⟨H, vs, s', h1, h2, h3, ⟨⟨rfl, hv 0 _ rfl, hv 1 _ rfl⟩, ⟨rfl, hv 2 _ rfl, hv 1 _ rfl⟩⟩⟩

end REx

/-- C57, honest runs with given multiplicities. -/
theorem C57_inclusion_advice_complete {m : TPoly} {M : Nat → F} (h2 : (2 : F) ≠ 0) (hC : CanCommit E.commit N) (hr : Ready E.commit t)
    (hf : HoldsBagP t f Tf) (hg : HoldsBagP t g Tg) (hm : HoldsP t m M) (hmn : m.numVars = Tg.nv) (hNf : Tf.nv ≤ N) (hNg : Tg.nv ≤ N) :
    Completes (B := B) E P N (fun E => Inclusion.proveWithAdvice E f g m) (fun E => Inclusion.verifyWithAdvice E (sameBag f) (sameBag g) m.id) t [2 ^ Tf.nv + 2 ^ Tg.nv]
      (fun s => KnownBag s (sameBag f) ∧ KnownBag s (sameBag g) ∧ Known s m.id)
      (fun s => HoldsBag s P N (sameBag f) Tf ∧ HoldsBag s P N (sameBag g) Tg ∧ Holds s P N m.id Tg.nv M)
      (∀ z, Tf.weight (fun _ => 1) z = Tg.weight M z) := by
  have := fun Φ (hΦ : Φ → _) => inclusionAdvice_cmp (B := B) (E := E) (P := P) (N := N) (Sz := True) (Γ := ((Facts.none.ins m.id Tg.nv M).insBag g Tg).insBag f Tf) (Φ := Φ) hr (bok_of hr hf le_rfl)
    (bok_of hr hg (le_insBag _ _ _)) (cok_of hr hmn hm ((le_insBag _ _ _).trans (le_insBag _ _ _))) hNf hNg h2 hC hΦ
  rw [show (sameBag f).numVars = Tf.nv from hf.nv, show (sameBag g).numVars = Tg.nv from hg.nv] at this
  exact Cmp.completes (this _ id)
    (fun s hi => known_bag hi.1 (known_bag hi.2.1 (known_ins hi.2.2 known_none))) fun s hv => holds_bag hv.1 (holds_bag hv.2.1 (holds_ins hv.2.2 holds_none))

namespace REx

/-- {2, 2} is included in {3, 2} with multiplicities 0 and 2. -/
theorem run_inclusion_advice : ∃ (H : Oracle G (Mle G)) (vs : VState G (Mle G) Unit) (s' : VSt G (Mle G) Unit), VReachable true H vs ∧
    Inclusion.verifyWithAdvice (env.withH H) ⟨0, 1, 1⟩ ⟨2, 1, 1⟩ 3 vs.st = (.ok (), s') ∧ ClaimsTrue poly 1 s' ∧
    HoldsBag vs.st poly 1 ⟨0, 1, 1⟩ (tab ⟨1, [2, 2]⟩ ⟨1, [1, 1]⟩) ∧
    HoldsBag vs.st poly 1 ⟨2, 1, 1⟩ (tab ⟨1, [3, 2]⟩ ⟨1, [1, 1]⟩) ∧
    Holds vs.st poly 1 3 1 (fun b => ([0, 2] : List G).getD b 0) := by
  obtain ⟨H, vs, s', h1, h2, h3, hk, hv⟩ := whole (N := 1) [⟨1, [2, 2]⟩, ⟨1, [1, 1]⟩, ⟨1, [3, 2]⟩, ⟨1, [0, 2]⟩] (by decide) (by decide)
    (fun hr hp => C57_inclusion_advice_complete (f := bag 0 1 1) (Tf := tab ⟨1, [2, 2]⟩ ⟨1, [1, 1]⟩) (g := bag 2 1 1) (Tg := tab ⟨1, [3, 2]⟩ ⟨1, [1, 1]⟩) (m := ⟨3, 1⟩) two_ne (canCommit 1) hr ⟨rfl, rfl, hp 0 _ rfl, hp 1 _ rfl⟩ ⟨rfl, rfl, hp 2 _ rfl, hp 1 _ rfl⟩ (hp 3 _ rfl) rfl (by decide) (by decide))
    (by decide)
    (by decide +kernel)
    (fun s k => ⟨⟨k 0 _ rfl, k 1 _ rfl⟩, ⟨k 2 _ rfl, k 1 _ rfl⟩, k 3 _ rfl⟩) (fun s h => ⟨⟨rfl, h 0 _ rfl, h 1 _ rfl⟩, ⟨rfl, h 2 _ rfl, h 1 _ rfl⟩, h 3 _ rfl⟩)
  exact ⟨H, vs, s', h1, h2, h3, ⟨⟨rfl, hv 0 _ rfl, hv 1 _ rfl⟩, ⟨rfl, hv 2 _ rfl, hv 1 _ rfl⟩, hv 3 _ rfl⟩⟩

end REx

/-! ### C59, C60 -/

/-- C59, honest runs. -/
theorem C59_no_zeros_complete (hC : CanCommit E.commit N) (hr : Ready E.commit t)
    (hf : HoldsBagP t f Tf) (hNf : Tf.nv ≤ N) :
    Completes (B := B) E P N (fun E => NoZeros.prove E f) (fun E => NoZeros.verify E (sameBag f)) t []
      (fun s => KnownBag s (sameBag f))
      (fun s => HoldsBag s P N (sameBag f) Tf)
      (∀ i < 2 ^ Tf.nv, Tf.sel i ≠ 0 → Tf.val i ≠ 0) := by
  have := fun Φ (hΦ : Φ → _) => noZeros_cmp (B := B) (E := E) (P := P) (N := N) (Sz := True) (Γ := Facts.none.insBag f Tf) (Φ := Φ) hr (bok_of hr hf le_rfl) hNf hC hΦ
  exact Cmp.completes (this _ id)
    (fun s hi => known_bag hi known_none) fun s hv => holds_bag hv holds_none

namespace REx

/-- The zero in the second row is not active. -/
theorem run_no_zeros : ∃ (H : Oracle G (Mle G)) (vs : VState G (Mle G) Unit) (s' : VSt G (Mle G) Unit), VReachable true H vs ∧
    NoZeros.verify (env.withH H) ⟨0, 1, 1⟩ vs.st = (.ok (), s') ∧ ClaimsTrue poly 1 s' ∧
    HoldsBag vs.st poly 1 ⟨0, 1, 1⟩ (tab ⟨1, [2, 0]⟩ ⟨1, [1, 0]⟩) := by
  obtain ⟨H, vs, s', h1, h2, h3, hk, hv⟩ := whole (N := 1) [⟨1, [2, 0]⟩, ⟨1, [1, 0]⟩] (by decide) (by decide)
    (fun hr hp => C59_no_zeros_complete (f := bag 0 1 1) (Tf := tab ⟨1, [2, 0]⟩ ⟨1, [1, 0]⟩) (canCommit 1) hr ⟨rfl, rfl, hp 0 _ rfl, hp 1 _ rfl⟩ (by decide))
    (by decide)
    (by decide +kernel)
    (fun s k => ⟨k 0 _ rfl, k 1 _ rfl⟩) (fun s h => ⟨rfl, h 0 _ rfl, h 1 _ rfl⟩)
  exact ⟨H, vs, s', h1, h2, h3, ⟨rfl, hv 0 _ rfl, hv 1 _ rfl⟩⟩

end REx

/-- C60, honest runs. -/
theorem C60_selector_valid_complete {m : TPoly} {M : Nat → F} {nv : Nat} (hr : Ready E.commit t) (hm : HoldsP t m M) (hn : m.numVars = nv) :
    Completes (B := B) E P N (fun _ => SelectorValid.prove m) (fun _ => SelectorValid.verify m.id) t []
      (fun s => Known s m.id)
      (fun s => Holds s P N m.id nv M)
      (∀ i < 2 ^ nv, M i = 0 ∨ M i = 1) := by
  have := fun Φ (hΦ : Φ → _) => selectorValid_cmp (B := B) (E := E) (P := P) (N := N) (Sz := True) (Γ := Facts.none.ins m.id nv M) (Φ := Φ) hr (cok_of hr hn hm le_rfl) hΦ
  exact Cmp.completes (this _ id)
    (fun s hi => known_ins hi known_none) fun s hv => holds_ins hv holds_none

namespace REx

/-- The column (1, 0). -/
theorem run_selector_valid : ∃ (H : Oracle G (Mle G)) (vs : VState G (Mle G) Unit) (s' : VSt G (Mle G) Unit), VReachable true H vs ∧
    SelectorValid.verify 0 vs.st = (.ok (), s') ∧ ClaimsTrue poly 1 s' ∧
    Holds vs.st poly 1 0 1 (fun b => ([1, 0] : List G).getD b 0) := by
  obtain ⟨H, vs, s', h1, h2, h3, hk, hv⟩ := whole (N := 1) [⟨1, [1, 0]⟩] (by decide) (by decide)
    (fun hr hp => C60_selector_valid_complete  (m := ⟨0, 1⟩) hr  (hp 0 _ rfl) rfl)
    (by decide)
    (by decide +kernel)
    (fun s k => k 0 _ rfl) (fun s h => h 0 _ rfl)
  exact ⟨H, vs, s', h1, h2, h3, hv 0 _ rfl⟩

end REx

/-! ### C61-C63, C65

The closures of these verifiers only accept points of the dimension of the sorted table, so the claims of the verifier are shown true over the hypercube of
that dimension (the last argument of `Completes`).  The run itself, and its acceptance (C84, C85), do not need it. -/

/-- C61, honest runs, whatever the sizes; the claims of the verifier are true over the hypercube of the tables.  Missing: larger hypercubes, for which they are not. -/
theorem C61_prescribed_permutation_complete_partial {perm : TPoly} {p : Nat → F} (h2 : (2 : F) ≠ 0) (hC : CanCommit E.commit N)
    (hr : Ready E.commit t) (hf : HoldsBagP t f Tf) (hg : HoldsBagP t g Tg) (hn : Tg.nv = Tf.nv) (hp : HoldsP t perm p) (hpn : perm.numVars = Tf.nv) (hN : Tf.nv ≤ N) :
    Completes (B := B) E P N (fun E => PrescPerm.prove E f g perm) (fun E => PrescPerm.verify E (sameBag f) (sameBag g) perm.id) t [0, 2 ^ Tf.nv + 2 ^ Tf.nv]
      (fun s => KnownBag s (sameBag f) ∧ KnownBag s (sameBag g) ∧ Known s perm.id)
      (fun s => HoldsBag s P N (sameBag f) Tf ∧ HoldsBag s P N (sameBag g) Tg ∧ Holds s P N perm.id Tf.nv p)
      (Permutes Tf.nv Tf.val Tg.val p) (N = Tf.nv) := by
  have := fun Φ (hΦ : Φ → _) => prescPerm_cmp (B := B) (E := E) (P := P) (N := N) (Sz := N = Tf.nv) (Γ := ((Facts.none.ins perm.id Tf.nv p).insBag g Tg).insBag f Tf) (Φ := Φ)
    (cf := sameBag f) (cg := sameBag g) hr
    (bok_of hr hf le_rfl).cp (hn ▸ (bok_of hr hg (le_insBag _ _ _)).cp) hf.nv (hg.nv.trans hn) (cok_of hr hpn hp ((le_insBag _ _ _).trans (le_insBag _ _ _))) hN h2 hC id hΦ
  exact Cmp.completes (this _ id)
    (fun s hi => known_bag hi.1 (known_bag hi.2.1 (known_ins hi.2.2 known_none))) fun s hv => holds_bag hv.1 (holds_bag hv.2.1 (holds_ins hv.2.2 holds_none))

namespace REx

/-- (2, 3) is swapped to (3, 2). -/
theorem run_prescribed_permutation : ∃ (H : Oracle G (Mle G)) (vs : VState G (Mle G) Unit) (s' : VSt G (Mle G) Unit), VReachable true H vs ∧
    PrescPerm.verify (env.withH H) ⟨0, 1, 1⟩ ⟨2, 1, 1⟩ 3 vs.st = (.ok (), s') ∧ ClaimsTrue poly 1 s' ∧
    HoldsBag vs.st poly 1 ⟨0, 1, 1⟩ (tab ⟨1, [2, 3]⟩ ⟨1, [1, 1]⟩) ∧
    HoldsBag vs.st poly 1 ⟨2, 1, 1⟩ (tab ⟨1, [3, 2]⟩ ⟨1, [1, 1]⟩) ∧
    Holds vs.st poly 1 3 1 (fun b => ([1, 0] : List G).getD b 0) := by
  obtain ⟨H, vs, s', h1, h2, h3, hk, hv⟩ := whole (N := 1) [⟨1, [2, 3]⟩, ⟨1, [1, 1]⟩, ⟨1, [3, 2]⟩, ⟨1, [1, 0]⟩] (by decide) (by decide)
    (fun hr hp => C61_prescribed_permutation_complete_partial (f := bag 0 1 1) (Tf := tab ⟨1, [2, 3]⟩ ⟨1, [1, 1]⟩) (g := bag 2 1 1) (Tg := tab ⟨1, [3, 2]⟩ ⟨1, [1, 1]⟩) (perm := ⟨3, 1⟩) two_ne (canCommit 1) hr ⟨rfl, rfl, hp 0 _ rfl, hp 1 _ rfl⟩ ⟨rfl, rfl, hp 2 _ rfl, hp 1 _ rfl⟩ rfl (hp 3 _ rfl) rfl (by decide))
    (by decide)
    ⟨fun i => 1 - i, by decide +kernel⟩
    (fun s k => ⟨⟨k 0 _ rfl, k 1 _ rfl⟩, ⟨k 2 _ rfl, k 1 _ rfl⟩, k 3 _ rfl⟩) (fun s h => ⟨⟨rfl, h 0 _ rfl, h 1 _ rfl⟩, ⟨rfl, h 2 _ rfl, h 1 _ rfl⟩, h 3 _ rfl⟩)
  exact ⟨H, vs, s', h1, h2, h3, ⟨⟨rfl, hv 0 _ rfl, hv 1 _ rfl⟩, ⟨rfl, hv 2 _ rfl, hv 1 _ rfl⟩, hv 3 _ rfl⟩⟩

end REx

section
variable {range : Bag} {r M : Nat} {ρ : Nat → F}

/-- C62, honest runs, whatever the sizes; the claims of the verifier are true over the hypercube of the bag.  Missing: larger hypercubes, for which they are not. -/
theorem C62_strict_sort_complete_partial (h2 : (2 : F) ≠ 0) (hC : CanCommit E.commit N) (hr : Ready E.commit t)
    (hf : HoldsBagP t f Tf) (hR : HoldsP t range.poly ρ) (hrn : range.poly.numVars = r) (hN : Tf.nv ≤ N) (hNr : r ≤ N) :
    Completes (B := B) E P N (fun E => StrictSort.prove E f range) (fun E => StrictSort.verify E (sameBag f) (sameBag range)) t (hSort Tf.nv r)
      (fun s => KnownBag s (sameBag f) ∧ Known s range.poly.id)
      (fun s => HoldsBag s P N (sameBag f) Tf ∧ Holds s P N range.poly.id r ρ)
      (SortedIn Tf.nv r Tf.val Tf.sel ρ) (N = Tf.nv) := by
  have := fun Φ (hΦ : Φ → _) => strictSort_cmp (B := B) (E := E) (P := P) (N := N) (Sz := N = Tf.nv) (Γ := (Facts.none.ins range.poly.id r ρ).insBag f Tf) (Φ := Φ)
    (cr := sameBag range) hr (bok_of hr hf le_rfl) (cok_of hr hrn hR (le_insBag _ _ _)) hrn hN hNr h2 hC id hΦ
  exact Cmp.completes (this _ id)
    (fun s hi => known_bag hi.1 (known_ins hi.2 known_none)) fun s hv => holds_bag hv.1 (holds_ins hv.2 holds_none)

namespace REx

/-- (2, 3) is sorted. -/
theorem run_strict_sort : ∃ (H : Oracle G (Mle G)) (vs : VState G (Mle G) Unit) (s' : VSt G (Mle G) Unit), VReachable true H vs ∧
    StrictSort.verify (env.withH H) ⟨0, 1, 1⟩ ⟨2, 1, 1⟩ vs.st = (.ok (), s') ∧ ClaimsTrue poly 1 s' ∧
    HoldsBag vs.st poly 1 ⟨0, 1, 1⟩ (tab ⟨1, [2, 3]⟩ ⟨1, [1, 1]⟩) ∧
    Holds vs.st poly 1 2 1 (fun b => ([0, 1] : List G).getD b 0) := by
  obtain ⟨H, vs, s', h1, h2, h3, hk, hv⟩ := whole (N := 1) [⟨1, [2, 3]⟩, ⟨1, [1, 1]⟩, ⟨1, [0, 1]⟩] (by decide) (by decide)
    (fun hr hp => C62_strict_sort_complete_partial (f := bag 0 1 1) (Tf := tab ⟨1, [2, 3]⟩ ⟨1, [1, 1]⟩) (range := bag 2 1 1) two_ne (canCommit 1) hr ⟨rfl, rfl, hp 0 _ rfl, hp 1 _ rfl⟩ (hp 2 _ rfl) rfl (by decide) (by decide))
    (by decide)
    (sortedIn_of (by decide +kernel))
    (fun s k => ⟨⟨k 0 _ rfl, k 1 _ rfl⟩, k 2 _ rfl⟩) (fun s h => ⟨⟨rfl, h 0 _ rfl, h 1 _ rfl⟩, h 2 _ rfl⟩)
  exact ⟨H, vs, s', h1, h2, h3, ⟨⟨rfl, hv 0 _ rfl, hv 1 _ rfl⟩, hv 2 _ rfl⟩⟩

end REx

/-- C63, honest runs: the support is sorted within the range and has the active values of the bag.  Same restriction on the claims. -/
theorem C63_support_complete (h2 : (2 : F) ≠ 0) (hC : CanCommit E.commit N) (hr : Ready E.commit t)
    (hf : HoldsBagP t f Tf) (hg : HoldsBagP t g Tg) (hR : HoldsP t range.poly ρ) (hrn : range.poly.numVars = r) (hNf : Tf.nv ≤ N) (hNg : Tg.nv ≤ N) (hNr : r ≤ N) :
    Completes (B := B) E P N (fun E => Supp.prove E f g range) (fun E => Supp.verify E (sameBag f) (sameBag g) (sameBag range)) t
      ([2 ^ Tf.nv + 2 ^ Tg.nv] ++ hSort Tg.nv r)
      (fun s => KnownBag s (sameBag f) ∧ KnownBag s (sameBag g) ∧ Known s range.poly.id)
      (fun s => HoldsBag s P N (sameBag f) Tf ∧ HoldsBag s P N (sameBag g) Tg ∧ Holds s P N range.poly.id r ρ)
      (Tf.Boolean ∧ Tg.Boolean ∧ NatsNonzero F (2 ^ Tf.nv) ∧ Tg.Nodup ∧ (∀ z, Tf.Active z ↔ Tg.Active z) ∧ SortedIn Tg.nv r Tg.val Tg.sel ρ) (N = Tg.nv) := by
  have := fun Φ (hΦ : Φ → _) => supp_cmp (B := B) (E := E) (P := P) (N := N) (Sz := N = Tg.nv) (Γ := ((Facts.none.ins range.poly.id r ρ).insBag g Tg).insBag f Tf) (Φ := Φ)
    (cr := sameBag range) hr (bok_of hr hf le_rfl) (bok_of hr hg (le_insBag _ _ _)) (cok_of hr hrn hR ((le_insBag _ _ _).trans (le_insBag _ _ _))) hrn hNf hNg hNr h2 hC id hΦ
  exact Cmp.completes (this _ id)
    (fun s hi => known_bag hi.1 (known_bag hi.2.1 (known_ins hi.2.2 known_none))) fun s hv => holds_bag hv.1 (holds_bag hv.2.1 (holds_ins hv.2.2 holds_none))

namespace REx

/-- The support of {3, 3} is {3}. -/
theorem run_support : ∃ (H : Oracle G (Mle G)) (vs : VState G (Mle G) Unit) (s' : VSt G (Mle G) Unit), VReachable true H vs ∧
    Supp.verify (env.withH H) ⟨0, 1, 1⟩ ⟨2, 3, 1⟩ ⟨3, 1, 1⟩ vs.st = (.ok (), s') ∧ ClaimsTrue poly 1 s' ∧
    HoldsBag vs.st poly 1 ⟨0, 1, 1⟩ (tab ⟨1, [3, 3]⟩ ⟨1, [1, 1]⟩) ∧
    HoldsBag vs.st poly 1 ⟨2, 3, 1⟩ (tab ⟨1, [2, 3]⟩ ⟨1, [0, 1]⟩) ∧
    Holds vs.st poly 1 3 1 (fun b => ([0, 1] : List G).getD b 0) := by
  obtain ⟨H, vs, s', h1, h2, h3, hk, hv⟩ := whole (N := 1) [⟨1, [3, 3]⟩, ⟨1, [1, 1]⟩, ⟨1, [2, 3]⟩, ⟨1, [0, 1]⟩] (by decide) (by decide)
    (fun hr hp => C63_support_complete (f := bag 0 1 1) (Tf := tab ⟨1, [3, 3]⟩ ⟨1, [1, 1]⟩) (g := bag 2 3 1) (Tg := tab ⟨1, [2, 3]⟩ ⟨1, [0, 1]⟩) (range := bag 3 1 1) two_ne (canCommit 1) hr ⟨rfl, rfl, hp 0 _ rfl, hp 1 _ rfl⟩ ⟨rfl, rfl, hp 2 _ rfl, hp 3 _ rfl⟩ (hp 3 _ rfl) rfl (by decide) (by decide) (by decide))
    (by decide)
    ⟨by decide +kernel, by decide +kernel, natsNonzero_mono natsNonzero (by decide), by decide +kernel, by decide +kernel, sortedIn_of (by decide +kernel)⟩
    (fun s k => ⟨⟨k 0 _ rfl, k 1 _ rfl⟩, ⟨k 2 _ rfl, k 3 _ rfl⟩, k 3 _ rfl⟩) (fun s h => ⟨⟨rfl, h 0 _ rfl, h 1 _ rfl⟩, ⟨rfl, h 2 _ rfl, h 3 _ rfl⟩, h 3 _ rfl⟩)
  exact ⟨H, vs, s', h1, h2, h3, ⟨⟨rfl, hv 0 _ rfl, hv 1 _ rfl⟩, ⟨rfl, hv 2 _ rfl, hv 3 _ rfl⟩, hv 3 _ rfl⟩⟩

end REx

/-- C65, honest runs for multisets: 0/1 selectors, active values represented by numbers below `M`, all of which are in the range.  Same restriction on the claims:
`N` is the dimension of the sum of the two bags. -/
theorem C65_disjoint_complete_partial (h2 : (2 : F) ≠ 0) (hC : CanCommit E.commit N) (hr : Ready E.commit t)
    (hf : HoldsBagP t f Tf) (hg : HoldsBagP t g Tg) (hR : HoldsP t range.poly ρ) (hrn : range.poly.numVars = r) (hN : max Tf.nv Tg.nv + 1 ≤ N) (hNr : r ≤ N) :
    Completes (B := B) E P N (fun E => Disjoint.prove E f g range) (fun E => Disjoint.verify E (sameBag f) (sameBag g) (sameBag range)) t (hDisjoint Tf.nv Tg.nv r)
      (fun s => KnownBag s (sameBag f) ∧ KnownBag s (sameBag g) ∧ Known s range.poly.id)
      (fun s => HoldsBag s P N (sameBag f) Tf ∧ HoldsBag s P N (sameBag g) Tg ∧ Holds s P N range.poly.id r ρ)
      (Canonical E.rep ∧ 0 < M ∧ Covers r ρ M ∧ Tf.Below E.rep M ∧ Tg.Below E.rep M ∧ Tf.Boolean ∧ Tg.Boolean ∧ ∀ z, ¬ (Tf.Active z ∧ Tg.Active z)) (N = max Tf.nv Tg.nv + 1) := by
  have := fun Φ (hΦ : Φ → _) => disjoint_cmp (B := B) (E := E) (P := P) (N := N) (Sz := N = max Tf.nv Tg.nv + 1) (Γ := ((Facts.none.ins range.poly.id r ρ).insBag g Tg).insBag f Tf) (Φ := Φ) (M := M)
    (cr := sameBag range) hr (bok_of hr hf le_rfl) (bok_of hr hg (le_insBag _ _ _)) (cok_of hr hrn hR ((le_insBag _ _ _).trans (le_insBag _ _ _))) hrn hN hNr h2 hC id hΦ
  exact Cmp.completes (this _ id)
    (fun s hi => known_bag hi.1 (known_bag hi.2.1 (known_ins hi.2.2 known_none))) fun s hv => holds_bag hv.1 (holds_bag hv.2.1 (holds_ins hv.2.2 holds_none))

namespace REx

/-- {2} and {3, 3} are disjoint. -/
theorem run_disjoint : ∃ (H : Oracle G (Mle G)) (vs : VState G (Mle G) Unit) (s' : VSt G (Mle G) Unit), VReachable true H vs ∧
    Disjoint.verify (env.withH H) ⟨0, 1, 1⟩ ⟨2, 3, 1⟩ ⟨4, 4, 2⟩ vs.st = (.ok (), s') ∧ ClaimsTrue poly 2 s' ∧
    HoldsBag vs.st poly 2 ⟨0, 1, 1⟩ (tab ⟨1, [2, 0]⟩ ⟨1, [1, 0]⟩) ∧
    HoldsBag vs.st poly 2 ⟨2, 3, 1⟩ (tab ⟨1, [3, 3]⟩ ⟨1, [1, 1]⟩) ∧
    Holds vs.st poly 2 4 2 (fun b => ([0, 1, 2, 3] : List G).getD b 0) := by
  obtain ⟨H, vs, s', h1, h2, h3, hk, hv⟩ := whole (N := 2) [⟨1, [2, 0]⟩, ⟨1, [1, 0]⟩, ⟨1, [3, 3]⟩, ⟨1, [1, 1]⟩, ⟨2, [0, 1, 2, 3]⟩] (by decide) (by decide)
    (fun hr hp => C65_disjoint_complete_partial (f := bag 0 1 1) (Tf := tab ⟨1, [2, 0]⟩ ⟨1, [1, 0]⟩) (g := bag 2 3 1) (Tg := tab ⟨1, [3, 3]⟩ ⟨1, [1, 1]⟩) (range := bag 4 4 2) (M := 4) two_ne (canCommit 2) hr ⟨rfl, rfl, hp 0 _ rfl, hp 1 _ rfl⟩ ⟨rfl, rfl, hp 2 _ rfl, hp 3 _ rfl⟩ (hp 4 _ rfl) rfl (by decide) (by decide))
    (by decide)
    ⟨canonical, by decide, by decide +kernel, by decide +kernel, by decide +kernel, by decide +kernel, by decide +kernel, by decide +kernel⟩
    (fun s k => ⟨⟨k 0 _ rfl, k 1 _ rfl⟩, ⟨k 2 _ rfl, k 3 _ rfl⟩, k 4 _ rfl⟩) (fun s h => ⟨⟨rfl, h 0 _ rfl, h 1 _ rfl⟩, ⟨rfl, h 2 _ rfl, h 3 _ rfl⟩, h 4 _ rfl⟩)
  exact ⟨H, vs, s', h1, h2, h3, ⟨⟨rfl, hv 0 _ rfl, hv 1 _ rfl⟩, ⟨rfl, hv 2 _ rfl, hv 3 _ rfl⟩, hv 4 _ rfl⟩⟩

end REx

/-- C65, honest runs for sets: no active value occurs twice.  Same restriction on the claims. -/
theorem C65_set_disjoint_complete_partial (h2 : (2 : F) ≠ 0) (hC : CanCommit E.commit N) (hr : Ready E.commit t)
    (hf : HoldsBagP t f Tf) (hg : HoldsBagP t g Tg) (hR : HoldsP t range.poly ρ) (hrn : range.poly.numVars = r) (hN : max Tf.nv Tg.nv + 1 ≤ N) (hNr : r ≤ N) :
    Completes (B := B) E P N (fun E => SetDisjoint.prove E f g range) (fun E => SetDisjoint.verify E (sameBag f) (sameBag g) (sameBag range)) t
      (hSetDisjoint Tf.nv Tg.nv r)
      (fun s => KnownBag s (sameBag f) ∧ KnownBag s (sameBag g) ∧ Known s range.poly.id)
      (fun s => HoldsBag s P N (sameBag f) Tf ∧ HoldsBag s P N (sameBag g) Tg ∧ Holds s P N range.poly.id r ρ)
      (Canonical E.rep ∧ 0 < M ∧ Covers r ρ M ∧ Tf.Below E.rep M ∧ Tg.Below E.rep M ∧ Tf.Nodup ∧ Tg.Nodup ∧ ∀ z, ¬ (Tf.Active z ∧ Tg.Active z)) (N = max Tf.nv Tg.nv + 1) := by
  have := fun Φ (hΦ : Φ → _) => setDisjoint_cmp (B := B) (E := E) (P := P) (N := N) (Sz := N = max Tf.nv Tg.nv + 1) (Γ := ((Facts.none.ins range.poly.id r ρ).insBag g Tg).insBag f Tf) (Φ := Φ) (M := M)
    (cr := sameBag range) hr (bok_of hr hf le_rfl) (bok_of hr hg (le_insBag _ _ _)) (cok_of hr hrn hR ((le_insBag _ _ _).trans (le_insBag _ _ _))) hrn hN hNr h2 hC id hΦ
  exact Cmp.completes (this _ id)
    (fun s hi => known_bag hi.1 (known_bag hi.2.1 (known_ins hi.2.2 known_none))) fun s hv => holds_bag hv.1 (holds_bag hv.2.1 (holds_ins hv.2.2 holds_none))

namespace REx

/-- {2} and {3, 1} are disjoint. -/
theorem run_set_disjoint : ∃ (H : Oracle G (Mle G)) (vs : VState G (Mle G) Unit) (s' : VSt G (Mle G) Unit), VReachable true H vs ∧
    SetDisjoint.verify (env.withH H) ⟨0, 1, 1⟩ ⟨2, 3, 1⟩ ⟨4, 4, 2⟩ vs.st = (.ok (), s') ∧ ClaimsTrue poly 2 s' ∧
    HoldsBag vs.st poly 2 ⟨0, 1, 1⟩ (tab ⟨1, [2, 0]⟩ ⟨1, [1, 0]⟩) ∧
    HoldsBag vs.st poly 2 ⟨2, 3, 1⟩ (tab ⟨1, [3, 1]⟩ ⟨1, [1, 1]⟩) ∧
    Holds vs.st poly 2 4 2 (fun b => ([0, 1, 2, 3] : List G).getD b 0) := by
  obtain ⟨H, vs, s', h1, h2, h3, hk, hv⟩ := whole (N := 2) [⟨1, [2, 0]⟩, ⟨1, [1, 0]⟩, ⟨1, [3, 1]⟩, ⟨1, [1, 1]⟩, ⟨2, [0, 1, 2, 3]⟩] (by decide) (by decide)
    (fun hr hp => C65_set_disjoint_complete_partial (f := bag 0 1 1) (Tf := tab ⟨1, [2, 0]⟩ ⟨1, [1, 0]⟩) (g := bag 2 3 1) (Tg := tab ⟨1, [3, 1]⟩ ⟨1, [1, 1]⟩) (range := bag 4 4 2) (M := 4) two_ne (canCommit 2) hr ⟨rfl, rfl, hp 0 _ rfl, hp 1 _ rfl⟩ ⟨rfl, rfl, hp 2 _ rfl, hp 3 _ rfl⟩ (hp 4 _ rfl) rfl (by decide) (by decide))
    (by decide)
    ⟨canonical, by decide, by decide +kernel, by decide +kernel, by decide +kernel, by decide +kernel, by decide +kernel, by decide +kernel⟩
    (fun s k => ⟨⟨k 0 _ rfl, k 1 _ rfl⟩, ⟨k 2 _ rfl, k 3 _ rfl⟩, k 4 _ rfl⟩) (fun s h => ⟨⟨rfl, h 0 _ rfl, h 1 _ rfl⟩, ⟨rfl, h 2 _ rfl, h 3 _ rfl⟩, h 4 _ rfl⟩)
  exact ⟨H, vs, s', h1, h2, h3, ⟨⟨rfl, hv 0 _ rfl, hv 1 _ rfl⟩, ⟨rfl, hv 2 _ rfl, hv 3 _ rfl⟩, hv 4 _ rfl⟩⟩

end REx

/-! ### C66 and C69 -/

/-- C66, honest runs of the union check, when the claims are checked over the hypercube of the union.  The union lists every active value of
either input exactly once, sorted within the range. -/
theorem C66_set_union_complete_partial {u : Bag} {Tu : BagTab F} (h2 : (2 : F) ≠ 0) (hC : CanCommit E.commit N) (hr : Ready E.commit t)
    (hf : HoldsBagP t f Tf) (hg : HoldsBagP t g Tg) (hu : HoldsBagP t u Tu) (hR : HoldsP t range.poly ρ) (hrn : range.poly.numVars = r)
    (hN : max Tf.nv Tg.nv + 1 ≤ N) (hNu : Tu.nv ≤ N) (hNr : r ≤ N) :
    Completes (B := B) E P N (fun E => SetUnion.prove E f g u range) (fun E => SetUnion.verify E (sameBag f) (sameBag g) (sameBag u) (sameBag range)) t
      (hUnion Tf.nv Tg.nv Tu.nv r)
      (fun s => KnownBag s (sameBag f) ∧ KnownBag s (sameBag g) ∧ KnownBag s (sameBag u) ∧ Known s range.poly.id)
      (fun s => HoldsBag s P N (sameBag f) Tf ∧ HoldsBag s P N (sameBag g) Tg ∧ HoldsBag s P N (sameBag u) Tu ∧ Holds s P N range.poly.id r ρ)
      (Tf.Boolean ∧ Tg.Boolean ∧ Tu.Boolean ∧ NatsNonzero F (2 ^ (max Tf.nv Tg.nv + 1)) ∧ Tu.Nodup ∧ (∀ z, Tf.Active z ∨ Tg.Active z ↔ Tu.Active z) ∧ SortedIn Tu.nv r Tu.val Tu.sel ρ) (N = Tu.nv) := by
  have := fun Φ (hΦ : Φ → _) => setUnion_cmp (B := B) (E := E) (P := P) (N := N) (Sz := N = Tu.nv) (Γ := (((Facts.none.ins range.poly.id r ρ).insBag u Tu).insBag g Tg).insBag f Tf) (Φ := Φ)
    (cr := sameBag range) hr (bok_of hr hf le_rfl) (bok_of hr hg (le_insBag _ _ _)) (bok_of hr hu ((le_insBag _ _ _).trans (le_insBag _ _ _)))
    (cok_of hr hrn hR (((le_insBag _ _ _).trans (le_insBag _ _ _)).trans (le_insBag _ _ _))) hrn hN hNu hNr h2 hC id hΦ
  exact Cmp.completes (this _ id)
    (fun s hi => known_bag hi.1 (known_bag hi.2.1 (known_bag hi.2.2.1 (known_ins hi.2.2.2 known_none))))
    fun s hv => holds_bag hv.1 (holds_bag hv.2.1 (holds_bag hv.2.2.1 (holds_ins hv.2.2.2 holds_none)))

namespace REx

/-- {2} and {2, 3} have the union {2, 3}. -/
theorem run_set_union : ∃ (H : Oracle G (Mle G)) (vs : VState G (Mle G) Unit) (s' : VSt G (Mle G) Unit), VReachable true H vs ∧
    SetUnion.verify (env.withH H) ⟨0, 1, 1⟩ ⟨2, 3, 1⟩ ⟨4, 5, 2⟩ ⟨6, 6, 2⟩ vs.st = (.ok (), s') ∧ ClaimsTrue poly 2 s' ∧
    HoldsBag vs.st poly 2 ⟨0, 1, 1⟩ (tab ⟨1, [2, 0]⟩ ⟨1, [1, 0]⟩) ∧
    HoldsBag vs.st poly 2 ⟨2, 3, 1⟩ (tab ⟨1, [2, 3]⟩ ⟨1, [1, 1]⟩) ∧
    HoldsBag vs.st poly 2 ⟨4, 5, 2⟩ (tab ⟨2, [0, 0, 2, 3]⟩ ⟨2, [0, 0, 1, 1]⟩) ∧
    Holds vs.st poly 2 6 2 (fun b => ([0, 1, 2, 3] : List G).getD b 0) := by
  obtain ⟨H, vs, s', h1, h2, h3, hk, hv⟩ := whole (N := 2) [⟨1, [2, 0]⟩, ⟨1, [1, 0]⟩, ⟨1, [2, 3]⟩, ⟨1, [1, 1]⟩, ⟨2, [0, 0, 2, 3]⟩, ⟨2, [0, 0, 1, 1]⟩, ⟨2, [0, 1, 2, 3]⟩] (by decide) (by decide)
    (fun hr hp => C66_set_union_complete_partial (f := bag 0 1 1) (Tf := tab ⟨1, [2, 0]⟩ ⟨1, [1, 0]⟩) (g := bag 2 3 1) (Tg := tab ⟨1, [2, 3]⟩ ⟨1, [1, 1]⟩) (u := bag 4 5 2) (Tu := tab ⟨2, [0, 0, 2, 3]⟩ ⟨2, [0, 0, 1, 1]⟩) (range := bag 6 6 2) two_ne (canCommit 2) hr ⟨rfl, rfl, hp 0 _ rfl, hp 1 _ rfl⟩ ⟨rfl, rfl, hp 2 _ rfl, hp 3 _ rfl⟩ ⟨rfl, rfl, hp 4 _ rfl, hp 5 _ rfl⟩ (hp 6 _ rfl) rfl (by decide) (by decide) (by decide))
    (by decide)
    ⟨by decide +kernel, by decide +kernel, by decide +kernel, natsNonzero_mono natsNonzero (by decide), by decide +kernel, by decide +kernel, sortedIn_of (by decide +kernel)⟩
    (fun s k => ⟨⟨k 0 _ rfl, k 1 _ rfl⟩, ⟨k 2 _ rfl, k 3 _ rfl⟩, ⟨k 4 _ rfl, k 5 _ rfl⟩, k 6 _ rfl⟩) (fun s h => ⟨⟨rfl, h 0 _ rfl, h 1 _ rfl⟩, ⟨rfl, h 2 _ rfl, h 3 _ rfl⟩, ⟨rfl, h 4 _ rfl, h 5 _ rfl⟩, h 6 _ rfl⟩)
  exact ⟨H, vs, s', h1, h2, h3, ⟨⟨rfl, hv 0 _ rfl, hv 1 _ rfl⟩, ⟨rfl, hv 2 _ rfl, hv 3 _ rfl⟩, ⟨rfl, hv 4 _ rfl, hv 5 _ rfl⟩, hv 6 _ rfl⟩⟩

end REx

/-- C66, honest runs of the difference check, when the claims are checked over the hypercube of the sum of `l` and `g`: `l` holds the values of
`f` outside `g`, `m` the common ones, `μ` how often each row of `g` is in `m`. -/
theorem C66_set_diff_complete_partial {l m : Bag} {Tl Tm : BagTab F} {mm : TPoly} {μ : Nat → F} (h2 : (2 : F) ≠ 0) (hC : CanCommit E.commit N)
    (hr : Ready E.commit t) (hf : HoldsBagP t f Tf) (hg : HoldsBagP t g Tg) (hl : HoldsBagP t l Tl) (hm : HoldsBagP t m Tm) (hmn : mm.numVars = Tg.nv)
    (hmm : HoldsP t mm μ) (hR : HoldsP t range.poly ρ) (hrn : range.poly.numVars = r)
    (hN : max Tl.nv Tg.nv + 1 ≤ N) (hNf : Tf.nv ≤ N) (hNm : Tm.nv ≤ N) (hNr : r ≤ N) :
    Completes (B := B) E P N (fun E => SetDiff.prove E f g l m mm range)
      (fun E => SetDiff.verify E (sameBag f) (sameBag g) (sameBag l) (sameBag m) mm.id (sameBag range)) t (hDiff Tf.nv Tg.nv Tl.nv Tm.nv r)
      (fun s => KnownBag s (sameBag f) ∧ KnownBag s (sameBag g) ∧ KnownBag s (sameBag l) ∧ KnownBag s (sameBag m) ∧ Known s mm.id ∧ Known s range.poly.id)
      (fun s => HoldsBag s P N (sameBag f) Tf ∧ HoldsBag s P N (sameBag g) Tg ∧ HoldsBag s P N (sameBag l) Tl ∧ HoldsBag s P N (sameBag m) Tm ∧ Holds s P N mm.id Tg.nv μ ∧ Holds s P N range.poly.id r ρ)
      ((Canonical E.rep ∧ 0 < M ∧ Covers r ρ M ∧ Tl.Below E.rep M ∧ Tg.Below E.rep M ∧ Tl.Nodup ∧ Tg.Nodup ∧ ∀ z, ¬ (Tl.Active z ∧ Tg.Active z)) ∧ (∀ z, Tl.weight (fun _ => 1) z + Tm.weight (fun _ => 1) z = Tf.weight (fun _ => 1) z) ∧ ∀ z, Tm.weight (fun _ => 1) z = Tg.weight μ z) (N = max Tl.nv Tg.nv + 1) := by
  have := fun Φ (hΦ : Φ → _) => setDiff_cmp (B := B) (E := E) (P := P) (N := N)
    (Γ := (((((Facts.none.ins range.poly.id r ρ).ins mm.id Tg.nv μ).insBag m Tm).insBag l Tl).insBag g Tg).insBag f Tf) (Φ := Φ) (M := M)
    (cr := sameBag range) hr (bok_of hr hf le_rfl) (bok_of hr hg (le_insBag _ _ _)) (bok_of hr hl ((le_insBag _ _ _).trans (le_insBag _ _ _)))
    (bok_of hr hm (((le_insBag _ _ _).trans (le_insBag _ _ _)).trans (le_insBag _ _ _)))
    (cok_of hr hmn hmm ((((le_insBag _ _ _).trans (le_insBag _ _ _)).trans (le_insBag _ _ _)).trans (le_insBag _ _ _)))
    (cok_of hr hrn hR ((Facts.le_ins _ _ _ _).trans ((((le_insBag _ _ _).trans (le_insBag _ _ _)).trans (le_insBag _ _ _)).trans (le_insBag _ _ _))))
    hrn hN hNf hNm hNr h2 hC id hΦ
  exact Cmp.completes (this _ id)
    (fun s ⟨k1, k2, k3, k4, k5, k6⟩ => known_bag k1 (known_bag k2 (known_bag k3 (known_bag k4 (known_ins k5 (known_ins k6 known_none))))))
    fun s ⟨k1, k2, k3, k4, k5, k6⟩ => holds_bag k1 (holds_bag k2 (holds_bag k3 (holds_bag k4 (holds_ins k5 (holds_ins k6 holds_none)))))

namespace REx

/-- {1, 2} without {2, 3} is {1}. -/
theorem run_set_diff : ∃ (H : Oracle G (Mle G)) (vs : VState G (Mle G) Unit) (s' : VSt G (Mle G) Unit), VReachable true H vs ∧
    SetDiff.verify (env.withH H) ⟨0, 1, 1⟩ ⟨2, 1, 1⟩ ⟨0, 3, 1⟩ ⟨4, 3, 1⟩ 3 ⟨5, 5, 2⟩ vs.st = (.ok (), s') ∧ ClaimsTrue poly 2 s' ∧
    HoldsBag vs.st poly 2 ⟨0, 1, 1⟩ (tab ⟨1, [1, 2]⟩ ⟨1, [1, 1]⟩) ∧
    HoldsBag vs.st poly 2 ⟨2, 1, 1⟩ (tab ⟨1, [2, 3]⟩ ⟨1, [1, 1]⟩) ∧
    HoldsBag vs.st poly 2 ⟨0, 3, 1⟩ (tab ⟨1, [1, 2]⟩ ⟨1, [1, 0]⟩) ∧
    HoldsBag vs.st poly 2 ⟨4, 3, 1⟩ (tab ⟨1, [2, 0]⟩ ⟨1, [1, 0]⟩) ∧
    Holds vs.st poly 2 3 1 (fun b => ([1, 0] : List G).getD b 0) ∧
    Holds vs.st poly 2 5 2 (fun b => ([0, 1, 2, 3] : List G).getD b 0) := by
  obtain ⟨H, vs, s', h1, h2, h3, hk, hv⟩ := whole (N := 2) [⟨1, [1, 2]⟩, ⟨1, [1, 1]⟩, ⟨1, [2, 3]⟩, ⟨1, [1, 0]⟩, ⟨1, [2, 0]⟩, ⟨2, [0, 1, 2, 3]⟩] (by decide) (by decide)
    (fun hr hp => C66_set_diff_complete_partial (f := bag 0 1 1) (Tf := tab ⟨1, [1, 2]⟩ ⟨1, [1, 1]⟩) (g := bag 2 1 1) (Tg := tab ⟨1, [2, 3]⟩ ⟨1, [1, 1]⟩) (l := bag 0 3 1) (Tl := tab ⟨1, [1, 2]⟩ ⟨1, [1, 0]⟩) (m := bag 4 3 1) (Tm := tab ⟨1, [2, 0]⟩ ⟨1, [1, 0]⟩) (mm := ⟨3, 1⟩) (range := bag 5 5 2) (M := 4) two_ne (canCommit 2) hr ⟨rfl, rfl, hp 0 _ rfl, hp 1 _ rfl⟩ ⟨rfl, rfl, hp 2 _ rfl, hp 1 _ rfl⟩ ⟨rfl, rfl, hp 0 _ rfl, hp 3 _ rfl⟩ ⟨rfl, rfl, hp 4 _ rfl, hp 3 _ rfl⟩ rfl (hp 3 _ rfl) (hp 5 _ rfl) rfl (by decide) (by decide) (by decide) (by decide))
    (by decide)
    ⟨⟨canonical, by decide, by decide +kernel, by decide +kernel, by decide +kernel, by decide +kernel, by decide +kernel, by decide +kernel⟩, by decide +kernel, by decide +kernel⟩
    (fun s k => ⟨⟨k 0 _ rfl, k 1 _ rfl⟩, ⟨k 2 _ rfl, k 1 _ rfl⟩, ⟨k 0 _ rfl, k 3 _ rfl⟩, ⟨k 4 _ rfl, k 3 _ rfl⟩, k 3 _ rfl, k 5 _ rfl⟩) (fun s h => ⟨⟨rfl, h 0 _ rfl, h 1 _ rfl⟩, ⟨rfl, h 2 _ rfl, h 1 _ rfl⟩, ⟨rfl, h 0 _ rfl, h 3 _ rfl⟩, ⟨rfl, h 4 _ rfl, h 3 _ rfl⟩, h 3 _ rfl, h 5 _ rfl⟩)
  exact ⟨H, vs, s', h1, h2, h3, ⟨⟨rfl, hv 0 _ rfl, hv 1 _ rfl⟩, ⟨rfl, hv 2 _ rfl, hv 1 _ rfl⟩, ⟨rfl, hv 0 _ rfl, hv 3 _ rfl⟩, ⟨rfl, hv 4 _ rfl, hv 3 _ rfl⟩, hv 3 _ rfl, hv 5 _ rfl⟩⟩

end REx

/-- C66, honest runs of the intersection check, when the claims are checked over the hypercube of the sum of `l` and `d`: `l` holds the rows only in
`f`, `m` the common ones and `d` those only in `g`. -/
theorem C66_set_intersect_complete_partial {l m d : Bag} {Tl Tm Td : BagTab F} (h2 : (2 : F) ≠ 0) (hC : CanCommit E.commit N)
    (hr : Ready E.commit t) (hf : HoldsBagP t f Tf) (hg : HoldsBagP t g Tg) (hl : HoldsBagP t l Tl) (hm : HoldsBagP t m Tm) (hd : HoldsBagP t d Td)
    (hR : HoldsP t range.poly ρ) (hrn : range.poly.numVars = r)
    (hN : max Tl.nv Td.nv + 1 ≤ N) (hNf : Tf.nv ≤ N) (hNg : Tg.nv ≤ N) (hNm : Tm.nv ≤ N) (hNr : r ≤ N) :
    Completes (B := B) E P N (fun E => SetIntersect.prove E f g l m d range)
      (fun E => SetIntersect.verify E (sameBag f) (sameBag g) (sameBag l) (sameBag m) (sameBag d) (sameBag range)) t
      (hIntersect Tf.nv Tg.nv Tl.nv Tm.nv Td.nv r)
      (fun s => KnownBag s (sameBag f) ∧ KnownBag s (sameBag g) ∧ KnownBag s (sameBag l) ∧ KnownBag s (sameBag m) ∧ KnownBag s (sameBag d) ∧ Known s range.poly.id)
      (fun s => HoldsBag s P N (sameBag f) Tf ∧ HoldsBag s P N (sameBag g) Tg ∧ HoldsBag s P N (sameBag l) Tl ∧ HoldsBag s P N (sameBag m) Tm ∧ HoldsBag s P N (sameBag d) Td ∧ Holds s P N range.poly.id r ρ)
      ((Canonical E.rep ∧ 0 < M ∧ Covers r ρ M ∧ Tl.Below E.rep M ∧ Td.Below E.rep M ∧ Tl.Nodup ∧ Td.Nodup ∧ ∀ z, ¬ (Tl.Active z ∧ Td.Active z)) ∧ (∀ z, Tl.weight (fun _ => 1) z + Tm.weight (fun _ => 1) z = Tf.weight (fun _ => 1) z) ∧ ∀ z, Tm.weight (fun _ => 1) z + Td.weight (fun _ => 1) z = Tg.weight (fun _ => 1) z) (N = max Tl.nv Td.nv + 1) := by
  have := fun Φ (hΦ : Φ → _) => setIntersect_cmp (B := B) (E := E) (P := P) (N := N)
    (Γ := (((((Facts.none.ins range.poly.id r ρ).insBag d Td).insBag m Tm).insBag l Tl).insBag g Tg).insBag f Tf) (Φ := Φ) (M := M)
    (cr := sameBag range) hr (bok_of hr hf le_rfl) (bok_of hr hg (le_insBag _ _ _)) (bok_of hr hl ((le_insBag _ _ _).trans (le_insBag _ _ _)))
    (bok_of hr hm (((le_insBag _ _ _).trans (le_insBag _ _ _)).trans (le_insBag _ _ _)))
    (bok_of hr hd ((((le_insBag _ _ _).trans (le_insBag _ _ _)).trans (le_insBag _ _ _)).trans (le_insBag _ _ _)))
    (cok_of hr hrn hR (((((le_insBag _ _ _).trans (le_insBag _ _ _)).trans (le_insBag _ _ _)).trans (le_insBag _ _ _)).trans (le_insBag _ _ _)))
    hrn hN hNf hNg hNm hNr h2 hC id hΦ
  exact Cmp.completes (this _ id)
    (fun s ⟨k1, k2, k3, k4, k5, k6⟩ => known_bag k1 (known_bag k2 (known_bag k3 (known_bag k4 (known_bag k5 (known_ins k6 known_none))))))
    fun s ⟨k1, k2, k3, k4, k5, k6⟩ => holds_bag k1 (holds_bag k2 (holds_bag k3 (holds_bag k4 (holds_bag k5 (holds_ins k6 holds_none)))))

namespace REx

/-- {1, 2} and {2, 3} have only 2 in common. -/
theorem run_set_intersect : ∃ (H : Oracle G (Mle G)) (vs : VState G (Mle G) Unit) (s' : VSt G (Mle G) Unit), VReachable true H vs ∧
    SetIntersect.verify (env.withH H) ⟨0, 1, 1⟩ ⟨2, 1, 1⟩ ⟨0, 3, 1⟩ ⟨4, 3, 1⟩ ⟨5, 3, 1⟩ ⟨6, 6, 2⟩ vs.st = (.ok (), s') ∧ ClaimsTrue poly 2 s' ∧
    HoldsBag vs.st poly 2 ⟨0, 1, 1⟩ (tab ⟨1, [1, 2]⟩ ⟨1, [1, 1]⟩) ∧
    HoldsBag vs.st poly 2 ⟨2, 1, 1⟩ (tab ⟨1, [2, 3]⟩ ⟨1, [1, 1]⟩) ∧
    HoldsBag vs.st poly 2 ⟨0, 3, 1⟩ (tab ⟨1, [1, 2]⟩ ⟨1, [1, 0]⟩) ∧
    HoldsBag vs.st poly 2 ⟨4, 3, 1⟩ (tab ⟨1, [2, 0]⟩ ⟨1, [1, 0]⟩) ∧
    HoldsBag vs.st poly 2 ⟨5, 3, 1⟩ (tab ⟨1, [3, 0]⟩ ⟨1, [1, 0]⟩) ∧
    Holds vs.st poly 2 6 2 (fun b => ([0, 1, 2, 3] : List G).getD b 0) := by
  obtain ⟨H, vs, s', h1, h2, h3, hk, hv⟩ := whole (N := 2) [⟨1, [1, 2]⟩, ⟨1, [1, 1]⟩, ⟨1, [2, 3]⟩, ⟨1, [1, 0]⟩, ⟨1, [2, 0]⟩, ⟨1, [3, 0]⟩, ⟨2, [0, 1, 2, 3]⟩] (by decide) (by decide)
    (fun hr hp => C66_set_intersect_complete_partial (f := bag 0 1 1) (Tf := tab ⟨1, [1, 2]⟩ ⟨1, [1, 1]⟩) (g := bag 2 1 1) (Tg := tab ⟨1, [2, 3]⟩ ⟨1, [1, 1]⟩) (l := bag 0 3 1) (Tl := tab ⟨1, [1, 2]⟩ ⟨1, [1, 0]⟩) (m := bag 4 3 1) (Tm := tab ⟨1, [2, 0]⟩ ⟨1, [1, 0]⟩) (d := bag 5 3 1) (Td := tab ⟨1, [3, 0]⟩ ⟨1, [1, 0]⟩) (range := bag 6 6 2) (M := 4) two_ne (canCommit 2) hr ⟨rfl, rfl, hp 0 _ rfl, hp 1 _ rfl⟩ ⟨rfl, rfl, hp 2 _ rfl, hp 1 _ rfl⟩ ⟨rfl, rfl, hp 0 _ rfl, hp 3 _ rfl⟩ ⟨rfl, rfl, hp 4 _ rfl, hp 3 _ rfl⟩ ⟨rfl, rfl, hp 5 _ rfl, hp 3 _ rfl⟩ (hp 6 _ rfl) rfl (by decide) (by decide) (by decide) (by decide) (by decide))
    (by decide)
    ⟨⟨canonical, by decide, by decide +kernel, by decide +kernel, by decide +kernel, by decide +kernel, by decide +kernel, by decide +kernel⟩, by decide +kernel, by decide +kernel⟩
    (fun s k => ⟨⟨k 0 _ rfl, k 1 _ rfl⟩, ⟨k 2 _ rfl, k 1 _ rfl⟩, ⟨k 0 _ rfl, k 3 _ rfl⟩, ⟨k 4 _ rfl, k 3 _ rfl⟩, ⟨k 5 _ rfl, k 3 _ rfl⟩, k 6 _ rfl⟩) (fun s h => ⟨⟨rfl, h 0 _ rfl, h 1 _ rfl⟩, ⟨rfl, h 2 _ rfl, h 1 _ rfl⟩, ⟨rfl, h 0 _ rfl, h 3 _ rfl⟩, ⟨rfl, h 4 _ rfl, h 3 _ rfl⟩, ⟨rfl, h 5 _ rfl, h 3 _ rfl⟩, h 6 _ rfl⟩)
  exact ⟨H, vs, s', h1, h2, h3, ⟨⟨rfl, hv 0 _ rfl, hv 1 _ rfl⟩, ⟨rfl, hv 2 _ rfl, hv 1 _ rfl⟩, ⟨rfl, hv 0 _ rfl, hv 3 _ rfl⟩, ⟨rfl, hv 4 _ rfl, hv 3 _ rfl⟩, ⟨rfl, hv 5 _ rfl, hv 3 _ rfl⟩, hv 6 _ rfl⟩⟩

end REx

/-- C69, honest runs: 0/1 selectors marking exactly the active rows whose key is not active in the other table.  Both tables must have dimension `N - 1`. -/
theorem C69_join_reduction_complete {lSel rSel : TPoly} {ll lr : Nat → F} (h2 : (2 : F) ≠ 0) (hC : CanCommit E.commit N)
    (hr : Ready E.commit t) (hf : HoldsBagP t f Tf) (hg : HoldsBagP t g Tg) (hln : lSel.numVars = Tf.nv) (hl : HoldsP t lSel ll)
    (hsn : rSel.numVars = Tg.nv) (hs : HoldsP t rSel lr)
    (hR : HoldsP t range.poly ρ) (hrn : range.poly.numVars = r) (hN : max Tf.nv Tg.nv + 1 ≤ N) (hNr : r ≤ N) :
    Completes (B := B) E P N (fun E => JoinReduction.prove E f g lSel rSel range)
      (fun E => JoinReduction.verify E (sameBag f) (sameBag g) lSel.id rSel.id (sameBag range)) t (hJoin Tf.nv Tg.nv r)
      (fun s => KnownBag s (sameBag f) ∧ KnownBag s (sameBag g) ∧ Known s lSel.id ∧ Known s rSel.id ∧ Known s range.poly.id)
      (fun s => HoldsBag s P N (sameBag f) Tf ∧ HoldsBag s P N (sameBag g) Tg ∧ Holds s P N lSel.id Tf.nv ll ∧ Holds s P N rSel.id Tg.nv lr ∧ Holds s P N range.poly.id r ρ)
      (Canonical E.rep ∧ 0 < M ∧ Covers r ρ M ∧ Tf.Below E.rep M ∧ Tg.Below E.rep M ∧ Tf.Boolean ∧ Tg.Boolean ∧ (∀ i < 2 ^ Tf.nv, ll i = 0 ∨ ll i = 1) ∧ (∀ i < 2 ^ Tg.nv, lr i = 0 ∨ lr i = 1) ∧ (∀ i < 2 ^ Tf.nv, Tf.sel i ≠ 0 → (ll i ≠ 0 ↔ ¬ Tg.Active (Tf.val i))) ∧ (∀ i < 2 ^ Tg.nv, Tg.sel i ≠ 0 → (lr i ≠ 0 ↔ ¬ Tf.Active (Tg.val i)))) (N = Tf.nv + 1 ∧ N = Tg.nv + 1) := by
  have := fun Φ (hΦ : Φ → _) => joinReduction_cmp (B := B) (E := E) (P := P) (N := N)
    (Γ := ((((Facts.none.ins range.poly.id r ρ).ins rSel.id Tg.nv lr).ins lSel.id Tf.nv ll).insBag g Tg).insBag f Tf) (Φ := Φ) (M := M)
    (cr := sameBag range) hr (bok_of hr hf le_rfl) (bok_of hr hg (le_insBag _ _ _)) (cok_of hr hln hl ((le_insBag _ _ _).trans (le_insBag _ _ _)))
    (cok_of hr hsn hs ((Facts.le_ins _ _ _ _).trans ((le_insBag _ _ _).trans (le_insBag _ _ _))))
    (cok_of hr hrn hR (((Facts.le_ins _ _ _ _).trans (Facts.le_ins _ _ _ _)).trans ((le_insBag _ _ _).trans (le_insBag _ _ _))))
    hrn hN hNr h2 hC id hΦ
  exact Cmp.completes (this _ id)
    (fun s ⟨k1, k2, k3, k4, k5⟩ => known_bag k1 (known_bag k2 (known_ins k3 (known_ins k4 (known_ins k5 known_none)))))
    fun s ⟨k1, k2, k3, k4, k5⟩ => holds_bag k1 (holds_bag k2 (holds_ins k3 (holds_ins k4 (holds_ins k5 holds_none))))

namespace REx

/-- Of the keys 1, 2 and 2, 2 only 1 is without partner. -/
theorem run_join_reduction : ∃ (H : Oracle G (Mle G)) (vs : VState G (Mle G) Unit) (s' : VSt G (Mle G) Unit), VReachable true H vs ∧
    JoinReduction.verify (env.withH H) ⟨0, 1, 1⟩ ⟨2, 1, 1⟩ 3 4 ⟨5, 5, 2⟩ vs.st = (.ok (), s') ∧ ClaimsTrue poly 2 s' ∧
    HoldsBag vs.st poly 2 ⟨0, 1, 1⟩ (tab ⟨1, [1, 2]⟩ ⟨1, [1, 1]⟩) ∧
    HoldsBag vs.st poly 2 ⟨2, 1, 1⟩ (tab ⟨1, [2, 2]⟩ ⟨1, [1, 1]⟩) ∧
    Holds vs.st poly 2 3 1 (fun b => ([1, 0] : List G).getD b 0) ∧
    Holds vs.st poly 2 4 1 (fun b => ([0, 0] : List G).getD b 0) ∧
    Holds vs.st poly 2 5 2 (fun b => ([0, 1, 2, 3] : List G).getD b 0) := by
  obtain ⟨H, vs, s', h1, h2, h3, hk, hv⟩ := whole (N := 2) [⟨1, [1, 2]⟩, ⟨1, [1, 1]⟩, ⟨1, [2, 2]⟩, ⟨1, [1, 0]⟩, ⟨1, [0, 0]⟩, ⟨2, [0, 1, 2, 3]⟩] (by decide) (by decide)
    (fun hr hp => C69_join_reduction_complete (f := bag 0 1 1) (Tf := tab ⟨1, [1, 2]⟩ ⟨1, [1, 1]⟩) (g := bag 2 1 1) (Tg := tab ⟨1, [2, 2]⟩ ⟨1, [1, 1]⟩) (lSel := ⟨3, 1⟩) (rSel := ⟨4, 1⟩) (range := bag 5 5 2) (M := 4) two_ne (canCommit 2) hr ⟨rfl, rfl, hp 0 _ rfl, hp 1 _ rfl⟩ ⟨rfl, rfl, hp 2 _ rfl, hp 1 _ rfl⟩ rfl (hp 3 _ rfl) rfl (hp 4 _ rfl) (hp 5 _ rfl) rfl (by decide) (by decide))
    (by decide)
    ⟨canonical, by decide, by decide +kernel, by decide +kernel, by decide +kernel, by decide +kernel, by decide +kernel, by decide +kernel, by decide +kernel, by decide +kernel, by decide +kernel⟩
    (fun s k => ⟨⟨k 0 _ rfl, k 1 _ rfl⟩, ⟨k 2 _ rfl, k 1 _ rfl⟩, k 3 _ rfl, k 4 _ rfl, k 5 _ rfl⟩) (fun s h => ⟨⟨rfl, h 0 _ rfl, h 1 _ rfl⟩, ⟨rfl, h 2 _ rfl, h 1 _ rfl⟩, h 3 _ rfl, h 4 _ rfl, h 5 _ rfl⟩)
  exact ⟨H, vs, s', h1, h2, h3, ⟨⟨rfl, hv 0 _ rfl, hv 1 _ rfl⟩, ⟨rfl, hv 2 _ rfl, hv 1 _ rfl⟩, hv 3 _ rfl, hv 4 _ rfl, hv 5 _ rfl⟩⟩

end REx

end
end

end Zksql
