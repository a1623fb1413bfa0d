import Verif.Lemmas.BagSound
/-! From values on the large hypercube to the contents of bags. -/
set_option linter.unusedSectionVars false
namespace Zksql
open Spec
variable {F C B : Type} [Field F] [DecidableEq F]
variable {E : Env F C} {s s1 s2 s' : VSt F C B} {N : Nat} {P : C → List F → F}

/-- The table repeated. -/
def rep (nv : Nat) (T : Nat → F) (b : Nat) : F := T (b % 2 ^ nv)

theorem Spec.HoldsBag.vpoly {b : BagComm} {t : BagTab F} (h : HoldsBag s P N b t) : Vals s P N b.poly (rep t.nv t.val) := h.val.2
theorem Spec.HoldsBag.vsel {b : BagComm} {t : BagTab F} (h : HoldsBag s P N b t) : Vals s P N b.selector (rep t.nv t.sel) := h.sel.2
theorem Spec.HoldsBag.le {b : BagComm} {t : BagTab F} (h : HoldsBag s P N b t) : t.nv ≤ N := h.val.1

theorem weight_eq (t : BagTab F) (m : Nat → F) (z : F) : t.weight m z = cw t.nv t.val (fun b => m b * t.sel b) z := rfl

theorem weight_one (t : BagTab F) (z : F) : t.weight (fun _ => 1) z = cw t.nv t.val t.sel z := by
  rw [weight_eq]; simp only [one_mul]

theorem scl_rep (h2 : (2 : F) ≠ 0) {nv top : Nat} (h : nv ≤ N) (ht : nv ≤ top) (T w : Nat → F) (z : F) :
    scl F top nv * cw N (rep nv T) (rep nv w) z = 2 ^ N * ((2 : F) ^ top)⁻¹ * cw nv T w z := by
  rw [show cw N (rep nv T) (rep nv w) z = _ from cw_mod h T w z]
  exact scale_mod h2 h ht _

theorem scl_ne (h2 : (2 : F) ≠ 0) (a b : Nat) : scl F a b ≠ 0 := inv_ne_zero (pow_ne_zero _ h2)

theorem lead_ne (h2 : (2 : F) ≠ 0) (a b : Nat) : (2 : F) ^ a * ((2 : F) ^ b)⁻¹ ≠ 0 := mul_ne_zero (pow_ne_zero _ h2) (inv_ne_zero (pow_ne_zero _ h2))

theorem img_rep {nv : Nat} (h : nv ≤ N) (T : Nat → F) : (imgOf N (rep nv T)).card ≤ 2 ^ nv := image_mod h T

/-! ### Counting -/

theorem count_eq_card (t : BagTab F) (z : F) : t.count z = ((Finset.range (2 ^ t.nv)).filter fun i => t.sel i ≠ 0 ∧ t.val i = z).card := by
  unfold BagTab.count
  rw [show (Finset.range (2 ^ t.nv)).filter (fun i => t.sel i ≠ 0 ∧ t.val i = z) =
    ((List.range (2 ^ t.nv)).filter fun i => decide (t.sel i ≠ 0 ∧ t.val i = z)).toFinset by
      ext i; simp]
  rw [List.toFinset_card_of_nodup (List.nodup_range.filter _)]

theorem count_le (t : BagTab F) (z : F) : t.count z ≤ 2 ^ t.nv := by
  rw [count_eq_card]
  exact (Finset.card_filter_le _ _).trans (by simp)

theorem count_pos {t : BagTab F} {z : F} : 0 < t.count z ↔ t.Active z := by
  rw [count_eq_card, Finset.card_pos]
  constructor
  · rintro ⟨i, hi⟩
    simp only [Finset.mem_filter, Finset.mem_range] at hi
    exact ⟨i, hi.1, hi.2⟩
  · rintro ⟨i, hi⟩
    exact ⟨i, by simp only [Finset.mem_filter, Finset.mem_range]; exact hi⟩

theorem weight_count {t : BagTab F} (hb : t.Boolean) (z : F) : t.weight (fun _ => 1) z = (t.count z : F) := by
  rw [count_eq_card, Finset.natCast_card_filter, weight_one]
  refine Finset.sum_congr rfl fun i hi => ?_
  rcases hb i (Finset.mem_range.1 hi) with h | h <;> simp [h]

theorem active_of_weight {t : BagTab F} {m : Nat → F} {z : F} (h : t.weight m z ≠ 0) : t.Active z := by
  obtain ⟨b, hb, hz, hw⟩ := cw_ne_zero (N := t.nv) h
  exact ⟨b, hb, right_ne_zero_of_mul hw, hz⟩

theorem natCast_inj_of {n a b : Nat} (hn : NatsNonzero F n) (ha : a ≤ n) (hb : b ≤ n) (h : (a : F) = b) : a = b := by
  rcases Nat.lt_trichotomy a b with hab | hab | hab
  · exact absurd (by rw [Nat.cast_sub hab.le, h, sub_self]) (hn (b - a) (by omega) (by omega))
  · exact hab
  · exact absurd (by rw [Nat.cast_sub hab.le, h, sub_self]) (hn (a - b) (by omega) (by omega))

theorem Spec.NatsNonzero.mono {n m : Nat} (h : NatsNonzero F n) (hm : m ≤ n) : NatsNonzero F m := fun i hi hl => h i hi (hl.trans hm)

theorem active_iff_weight {t : BagTab F} (hb : t.Boolean) (hn : NatsNonzero F (2 ^ t.nv)) (z : F) : t.Active z ↔ t.weight (fun _ => 1) z ≠ 0 := by
  refine ⟨fun h => ?_, active_of_weight⟩
  rw [weight_count hb]
  exact hn _ (count_pos.2 h) (count_le t z)

theorem nodup_count {t : BagTab F} (hd : t.Nodup) (z : F) : t.count z ≤ 1 := by
  rw [count_eq_card, Finset.card_le_one]
  intro a ha b hb
  simp only [Finset.mem_filter, Finset.mem_range] at ha hb
  exact hd a ha.1 b hb.1 ha.2.1 hb.2.1 (ha.2.2.trans hb.2.2.symm)

/-! ### Sides of a multiset check -/

/-- The tables of a bag with multiplicities, repeated. -/
def perTabs (e : BagTab F × (Nat → F)) : Tabs F := ⟨rep e.1.nv e.1.val, rep e.1.nv e.1.sel, rep e.1.nv e.2⟩

theorem holdsSide_vals {bs : List BagComm} {ms : List Nat} {side : Side F} (h : HoldsSide s P N bs ms side) :
    List.Forall₂ (EntVals s P N) (bs.zip ms) (side.map perTabs) ∧ (∀ e ∈ side, e.1.nv ≤ N) ∧ bs.map (·.numVars) = side.map (·.1.nv) ∧
      bs.length = ms.length := by
  induction bs generalizing ms side with
  | nil =>
    cases ms <;> cases side <;> simp_all [HoldsSide]
  | cons b bs ih =>
    cases ms with
    | nil => simp [HoldsSide] at h
    | cons m ms =>
      cases side with
      | nil => simp [HoldsSide] at h
      | cons e es =>
        obtain ⟨h1, h2, h3⟩ := h
        obtain ⟨i1, i2, i3, i4⟩ := ih h3
        refine ⟨.cons ⟨h1.vpoly, h1.vsel, h2.2⟩ i1, ?_, by simp [h1.nv, i3], by simp [i4]⟩
        intro x hx
        rcases List.mem_cons.1 hx with rfl | hx
        · exact h1.le
        · exact i2 x hx

theorem foldl_max_le (l : List Nat) (a : Nat) : a ≤ l.foldl max a ∧ ∀ x ∈ l, x ≤ l.foldl max a := by
  induction l generalizing a with
  | nil => simp
  | cons y l ih =>
    obtain ⟨h1, h2⟩ := ih (max a y)
    simp only [List.foldl_cons]
    refine ⟨le_trans (le_max_left _ _) h1, fun x hx => ?_⟩
    rcases List.mem_cons.1 hx with rfl | hx
    · exact le_trans (le_max_right _ _) h1
    · exact h2 x hx

theorem side_sum (h2 : (2 : F) ≠ 0) {bs : List BagComm} {ms : List Nat} {side : Side F} (h : HoldsSide s P N bs ms side) {top : Nat}
    (ht : ∀ b ∈ bs, b.numVars ≤ top) (z : F) :
    (List.zipWith (fun q e => Tabs.wt N top q e z) (bs.zip ms) (side.map perTabs)).sum = 2 ^ N * ((2 : F) ^ top)⁻¹ * side.total z := by
  induction bs generalizing ms side with
  | nil => cases ms <;> cases side <;> simp_all [HoldsSide, Side.total]
  | cons b bs ih =>
    cases ms with
    | nil => simp [HoldsSide] at h
    | cons m ms =>
      cases side with
      | nil => simp [HoldsSide] at h
      | cons e es =>
        obtain ⟨h1, h2', h3⟩ := h
        have i := ih h3 fun b hb => ht b (List.mem_cons_of_mem _ hb)
        simp only [List.zip_cons_cons, List.map_cons, List.zipWith_cons_cons, List.sum_cons, i, Side.total, mul_add]
        congr 1
        have := ht b (by simp)
        rw [h1.nv] at this
        rw [weight_eq, ← scl_rep h2 h1.le this]
        unfold Tabs.wt scl
        rw [h1.nv]
        rfl

theorem side_card {bs : List BagComm} {ms : List Nat} {side : Side F} (h : HoldsSide s P N bs ms side) :
    ((side.map perTabs).map fun e => (imgOf N e.T).card).sum ≤ entries bs := by
  induction bs generalizing ms side with
  | nil => cases ms <;> cases side <;> simp_all [HoldsSide, entries]
  | cons b bs ih =>
    cases ms with
    | nil => simp [HoldsSide] at h
    | cons m ms =>
      cases side with
      | nil => simp [HoldsSide] at h
      | cons e es =>
        obtain ⟨h1, h2', h3⟩ := h
        have i := ih h3
        simp only [List.map_cons, List.sum_cons, entries] at i ⊢
        have : (imgOf N (perTabs e).T).card ≤ 2 ^ b.numVars := by rw [h1.nv]; exact img_rep h1.le _
        omega

end Zksql
