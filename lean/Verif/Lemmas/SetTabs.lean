import Verif.Lemmas.SetSound
import Verif.Spec.Sets
/-! Soundness of the checks made from the sort check, in terms of the tables behind the commitments. -/
set_option linter.unusedSectionVars false
namespace Zksql
open Spec
variable {F C B : Type} [Field F] [DecidableEq F]
variable {E : Env F C} {s s' : VSt F C B} {N : Nat} {P : C → List F → F}

theorem natsNonzero_mono {a b : Nat} (h : NatsNonzero F b) (hab : a ≤ b) : NatsNonzero F a := fun i h1 h2 => h i h1 (h2.trans hab)

theorem Later.holdsRange (h : Later s s') (hs : Sane s) {r : BagComm} (k : Known s r.poly) {M : Nat} : HoldsRange s' P N r M ↔ HoldsRange s P N r M := by
  unfold HoldsRange
  simp only [h.holds hs k]

theorem Spec.HoldsRange.facts {r : BagComm} {M : Nat} (h : HoldsRange s P N r M) :
    ∃ R, Vals s P N r.poly R ∧ (imgOf N R).card ≤ 2 ^ r.numVars ∧ RangeFacts N R M := by
  obtain ⟨ρ, h1, h2⟩ := h
  exact ⟨_, h1.2, img_rep h1.1 ρ, fun j _ => h2 _ (Nat.mod_lt _ (by positivity))⟩

theorem rep_eq {nv b : Nat} (T : Nat → F) (hb : b < 2 ^ nv) : rep nv T b = T b := by unfold rep; rw [Nat.mod_eq_of_lt hb]

theorem active_of_cw {t : BagTab F} {w : Nat → F} {z : F} (hw : ∀ b, w b ≠ 0 → rep t.nv t.sel b ≠ 0) (h : cw N (rep t.nv t.val) w z ≠ 0) : t.Active z := by
  obtain ⟨b, hb, hz, h0⟩ := cw_ne_zero h
  exact ⟨b % 2 ^ t.nv, Nat.mod_lt _ (by positivity), hw b h0, hz⟩

/-- Non-zero weight on the large hypercube is non-zero weight of the table. -/
theorem cw_rep_ne (h2 : (2 : F) ≠ 0) {t : BagTab F} (hle : t.nv ≤ N) (z : F) : cw N (rep t.nv t.val) (rep t.nv t.sel) z ≠ 0 ↔ t.weight (fun _ => 1) z ≠ 0 := by
  have := scl_rep h2 hle (le_refl _) t.val t.sel z
  rw [weight_one]
  constructor
  · intro h h0
    rw [h0, mul_zero] at this
    exact mul_ne_zero (scl_ne h2 _ _) h this
  · intro h h0
    rw [h0, mul_zero] at this
    exact mul_ne_zero (lead_ne h2 _ _) h this.symm

theorem restrict_boolean {t : BagTab F} (ht : t.Boolean) {l : Nat → F} (hl : ∀ i < 2 ^ t.nv, l i = 0 ∨ l i = 1) : (t.restrict l).Boolean := by
  intro i hi
  show t.sel i * l i = 0 ∨ t.sel i * l i = 1
  rcases ht i hi with h | h <;> rcases hl i hi with h' | h' <;> simp [h, h']

theorem restrict_active {t : BagTab F} {l : Nat → F} {z : F} : (t.restrict l).Active z ↔ ∃ i < 2 ^ t.nv, t.sel i ≠ 0 ∧ l i ≠ 0 ∧ t.val i = z := by
  constructor
  · rintro ⟨i, hi, h, hz⟩
    exact ⟨i, hi, left_ne_zero_of_mul h, right_ne_zero_of_mul h, hz⟩
  · rintro ⟨i, hi, h, h', hz⟩
    exact ⟨i, hi, mul_ne_zero h h', hz⟩

/-! ### Sort -/

theorem sort_tabs {sorted range : BagComm} (h2 : (2 : F) ≠ 0) (hn : NatsNonzero F (2 ^ sorted.numVars)) (hs : Sane s) (kb : KnownBag s sorted)
    (kr : Known s range.poly) :
    Snd (fun H => StrictSort.verify (E.withH H) sorted range) s N [(2 * 2 ^ sorted.numVars) * (2 * 2 ^ sorted.numVars), 2 * 2 ^ sorted.numVars, 2 ^ sorted.numVars + 2 ^ range.numVars] fun P =>
      N = sorted.numVars ∧ ∀ t ρ, HoldsBag s P N sorted t → Holds s P N range.poly range.numVars ρ →
        (∀ i, i + 1 < 2 ^ t.nv → (∃ j < 2 ^ range.numVars, t.val (i + 1) - t.val i = ρ j) ∧ (t.sel i ≠ 0 → t.val (i + 1) - t.val i ≠ 0)) ∧
        ∀ M : Nat, (∀ j < 2 ^ range.numVars, ∃ k < M, ρ j = (k : F)) → t.Increasing ∧ (NatsNonzero F (2 ^ t.nv * M) → t.Nodup) := by
  refine (strictSort_sound (N := N) h2 hn hs kb kr).mono hs fun P _ h => ⟨h.1, fun t ρ ht hr => ?_⟩
  have hN : N = t.nv := h.1.trans ht.nv
  have hf := h.2 _ _ _ ht.vpoly ht.vsel hr.2 (img_rep hr.1 ρ)
  have hf' : ∀ i, i + 1 < 2 ^ t.nv → (∃ j < 2 ^ N, ρ (j % 2 ^ range.numVars) = t.val (i + 1) - t.val i) ∧ (t.sel i ≠ 0 → t.val (i + 1) ≠ t.val i) := by
    intro i hi
    have := hf i (by rw [hN]; exact hi)
    rw [rep_eq _ hi, rep_eq _ (by omega), rep_eq _ (by omega)] at this
    exact this
  refine ⟨fun i hi => ?_, fun M hM => ⟨?_, fun hn' => ?_⟩⟩
  · obtain ⟨⟨j, -, hj⟩, hne⟩ := hf' i hi
    exact ⟨⟨_, Nat.mod_lt _ (by positivity), hj.symm⟩, fun h0 => sub_ne_zero.2 (hne h0)⟩
  · have hf2 : SortFacts N t.val t.sel fun b => ρ (b % 2 ^ range.numVars) := fun i hi => hf' i (by rw [← hN]; exact hi)
    obtain ⟨d, h1, h3⟩ := sort_increasing hf2 (M := M) fun j _ => hM _ (Nat.mod_lt _ (by positivity))
    rw [hN] at h1 h3
    refine ⟨d, fun i hi => (h1 i hi).1, fun i j hij hj => ?_⟩
    have mono : ∀ m, i + 1 + m < 2 ^ t.nv → d i ≤ d (i + 1 + m) ∧ (t.sel i ≠ 0 → d i < d (i + 1 + m)) := by
      intro m
      induction m with
      | zero => intro hm; exact h3 i hm
      | succ m ih =>
        intro hm
        have h4 := ih (by omega)
        have := (h3 (i + 1 + m) hm).1
        rw [show i + 1 + (m + 1) = i + 1 + m + 1 by omega]
        exact ⟨h4.1.trans this, fun h0 => lt_of_lt_of_le (h4.2 h0) this⟩
    have := mono (j - (i + 1)) (by omega)
    rwa [show i + 1 + (j - (i + 1)) = j by omega] at this
  · have hd := sort_distinct (M := M) hf (fun j _ => hM _ (Nat.mod_lt _ (by positivity))) (by rw [hN]; exact hn')
    intro i hi j hj hi0 hj0 he
    refine hd.unique (by rw [hN]; exact hi) (by rw [hN]; exact hj) ?_ ?_ ?_ <;> simpa [rep_eq, hi, hj]

/-! ### Support -/

theorem supp_tabs {bag supp range : BagComm} {m : Nat} (h2 : (2 : F) ≠ 0) (hn : NatsNonzero F (2 ^ supp.numVars)) (hs : Sane s)
    (kb : KnownBag s bag) (ks : KnownBag s supp) (km : Known s m) (kr : Known s range.poly) :
    Snd (fun H => Supp.verifyWithAdvice (E.withH H) bag supp m range) s N [2 ^ bag.numVars + 2 ^ supp.numVars, (2 * 2 ^ supp.numVars) * (2 * 2 ^ supp.numVars), 2 * 2 ^ supp.numVars, 2 ^ supp.numVars + 2 ^ range.numVars]
      fun P => N = supp.numVars ∧ ∀ M, HoldsRange s P N range M → NatsNonzero F (2 ^ supp.numVars * M) → ∀ tb ts : BagTab F, ∀ μ, HoldsBag s P N bag tb →
        HoldsBag s P N supp ts → Vals s P N m μ → ts.Nodup ∧ ∀ z, tb.weight (fun _ => 1) z ≠ 0 ↔ ts.Active z := by
  refine (supp_sound (N := N) h2 hn hs kb ks km kr _).mono hs fun P _ h => ⟨h.1, fun M hr hM tb ts μ hb hsu hm => ?_⟩
  have hN : N = ts.nv := h.1.trans hsu.nv
  obtain ⟨R, r1, r2, r3⟩ := hr.facts
  obtain ⟨i1, i2, i3⟩ := h.2 _ _ _ _ _ _ hb.vpoly hb.vsel hsu.vpoly hsu.vsel hm r1 r2 (by
      have a := img_rep hb.le tb.val
      have b := img_rep hsu.le ts.val
      rw [hb.nv, hsu.nv]; omega)
  have hd := sort_distinct i1 r3 (by rw [h.1]; exact hM)
  refine ⟨?_, fun z => ?_⟩
  · intro i hi j hj hi0 hj0 he
    refine hd.unique (by rw [hN]; exact hi) (by rw [hN]; exact hj) ?_ ?_ ?_ <;> simpa [rep_eq, hi, hj]
  · rw [← cw_rep_ne h2 hb.le, supp_iff h2 (scl_ne h2 _ _) (scl_ne h2 _ _) hd i2 i3 z]
    unfold BagTab.Active
    rw [hN]
    constructor <;> rintro ⟨b, hb1, hb2, hb3⟩ <;> refine ⟨b, hb1, ?_, ?_⟩
    · rwa [rep_eq _ hb1] at hb2
    · rwa [rep_eq _ hb1] at hb3
    · rwa [rep_eq _ hb1]
    · rwa [rep_eq _ hb1]

/-! ### Disjointness -/

theorem disjoint_tabs {a b range : BagComm} (h2 : (2 : F) ≠ 0) (hn : NatsNonzero F (2 ^ (max a.numVars b.numVars + 1))) (hs : Sane s)
    (ka : KnownBag s a) (kb : KnownBag s b) (kr : Known s range.poly) :
    Snd (fun H => Disjoint.verify (E.withH H) a b range) s N [(2 * 2 ^ (max a.numVars b.numVars + 1)) * (2 * 2 ^ (max a.numVars b.numVars + 1)), 2 * 2 ^ (max a.numVars b.numVars + 1),
        2 ^ (max a.numVars b.numVars + 1) + 2 ^ range.numVars, 2 ^ a.numVars + 2 ^ (max a.numVars b.numVars + 1),
        2 ^ b.numVars + 2 ^ (max a.numVars b.numVars + 1)] fun P =>
      N = max a.numVars b.numVars + 1 ∧ ∀ M, HoldsRange s P N range M → NatsNonzero F (2 ^ (max a.numVars b.numVars + 1) * M) →
        ∀ ta tb : BagTab F, HoldsBag s P N a ta → HoldsBag s P N b tb →
        ∀ z, ¬(ta.weight (fun _ => 1) z ≠ 0 ∧ tb.weight (fun _ => 1) z ≠ 0) := by
  refine (disjoint_sound (N := N) h2 hn hs ka kb kr).mono hs fun P _ h => ⟨h.1, fun M hr hM ta tb ha hb z hz => ?_⟩
  obtain ⟨R, r1, r2, r3⟩ := hr.facts
  have := h.2 _ _ _ _ _ M ha.vpoly ha.vsel hb.vpoly hb.vsel r1 r2 (by rw [ha.nv]; exact img_rep ha.le ta.val) (by rw [hb.nv]; exact img_rep hb.le tb.val) r3
    (by rw [h.1]; exact hM) z ((cw_rep_ne h2 ha.le z).2 hz.1)
  exact (cw_rep_ne h2 hb.le z).2 hz.2 this

/-- A value that two 0/1 bags share has weight two in their sum, so the sum cannot be strictly sorted with a 0/1 selector. -/
theorem setDisjoint_tabs {a b range : BagComm} (h2 : (2 : F) ≠ 0) (hn : NatsNonzero F (2 ^ (max a.numVars b.numVars + 1))) (hs : Sane s)
    (ka : KnownBag s a) (kb : KnownBag s b) (kr : Known s range.poly) :
    SndP (fun H => SetDisjoint.verify (E.withH H) a b range) s N [2 ^ a.numVars + 2 ^ b.numVars + 2 ^ (max a.numVars b.numVars + 1),
        (2 * 2 ^ (max a.numVars b.numVars + 1)) * (2 * 2 ^ (max a.numVars b.numVars + 1)), 2 * 2 ^ (max a.numVars b.numVars + 1),
        2 ^ (max a.numVars b.numVars + 1) + 2 ^ range.numVars] fun pf P =>
      N = max a.numVars b.numVars + 1 ∧ ∀ M, HoldsRange s P N range M → NatsNonzero F (2 ^ (max a.numVars b.numVars + 1) * M) → CommBoolean pf (s.own.idCounter + 1) P N →
        ∀ ta tb : BagTab F, HoldsBag s P N a ta → HoldsBag s P N b tb → ta.Boolean → tb.Boolean → ∀ z, ¬(ta.Active z ∧ tb.Active z) := by
  refine (setDisjoint_sound (N := N) h2 hn hs ka kb kr).mono hs fun P _ h => ⟨h.1, fun M hr hM hbool ta tb ha hb ba bb z hz => ?_⟩
  obtain ⟨hN, cp, cs, -, hcs, h⟩ := h
  obtain ⟨R, r1, r2, r3⟩ := hr.facts
  obtain ⟨i1, i2⟩ := h _ _ _ _ _ ha.vpoly ha.vsel hb.vpoly hb.vsel r1 r2 (by rw [ha.nv]; exact img_rep ha.le ta.val) (by rw [hb.nv]; exact img_rep hb.le tb.val)
  have hd := sort_distinct i1 r3 (by rw [hN]; exact hM)
  have hsum := i2 z
  rw [ha.nv, hb.nv] at hN
  have la : ta.nv ≤ max ta.nv tb.nv + 1 := by omega
  have lb : tb.nv ≤ max ta.nv tb.nv + 1 := by omega
  rw [ha.nv, hb.nv, scl_rep h2 ha.le la, scl_rep h2 hb.le lb, ← weight_one, ← weight_one, ← mul_add, weight_count ba, weight_count bb] at hsum
  rw [show N = max ta.nv tb.nv + 1 from hN, mul_inv_cancel₀ (pow_ne_zero _ h2), one_mul] at hsum
  rw [← hN] at hsum
  have ca := count_pos.2 hz.1
  have cb := count_pos.2 hz.2
  have la' := count_le ta z
  have lb' := count_le tb z
  have hbig : ta.count z + tb.count z ≤ 2 ^ (max a.numVars b.numVars + 1) := by
    rw [ha.nv, hb.nv]
    have e1 : 2 ^ ta.nv ≤ 2 ^ max ta.nv tb.nv := Nat.pow_le_pow_right (by norm_num) (by omega)
    have e2 : 2 ^ tb.nv ≤ 2 ^ max ta.nv tb.nv := Nat.pow_le_pow_right (by norm_num) (by omega)
    rw [pow_succ]; omega
  have hone : cw N (fun i => P cp (boolPt N i)) (fun i => P cs (boolPt N i)) z = 0 ∨ cw N (fun i => P cp (boolPt N i)) (fun i => P cs (boolPt N i)) z = 1 := by
    by_cases h0 : cw N (fun i => P cp (boolPt N i)) (fun i => P cs (boolPt N i)) z = 0
    · exact .inl h0
    · obtain ⟨j, hj, hjz, hj0⟩ := cw_ne_zero h0
      rw [cw_single hj hjz fun b hb e hw => hd.unique hb hj hw hj0 (e.trans hjz.symm)]
      exact hbool _ hcs j hj
  rcases hone with h1 | h1 <;> rw [h1, ← Nat.cast_add] at hsum
  · exact hn _ (by omega) hbig hsum
  · have hb1 : 1 ≤ 2 ^ (max a.numVars b.numVars + 1) := Nat.one_le_two_pow
    have := natCast_inj_of (a := ta.count z + tb.count z) (b := 1) hn hbig hb1 (by rw [hsum]; simp)
    omega

/-! ### Set operations -/

theorem setUnion_tabs {a b union range : BagComm} (h2 : (2 : F) ≠ 0) (hn : NatsNonzero F (2 ^ union.numVars)) (hs : Sane s)
    (ka : KnownBag s a) (kb : KnownBag s b) (ku : KnownBag s union) (kr : Known s range.poly) :
    Snd (fun H => SetUnion.verify (E.withH H) a b union range) s N [2 ^ a.numVars + 2 ^ b.numVars + 2 ^ union.numVars, 2 * 2 ^ union.numVars, (2 * 2 ^ union.numVars) * (2 * 2 ^ union.numVars),
        2 * 2 ^ union.numVars, 2 ^ union.numVars + 2 ^ range.numVars] fun P =>
      N = union.numVars ∧ ∀ M, HoldsRange s P N range M → NatsNonzero F (2 ^ union.numVars * M) →
        ∀ ta tb tu : BagTab F, HoldsBag s P N a ta → HoldsBag s P N b tb → HoldsBag s P N union tu →
        tu.Nodup ∧ ∀ z, ta.weight (fun _ => 1) z + tb.weight (fun _ => 1) z ≠ 0 ↔ tu.Active z := by
  intro β K b2 Concl hK
  unfold SetUnion.verify Supp.verify
  obtain ⟨ka1, ka2⟩ := ka
  obtain ⟨kb1, kb2⟩ := kb
  obtain ⟨ku1, ku2⟩ := ku
  simp only [Act.bind_assoc, withH_debug]
  refine step_transfer hs fun p cp s1 q1 l1 m1 => ?_
  refine step_transfer q1.sane fun sel cs s2 q2 l2 m2 => ?_
  refine (bagSum_sound (N := N) q2.sane ⟨by later, by later⟩ ⟨by later, by later⟩ ⟨by later, by later⟩
    (2 ^ a.numVars + 2 ^ b.numVars + 2 ^ union.numVars)).bind fun _ s3 L3 => ?_
  refine step_transfer L3.sane fun m cm s4 q4 l4 m4 => ?_
  refine (supp_sound (N := N) h2 hn q4.sane ⟨by later, by later⟩ ⟨by later, by later⟩ (by later) (by later) (2 * 2 ^ union.numVars)).bind fun _ s5 L5 => ?_
  have w1 : Whole s s2 := ⟨q1.trans q2⟩
  refine (hK () s5 (((w1.q.toLater.trans L3).trans q4.toLater).trans L5)).mono L5.sane fun P hc hC hNs h3 => hC ?_
  obtain ⟨hN, h4⟩ := hNs
  refine ⟨hN, fun M hr hM ta tb tu ha hb hu => ?_⟩
  obtain ⟨R, r1, r2, r3⟩ := hr.facts
  have hs2 := q2.sane
  have hs4 := q4.sane
  have L24 : Later s2 s4 := L3.trans q4.toLater
  have vp := vals_query (P := P) (N := N) hs2 (h := p) (i := p) (c := cp) (by later) (by later)
  have vs := vals_query (P := P) (N := N) hs2 (h := sel) (i := sel) (c := cs) (by later) (by later)
  have vm := vals_query (P := P) (N := N) hs4 (h := m) (i := m) (c := cm) (by later) (by later)
  have up : ∀ {i T}, Known s i → Vals s P N i T → Vals s4 P N i T := fun k v => (L24.vals hs2 (w1.q.known k)).2 ((w1.q.vals hs k).2 v)
  have himg : (imgOf N fun b => P cp (boolPt N b)).card ≤ 2 ^ union.numVars := by
    rw [← hN]
    exact Finset.card_image_le.trans (by simp)
  have iu := img_rep hu.le tu.val
  have nvu := hu.nv
  obtain ⟨i1, i2, i3⟩ := h4 _ _ _ _ _ _ ((L24.vals hs2 (by later)).2 vp) ((L24.vals hs2 (by later)).2 vs) (up ku1 hu.vpoly) (up ku2 hu.vsel) vm
    (up kr r1) r2 (by rw [hu.nv] at himg ⊢; omega)
  have hd := sort_distinct i1 r3 (by rw [hN]; exact hM)
  have hsum := fun z => h3 _ _ _ _ _ _ ((w1.q.vals hs ka1).2 ha.vpoly) ((w1.q.vals hs ka2).2 ha.vsel) ((w1.q.vals hs kb1).2 hb.vpoly)
    ((w1.q.vals hs kb2).2 hb.vsel) vp vs (by
      have := img_rep ha.le ta.val
      have := img_rep hb.le tb.val
      have n1 := ha.nv
      have n2 := hb.nv
      rw [ha.nv, hb.nv]; omega) z
  have hNu : N = tu.nv := hN.trans hu.nv
  refine ⟨?_, fun z => ?_⟩
  · intro i hi j hj hi0 hj0 he
    refine hd.unique (by rw [hNu]; exact hi) (by rw [hNu]; exact hj) ?_ ?_ ?_ <;> simpa [rep_eq, hi, hj]
  · have hz := hsum z
    dsimp only at hz
    have key : ta.weight (fun _ => 1) z + tb.weight (fun _ => 1) z ≠ 0 ↔ cw N (fun i => P cp (boolPt N i)) (fun i => P cs (boolPt N i)) z ≠ 0 := by
      rw [ha.nv, hb.nv, scl_rep h2 ha.le (by omega), scl_rep h2 hb.le (by omega), ← weight_one, ← weight_one, ← mul_add] at hz
      constructor
      · intro h0 h1
        rw [h1, mul_zero] at hz
        exact mul_ne_zero (lead_ne h2 _ _) h0 hz
      · intro h0 h1
        rw [h1, mul_zero] at hz
        exact mul_ne_zero (scl_ne h2 _ _) h0 hz.symm
    rw [key, supp_iff h2 (scl_ne h2 _ _) (scl_ne h2 _ _) hd i2 i3 z]
    unfold BagTab.Active
    rw [hNu]
    constructor <;> rintro ⟨b, hb1, hb2, hb3⟩ <;> refine ⟨b, hb1, ?_, ?_⟩
    · rwa [rep_eq _ hb1] at hb2
    · rwa [rep_eq _ hb1] at hb3
    · rwa [rep_eq _ hb1]
    · rwa [rep_eq _ hb1]

/-! ### Checks made directly from the multiset check, over tables -/

theorem bagSum_tabs {f0 f1 g : BagComm} (h2 : (2 : F) ≠ 0) (hs : Sane s) (k0 : KnownBag s f0) (k1 : KnownBag s f1) (kg : KnownBag s g) :
    Snd (fun H => BagSum.verify (E.withH H) f0 f1 g) s N [2 ^ f0.numVars + 2 ^ f1.numVars + 2 ^ g.numVars] fun P => ∀ t0 t1 tg : BagTab F,
      HoldsBag s P N f0 t0 → HoldsBag s P N f1 t1 → HoldsBag s P N g tg →
      ∀ z, t0.weight (fun _ => 1) z + t1.weight (fun _ => 1) z = tg.weight (fun _ => 1) z := by
  refine (bagSum_sound (N := N) hs k0 k1 kg _).mono hs fun P _ h t0 t1 tg h0 h1 hg z => ?_
  have := h _ _ _ _ _ _ h0.vpoly h0.vsel h1.vpoly h1.vsel hg.vpoly hg.vsel (by
    have a := img_rep h0.le t0.val
    have a' := img_rep h1.le t1.val
    have b := img_rep hg.le tg.val
    rw [h0.nv, h1.nv, hg.nv]; omega) z
  rw [h0.nv, h1.nv, hg.nv, scl_rep h2 h0.le (by omega), scl_rep h2 h1.le (by omega), scl_rep h2 hg.le (by omega), ← mul_add] at this
  rw [weight_one, weight_one, weight_one]
  exact mul_left_cancel₀ (lead_ne h2 _ _) this

theorem inclusion_tabs {f g : BagComm} (h2 : (2 : F) ≠ 0) (hs : Sane s) (kf : KnownBag s f) (kg : KnownBag s g) :
    Snd (fun H => Inclusion.verify (E.withH H) f g) s N [2 ^ f.numVars + 2 ^ g.numVars] fun P => ∀ tf tg : BagTab F, HoldsBag s P N f tf → HoldsBag s P N g tg →
      ∀ z, tf.weight (fun _ => 1) z ≠ 0 → tg.Active z := by
  refine (inclusion_sound (N := N) hs kf kg _).mono hs fun P _ h tf tg hf hg z hz => ?_
  obtain ⟨μ, h⟩ := h _ _ _ _ hf.vpoly hf.vsel hg.vpoly hg.vsel (by
    have a := img_rep hf.le tf.val
    have b := img_rep hg.le tg.val
    rw [hf.nv, hg.nv]; omega)
  have n0 := mul_ne_zero (scl_ne h2 (max f.numVars g.numVars) f.numVars) ((cw_rep_ne h2 hf.le z).2 hz)
  rw [h z] at n0
  exact active_of_cw (fun b hb => right_ne_zero_of_mul hb) (right_ne_zero_of_mul n0)

theorem inclusionAdvice_tabs {f g : BagComm} {m : Nat} (h2 : (2 : F) ≠ 0) (hs : Sane s) (kf : KnownBag s f) (kg : KnownBag s g) (km : Known s m) :
    Snd (fun H => Inclusion.verifyWithAdvice (E.withH H) f g m) s N [2 ^ f.numVars + 2 ^ g.numVars] fun P => ∀ (tf tg : BagTab F) (μ : Nat → F), HoldsBag s P N f tf → HoldsBag s P N g tg →
      Vals s P N m μ → ∀ z, tf.weight (fun _ => 1) z ≠ 0 → tg.Active z := by
  refine (inclusionAdvice_sound (N := N) hs kf kg km _).mono hs fun P _ h tf tg μ hf hg hm z hz => ?_
  have h := h _ _ _ _ _ hf.vpoly hf.vsel hg.vpoly hg.vsel hm (by
    have a := img_rep hf.le tf.val
    have b := img_rep hg.le tg.val
    rw [hf.nv, hg.nv]; omega)
  have n0 := mul_ne_zero (scl_ne h2 (max f.numVars g.numVars) f.numVars) ((cw_rep_ne h2 hf.le z).2 hz)
  rw [h z] at n0
  exact active_of_cw (fun b hb => right_ne_zero_of_mul hb) (right_ne_zero_of_mul n0)

end Zksql
