import Verif.Lemmas.SortSound
/-! What the claims recorded by the sort, support, disjointness, set and join protocols imply. -/
set_option linter.unusedSectionVars false
namespace Zksql
open Spec
variable {F C B : Type} [Field F] [DecidableEq F]
variable {E : Env F C} {s s1 s2 s' : VSt F C B} {N : Nat} {P : C → List F → F}

/-! ### The closed forms of the sort check -/

theorem vals_mleFn (hs : Sane s) {h nv : Nat} {l : List F} (hl : l.length = 2 ^ nv) (k : s.sh.comms.lookup h = some (StrictSort.mleFn ⟨nv, l⟩)) :
    Vals s P nv h fun b => l.getD b 0 :=
  vals_fn hs k fun b hb => by
    rw [evaluate_eq ⟨nv, l⟩ hl _ (by simp), unwrap_some, mle_boolPt _ _ _ hb]
    rfl

theorem vals_mleFn_dim (hs : Sane s) {h nv : Nat} {l : List F} (k : s.sh.comms.lookup h = some (StrictSort.mleFn ⟨nv, l⟩)) {T : Nat → F}
    (hv : Vals s P N h T) : N = nv := by
  by_contra hne
  have := hv 0 (by positivity)
  rw [valueAt_look hs k] at this
  simp only [StrictSort.mleFn, VSt.evalStep] at this
  rw [evaluate_none _ _ (by simpa using hne)] at this
  simp [unwrap] at this

theorem shift_length (nv : Nat) : (StrictSort.shiftEvals F (2 ^ nv)).length = 2 ^ nv := by
  have := Nat.one_le_two_pow (n := nv)
  simp [StrictSort.shiftEvals]; omega

theorem shift_get (nv b : Nat) (hb : b < 2 ^ nv) : (StrictSort.shiftEvals F (2 ^ nv)).getD b 0 = (((b + 1) % 2 ^ nv : Nat) : F) := by
  unfold StrictSort.shiftEvals
  rw [List.getD_eq_getElem?_getD, List.getElem?_append]
  simp only [List.length_map, List.length_range]
  split
  · rename_i h
    rw [List.getElem?_map, List.getElem?_range h, Nat.mod_eq_of_lt (by omega)]
    rfl
  · rename_i h
    obtain rfl : b = 2 ^ nv - 1 := by omega
    rw [show 2 ^ nv - 1 + 1 = 2 ^ nv by omega]
    simp

theorem diffSel_length (nv : Nat) : (StrictSort.diffSelEvals F (2 ^ nv)).length = 2 ^ nv := by
  have := Nat.one_le_two_pow (n := nv)
  simp [StrictSort.diffSelEvals]; omega

theorem diffSel_get (nv b : Nat) (hb : b < 2 ^ nv) : (StrictSort.diffSelEvals F (2 ^ nv)).getD b 0 = if b + 1 < 2 ^ nv then 1 else 0 := by
  unfold StrictSort.diffSelEvals
  rw [List.getD_eq_getElem?_getD, List.getElem?_append]
  simp only [List.length_replicate]
  by_cases h : b < 2 ^ nv - 1
  · rw [if_pos h, if_pos (by omega), List.getElem?_replicate, if_pos h]
    rfl
  · rw [if_neg h, if_neg (by omega)]
    obtain rfl : b = 2 ^ nv - 1 := by omega
    simp

theorem pw_index {T : Nat → F} (hn : NatsNonzero F (2 ^ N)) {i : Nat} (hi : i < 2 ^ N) : pw N (fun b => (b : F)) T (i : F) (T i) = 1 := by
  unfold pw
  rw [Finset.sum_eq_single i]
  · simp
  · intro b hb hbi
    rw [if_neg]
    rintro ⟨h, -⟩
    exact hbi (natCast_inj_of hn (Finset.mem_range.1 hb).le hi.le h)
  · intro h; exact absurd (Finset.mem_range.2 hi) h

theorem cw_boolean {T w : Nat → F} {z : F} (hw : ∀ b < 2 ^ N, w b = 0 ∨ w b = 1) (hn : NatsNonzero F (2 ^ N)) {i : Nat} (hi : i < 2 ^ N) (h1 : w i ≠ 0)
    (hz : T i = z) : cw N T w z ≠ 0 := by
  have := (active_iff_weight (t := ⟨N, T, w⟩) hw hn z).1 ⟨i, hi, h1, hz⟩
  rwa [weight_one] at this

/-! ### Sort -/

/-- What the sort check enforces. -/
def SortFacts (N : Nat) (T σ R : Nat → F) : Prop :=
  ∀ i, i + 1 < 2 ^ N → (∃ j < 2 ^ N, R j = T (i + 1) - T i) ∧ (σ i ≠ 0 → T (i + 1) ≠ T i)

theorem strictSort_sound {sorted range : BagComm} (h2 : (2 : F) ≠ 0) (hn : NatsNonzero F (2 ^ sorted.numVars))
    (hs : Sane s) (kb : KnownBag s sorted) (kr : Known s range.poly) :
    Snd (fun H => StrictSort.verify (E.withH H) sorted range) s N
      [(2 * 2 ^ sorted.numVars) * (2 * 2 ^ sorted.numVars), 2 * 2 ^ sorted.numVars, 2 ^ sorted.numVars + 2 ^ range.numVars] fun P =>
      N = sorted.numVars ∧ ∀ T σ R, Vals s P N sorted.poly T → Vals s P N sorted.selector σ → Vals s P N range.poly R →
        (imgOf N R).card ≤ 2 ^ range.numVars → SortFacts N T σ R := by
  intro β K b2 Concl hK
  unfold StrictSort.verify
  obtain ⟨k1, k2⟩ := kb
  simp only [Act.bind_assoc, withH_debug]
  refine step_fn hs fun one s1 q1 l1 => ?_
  refine step_fn q1.sane fun shift s2 q2 l2 => ?_
  refine step_transfer q2.sane fun q cq s3 q3 l3 m3 => ?_
  refine (prescPerm_sound (N := N) q3.sane (by later) (by later) (by later) ((2 * 2 ^ sorted.numVars) * (2 * 2 ^ sorted.numVars))
    (2 * 2 ^ sorted.numVars)).bind fun _ s4 L4 => ?_
  refine step_fn L4.sane fun dsel s5 q5 l5 => ?_
  refine step_sub q5.sane (by later) (by later) fun qp s6 q6 l6 => ?_
  refine step_mul q6.sane (by later) (by later) fun a s7 q7 l7 => ?_
  refine step_addScalar q7.sane (by later) fun b s8 q8 l8 => ?_
  refine step_sub q8.sane (by later) (by later) fun diff s9 q9 l9 => ?_
  refine step_fn q9.sane fun rsel s10 q10 l10 => ?_
  refine (inclusion_sound (N := N) q10.sane ⟨by later, by later⟩ ⟨by later, by later⟩ (2 ^ sorted.numVars + 2 ^ range.numVars)).bind fun _ s11 L11 => ?_
  refine (noZeros_sound (E := E) (N := N) L11.sane ⟨by later, by later⟩).bind fun _ s12 L12 => ?_
  have w1 : Whole s s3 := ⟨q1.trans (q2.trans q3)⟩
  have w2 : Whole s4 s10 := ⟨q5.trans (q6.trans (q7.trans (q8.trans (q9.trans q10))))⟩
  refine (hK () s12 ((((w1.q.toLater.trans L4).trans w2.q.toLater).trans L11).trans L12)).mono L12.sane fun P _ hC hnz hinc hpp0 => hC ?_
  obtain ⟨⟨Tp0, hTp0⟩, hpp⟩ := hpp0
  have hs3 := q3.sane
  have hs10 := q10.sane
  have hNv : N = sorted.numVars := vals_mleFn_dim hs3 (h := shift) (by later) hTp0
  refine ⟨hNv, fun T σ R vT vσ vR hR => ?_⟩
  rw [← hNv] at hn
  have vq := vals_query (P := P) (N := N) hs3 (h := q) (i := q) (c := cq) (by later) (by later)
  have vsh : Vals s3 P N shift fun b => (StrictSort.shiftEvals F (2 ^ N)).getD b 0 := by
    rw [hNv]
    exact vals_mleFn hs3 (shift_length _) (by later)
  have vT3 := (w1.q.vals hs k1).2 vT
  have hpair := hpp _ _ _ vT3 vq vsh (by rw [hNv]) (by rw [hNv])
  have hrot : ∀ i, i + 1 < 2 ^ N → P cq (boolPt N i) = T (i + 1) := by
    intro i hi
    have h := hpair ((i + 1 : Nat) : F) (T (i + 1))
    rw [pw_index hn hi] at h
    have hne : pw N (fun b => (StrictSort.shiftEvals F (2 ^ N)).getD b 0) (fun b => P cq (boolPt N b)) ((i + 1 : Nat) : F) (T (i + 1)) ≠ 0 := by
      intro h0
      rw [h0, mul_one, mul_zero] at h
      exact scl_ne h2 _ _ h
    obtain ⟨b, hb, hb1, hb2⟩ := pw_ne_zero hne
    rw [shift_get N b hb] at hb1
    have := natCast_inj_of hn (Nat.mod_lt _ (by positivity)).le hi.le hb1
    by_cases hbl : b + 1 < 2 ^ N
    · rw [Nat.mod_eq_of_lt hbl] at this
      obtain rfl : b = i := by omega
      exact hb2
    · rw [show b + 1 = 2 ^ N by omega, Nat.mod_self] at this
      omega
  have L10 : Later s3 s10 := L4.trans w2.q.toLater
  have vds : Vals s10 P N dsel fun b => (StrictSort.diffSelEvals F (2 ^ N)).getD b 0 := by
    rw [hNv]
    exact vals_mleFn hs10 (diffSel_length _) (by later)
  have vT10 := (L10.vals hs3 (by later)).2 vT3
  have vq10 := (L10.vals hs3 (by later)).2 vq
  have v6 := vals_sub hs10 (h := qp) (by later) vq10 vT10
  have v7 := vals_mul hs10 (h := a) (by later) vds v6
  have v8 := vals_addScalar hs10 (h := b) (by later) v7
  have v9 := vals_sub hs10 (h := diff) (by later) v8 vds
  have hdiff : ∀ i, i + 1 < 2 ^ N → (StrictSort.diffSelEvals F (2 ^ N)).getD i 0 * (P cq (boolPt N i) - T i) + 1 - (StrictSort.diffSelEvals F (2 ^ N)).getD i 0 =
      T (i + 1) - T i := by
    intro i hi
    rw [diffSel_get N i (by omega), if_pos hi, hrot i hi]
    ring
  have v1 := vals_one (P := P) (N := N) hs10 (h := rsel) (by later)
  have vR10 := (L10.vals hs3 (by later)).2 ((w1.q.vals hs kr).2 vR)
  have vσ11 := (L11.vals hs10 (by later)).2 ((L10.vals hs3 (by later)).2 ((w1.q.vals hs k2).2 vσ))
  obtain ⟨μ, hμ⟩ := hinc _ _ _ _ v9 vds vR10 v1 (by
    have h1 := Finset.card_image_le (s := Finset.range (2 ^ N)) (f := fun b => (StrictSort.diffSelEvals F (2 ^ N)).getD b 0 * (P cq (boolPt N b) - T b) + 1 - (StrictSort.diffSelEvals F (2 ^ N)).getD b 0)
    rw [Finset.card_range] at h1
    rw [← hNv]
    unfold imgOf at hR ⊢
    omega)
  have hnz' := hnz _ _ ((L11.vals hs10 (by later)).2 v9) vσ11
  intro i hi
  constructor
  · have hz := hμ (T (i + 1) - T i)
    have hne := cw_boolean (z := T (i + 1) - T i) (T := fun b => (StrictSort.diffSelEvals F (2 ^ N)).getD b 0 * (P cq (boolPt N b) - T b) + 1 - (StrictSort.diffSelEvals F (2 ^ N)).getD b 0) (w := fun b => (StrictSort.diffSelEvals F (2 ^ N)).getD b 0) (fun b hb => by
      rw [diffSel_get N b hb]
      by_cases h : b + 1 < 2 ^ N
      · rw [if_pos h]; exact .inr rfl
      · rw [if_neg h]; exact .inl rfl) hn (i := i) (by omega) (by
        beta_reduce
        rw [diffSel_get N i (by omega), if_pos hi]; exact one_ne_zero) (hdiff i hi)
    have := mul_ne_zero (scl_ne h2 (max sorted.numVars range.numVars) sorted.numVars) hne
    rw [hz] at this
    obtain ⟨j, hj, hj1, -⟩ := cw_ne_zero (right_ne_zero_of_mul this)
    exact ⟨j, hj, hj1⟩
  · intro h0 heq
    have := hnz' i (by omega) h0
    rw [hdiff i hi, heq, sub_self] at this
    exact this rfl

/-- The range table holds numbers below `M`. -/
def RangeFacts (N : Nat) (R : Nat → F) (M : Nat) : Prop := ∀ j < 2 ^ N, ∃ k < M, R j = (k : F)

theorem sort_increasing {T σ R : Nat → F} {M : Nat} (h : SortFacts N T σ R) (hR : RangeFacts N R M) :
    ∃ d : Nat → Nat, (∀ i < 2 ^ N, T i = T 0 + d i ∧ d i ≤ i * (M - 1)) ∧
      ∀ i, i + 1 < 2 ^ N → d i ≤ d (i + 1) ∧ (σ i ≠ 0 → d i < d (i + 1)) := by
  have hk : ∀ i, ∃ k, i + 1 < 2 ^ N → k < M ∧ T (i + 1) - T i = (k : F) ∧ (σ i ≠ 0 → 0 < k) := by
    intro i
    by_cases hi : i + 1 < 2 ^ N
    · obtain ⟨⟨j, hj, hRj⟩, hne⟩ := h i hi
      obtain ⟨k, hk, hk'⟩ := hR j hj
      refine ⟨k, fun _ => ⟨hk, by rw [← hRj, hk'], fun h0 => Nat.pos_of_ne_zero ?_⟩⟩
      rintro rfl
      apply hne h0
      rw [← sub_eq_zero, ← hRj, hk', Nat.cast_zero]
    · exact ⟨0, fun h => absurd h hi⟩
  choose k hk using hk
  refine ⟨fun i => ∑ j ∈ Finset.range i, k j, fun i => ?_, fun i hi => ?_⟩
  · induction i with
    | zero => intro _; simp
    | succ i ih =>
      intro hi
      obtain ⟨h1, h2⟩ := ih (by omega)
      obtain ⟨h3, h4, -⟩ := hk i hi
      beta_reduce at h1 h2 ⊢
      rw [Finset.sum_range_succ]
      constructor
      · rw [sub_eq_iff_eq_add] at h4
        rw [h4, h1]; push_cast; ring
      · rw [Nat.succ_mul]; omega
  · obtain ⟨-, -, h⟩ := hk i hi
    simp only [Finset.sum_range_succ]
    exact ⟨by omega, fun h0 => by have := h h0; omega⟩

/-- An active value does not occur later. -/
def Distinct (N : Nat) (T σ : Nat → F) : Prop := ∀ i j, i < j → j < 2 ^ N → σ i ≠ 0 → T i ≠ T j

theorem sort_distinct {T σ R : Nat → F} {M : Nat} (h : SortFacts N T σ R) (hR : RangeFacts N R M) (hn : NatsNonzero F (2 ^ N * M)) : Distinct N T σ := by
  obtain ⟨d, h1, h2⟩ := sort_increasing h hR
  intro i j hij hj h0 heq
  have mono : ∀ m, i + 1 + m < 2 ^ N → d i < d (i + 1 + m) := by
    intro m
    induction m with
    | zero => intro hm; exact (h2 i hm).2 h0
    | succ m ih =>
      intro hm
      have := ih (by omega)
      have := (h2 (i + 1 + m) hm).1
      rw [show i + 1 + (m + 1) = i + 1 + m + 1 by omega]
      omega
  have hd : d i < d j := by
    have := mono (j - (i + 1)) (by omega)
    rwa [show i + 1 + (j - (i + 1)) = j by omega] at this
  have hdj : d j ≤ 2 ^ N * M := by
    refine (h1 j hj).2.trans (Nat.mul_le_mul hj.le (Nat.sub_le _ _))
  rw [(h1 i (by omega)).1, (h1 j hj).1] at heq
  have := natCast_inj_of hn (by omega) hdj (add_left_cancel heq)
  omega

theorem Distinct.unique {T σ : Nat → F} (h : Distinct N T σ) {i j : Nat} (hi : i < 2 ^ N) (hj : j < 2 ^ N) (h1 : σ i ≠ 0) (h2 : σ j ≠ 0) (e : T i = T j) : i = j := by
  rcases Nat.lt_trichotomy i j with hij | hij | hij
  · exact absurd e (h i j hij hj h1)
  · exact hij
  · exact absurd e.symm (h j i hij hi h2)

theorem Distinct.cw {T σ μ : Nat → F} (h : Distinct N T σ) {i : Nat} (hi : i < 2 ^ N) (h1 : σ i ≠ 0) : cw N T (fun b => μ b * σ b) (T i) = μ i * σ i :=
  cw_single hi rfl fun _ hb e hw => h.unique hb hi (right_ne_zero_of_mul hw) h1 e

/-! ### Support -/

theorem supp_sound {bag supp range : BagComm} {m : Nat} (h2 : (2 : F) ≠ 0) (hn : NatsNonzero F (2 ^ supp.numVars))
    (hs : Sane s)
    (kb : KnownBag s bag) (ks : KnownBag s supp) (km : Known s m) (kr : Known s range.poly) (D : Nat) :
    Snd (fun H => Supp.verifyWithAdvice (E.withH H) bag supp m range) s N [D, (2 * 2 ^ supp.numVars) * (2 * 2 ^ supp.numVars), 2 * 2 ^ supp.numVars, 2 ^ supp.numVars + 2 ^ range.numVars] fun P =>
      N = supp.numVars ∧ ∀ Tb σb Ts σs μ R, Vals s P N bag.poly Tb → Vals s P N bag.selector σb → Vals s P N supp.poly Ts → Vals s P N supp.selector σs →
        Vals s P N m μ → Vals s P N range.poly R → (imgOf N R).card ≤ 2 ^ range.numVars → (imgOf N Tb).card + (imgOf N Ts).card ≤ D →
        SortFacts N Ts σs R ∧ (∀ b < 2 ^ N, σs b ≠ 0 → μ b ≠ 0) ∧
        ∀ z, scl F (max bag.numVars supp.numVars) bag.numVars * cw N Tb σb z =
          scl F (max bag.numVars supp.numVars) supp.numVars * cw N Ts (fun b => μ b * σs b) z := by
  intro β K b2 Concl hK
  unfold Supp.verifyWithAdvice
  simp only [Act.bind_assoc]
  refine (inclusionAdvice_sound (N := N) hs kb ks km D).bind fun _ s1 L1 => ?_
  refine (noZeros_sound (E := E) (N := N) (f := ⟨m, supp.selector, supp.numVars⟩) L1.sane ⟨L1.known km, L1.known ks.2⟩).bind fun _ s2 L12 => ?_
  have L2 := L1.trans L12
  refine (strictSort_sound (N := N) h2 hn L2.sane (L2.knownBag ks) (L2.known kr)).bind fun _ s3 L3 => ?_
  refine (hK () s3 (L2.trans L3)).mono L3.sane fun P _ hC i34 i2 i1 => hC ?_
  obtain ⟨i3, i4⟩ := i34
  refine ⟨i3, fun Tb σb Ts σs μ R v1 v2 v3 v4 v5 v6 hR hD => ⟨?_, ?_, i1 _ _ _ _ _ v1 v2 v3 v4 v5 hD⟩⟩
  · exact i4 _ _ _ ((L2.vals hs ks.1).2 v3) ((L2.vals hs ks.2).2 v4) ((L2.vals hs kr).2 v6) hR
  · exact i2 _ _ ((L1.vals hs km).2 v5) ((L1.vals hs ks.2).2 v4)

/-- The values of non-zero weight are those in the support. -/
theorem supp_iff (h2 : (2 : F) ≠ 0) {Tb σb Ts σs μ : Nat → F} {x y : F} (hx : x ≠ 0) (hy : y ≠ 0) (hd : Distinct N Ts σs) (hμ : ∀ b < 2 ^ N, σs b ≠ 0 → μ b ≠ 0)
    (h : ∀ z, x * cw N Tb σb z = y * cw N Ts (fun b => μ b * σs b) z) (z : F) : cw N Tb σb z ≠ 0 ↔ ∃ b < 2 ^ N, σs b ≠ 0 ∧ Ts b = z := by
  constructor
  · intro hz
    have := mul_ne_zero hx hz
    rw [h z] at this
    obtain ⟨b, hb, h1, h2⟩ := cw_ne_zero (right_ne_zero_of_mul this)
    exact ⟨b, hb, right_ne_zero_of_mul h2, h1⟩
  · rintro ⟨b, hb, h1, rfl⟩ h0
    have := h (Ts b)
    rw [h0, mul_zero, hd.cw hb h1] at this
    exact mul_ne_zero hy (mul_ne_zero (hμ b hb h1) h1) this.symm

/-! ### Disjointness -/

theorem disjoint_sound {a b range : BagComm} (h2 : (2 : F) ≠ 0) (hn : NatsNonzero F (2 ^ (max a.numVars b.numVars + 1)))
    (hs : Sane s) (ka : KnownBag s a) (kb : KnownBag s b) (kr : Known s range.poly) :
    Snd (fun H => Disjoint.verify (E.withH H) a b range) s N [(2 * 2 ^ (max a.numVars b.numVars + 1)) * (2 * 2 ^ (max a.numVars b.numVars + 1)), 2 * 2 ^ (max a.numVars b.numVars + 1),
        2 ^ (max a.numVars b.numVars + 1) + 2 ^ range.numVars, 2 ^ a.numVars + 2 ^ (max a.numVars b.numVars + 1),
        2 ^ b.numVars + 2 ^ (max a.numVars b.numVars + 1)] fun P =>
      N = max a.numVars b.numVars + 1 ∧ ∀ Ta σa Tb σb R M, Vals s P N a.poly Ta → Vals s P N a.selector σa → Vals s P N b.poly Tb → Vals s P N b.selector σb →
        Vals s P N range.poly R → (imgOf N R).card ≤ 2 ^ range.numVars → (imgOf N Ta).card ≤ 2 ^ a.numVars → (imgOf N Tb).card ≤ 2 ^ b.numVars →
        RangeFacts N R M → NatsNonzero F (2 ^ N * M) → ∀ z, cw N Ta σa z ≠ 0 → cw N Tb σb z = 0 := by
  intro β K b2 Concl hK
  unfold Disjoint.verify Disjoint.verifyWithAdvice
  obtain ⟨ka1, ka2⟩ := ka
  obtain ⟨kb1, kb2⟩ := kb
  simp only [Act.bind_assoc, withH_debug]
  refine step_transfer hs fun p cp s1 q1 l1 m1 => ?_
  refine step_transfer q1.sane fun sel cs s2 q2 l2 m2 => ?_
  refine step_transfer q2.sane fun mA cA s3 q3 l3 m3 => ?_
  refine step_transfer q3.sane fun mB cB s4 q4 l4 m4 => ?_
  refine (strictSort_sound (N := N) h2 hn q4.sane ⟨by later, by later⟩ (by later)).bind fun _ s5 L5 => ?_
  refine step_mul L5.sane (by later) (by later) fun mm s6 q6 l6 => ?_
  refine step_zeroClaim q6.sane (by later) fun s7 q7 c7 => ?_
  refine (inclusionAdvice_sound (N := N) q7.sane ⟨by later, by later⟩ ⟨by later, by later⟩ (by later) (2 ^ a.numVars + 2 ^ (max a.numVars b.numVars + 1))).bind fun _ s8 L8 => ?_
  refine (inclusionAdvice_sound (N := N) L8.sane ⟨by later, by later⟩ ⟨by later, by later⟩ (by later) (2 ^ b.numVars + 2 ^ (max a.numVars b.numVars + 1))).bind fun _ s9 L9 => ?_
  have w1 : Whole s s4 := ⟨q1.trans (q2.trans (q3.trans q4))⟩
  have w2 : Whole s5 s7 := ⟨q6.trans q7⟩
  refine (hK () s9 ((((w1.q.toLater.trans L5).trans w2.q.toLater).trans L8).trans L9)).mono L9.sane fun P hc hC h9 h8 hNs => hC ?_
  obtain ⟨hN, hsort⟩ := hNs
  have hc7 := (L8.trans L9).claims q7.sane hc
  refine ⟨hN, fun Ta σa Tb σb R M v1 v2 v3 v4 v5 hR hA hB hRF hM z hza => ?_⟩
  by_contra hzb
  have hs4 := q4.sane
  have hs7 := q7.sane
  have L47 : Later s4 s7 := L5.trans w2.q.toLater
  have vp := vals_query (P := P) (N := N) hs4 (h := p) (i := p) (c := cp) (by later) (by later)
  have vs := vals_query (P := P) (N := N) hs4 (h := sel) (i := sel) (c := cs) (by later) (by later)
  have vA := vals_query (P := P) (N := N) hs4 (h := mA) (i := mA) (c := cA) (by later) (by later)
  have vB := vals_query (P := P) (N := N) hs4 (h := mB) (i := mB) (c := cB) (by later) (by later)
  have hd := sort_distinct (hsort _ _ _ vp vs ((w1.q.vals hs kr).2 v5) hR) hRF hM
  have vp7 := (L47.vals hs4 (by later)).2 vp
  have vs7 := (L47.vals hs4 (by later)).2 vs
  have vA7 := (L47.vals hs4 (by later)).2 vA
  have vB7 := (L47.vals hs4 (by later)).2 vB
  have vmm := vals_mul hs7 (h := mm) (by later) vA7 vB7
  have himg : (imgOf N fun b => P cp (boolPt N b)).card ≤ 2 ^ (max a.numVars b.numVars + 1) := by
    have hN' : N = max a.numVars b.numVars + 1 := hN
    rw [← hN']
    exact Finset.card_image_le.trans (by simp)
  have e8' := h8 _ _ _ _ _ ((L47.vals hs4 (by later)).2 ((w1.q.vals hs ka1).2 v1)) ((L47.vals hs4 (by later)).2 ((w1.q.vals hs ka2).2 v2)) vp7 vs7 vA7 (by omega) z
  have e9' := h9 _ _ _ _ _ ((L8.vals hs7 (by later)).2 ((L47.vals hs4 (by later)).2 ((w1.q.vals hs kb1).2 v3)))
    ((L8.vals hs7 (by later)).2 ((L47.vals hs4 (by later)).2 ((w1.q.vals hs kb2).2 v4))) ((L8.vals hs7 (by later)).2 vp7)
    ((L8.vals hs7 (by later)).2 vs7) ((L8.vals hs7 (by later)).2 vB7) (by omega) z
  have n8 := mul_ne_zero (scl_ne h2 (max a.numVars (max a.numVars b.numVars + 1)) a.numVars) hza
  have n9 := mul_ne_zero (scl_ne h2 (max b.numVars (max a.numVars b.numVars + 1)) b.numVars) hzb
  rw [e8'] at n8
  rw [e9'] at n9
  obtain ⟨i, hi, hi1, hi2⟩ := cw_ne_zero (right_ne_zero_of_mul n8)
  obtain ⟨j, hj, hj1, hj2⟩ := cw_ne_zero (right_ne_zero_of_mul n9)
  obtain rfl := hd.unique hi hj (right_ne_zero_of_mul hi2) (right_ne_zero_of_mul hj2) (hi1.trans hj1.symm)
  have := hc7.zero c7 vmm hi
  exact mul_ne_zero (left_ne_zero_of_mul hi2) (left_ne_zero_of_mul hj2) this

/-! ### Sets -/

theorem setDisjoint_sound {a b range : BagComm} (h2 : (2 : F) ≠ 0) (hn : NatsNonzero F (2 ^ (max a.numVars b.numVars + 1)))
    (hs : Sane s) (ka : KnownBag s a) (kb : KnownBag s b) (kr : Known s range.poly) :
    SndP (fun H => SetDisjoint.verify (E.withH H) a b range) s N [2 ^ a.numVars + 2 ^ b.numVars + 2 ^ (max a.numVars b.numVars + 1),
        (2 * 2 ^ (max a.numVars b.numVars + 1)) * (2 * 2 ^ (max a.numVars b.numVars + 1)), 2 * 2 ^ (max a.numVars b.numVars + 1),
        2 ^ (max a.numVars b.numVars + 1) + 2 ^ range.numVars] fun pf P =>
      N = max a.numVars b.numVars + 1 ∧ ∃ cp cs, pf.comms.lookup s.own.idCounter = some cp ∧
        pf.comms.lookup (s.own.idCounter + 1) = some cs ∧ ∀ Ta σa Tb σb R, Vals s P N a.poly Ta → Vals s P N a.selector σa → Vals s P N b.poly Tb → Vals s P N b.selector σb →
        Vals s P N range.poly R → (imgOf N R).card ≤ 2 ^ range.numVars → (imgOf N Ta).card ≤ 2 ^ a.numVars → (imgOf N Tb).card ≤ 2 ^ b.numVars →
        SortFacts N (fun i => P cp (boolPt N i)) (fun i => P cs (boolPt N i)) R ∧
        ∀ z, scl F (max a.numVars b.numVars + 1) a.numVars * cw N Ta σa z + scl F (max a.numVars b.numVars + 1) b.numVars * cw N Tb σb z =
          cw N (fun i => P cp (boolPt N i)) (fun i => P cs (boolPt N i)) z := by
  intro β K b2 Concl hK
  unfold SetDisjoint.verify
  obtain ⟨ka1, ka2⟩ := ka
  obtain ⟨kb1, kb2⟩ := kb
  simp only [Act.bind_assoc, withH_debug]
  refine step_transferP hs fun p cp s1 q1 l1 m1 _ hi1 => ?_
  refine step_transferP q1.sane fun sel cs s2 q2 l2 m2 _ _ => ?_
  rw [hi1]
  refine (bagSum_sound (N := N) q2.sane ⟨by later, by later⟩ ⟨by later, by later⟩ ⟨by later, by later⟩
    (2 ^ a.numVars + 2 ^ b.numVars + 2 ^ (max a.numVars b.numVars + 1))).bind fun _ s3 L3 => ?_
  refine (strictSort_sound (N := N) h2 hn L3.sane ⟨by later, by later⟩ (by later)).bind fun _ s4 L4 => ?_
  have w1 : Whole s s2 := ⟨q1.trans q2⟩
  refine (hK () s4 ((w1.q.toLater.trans L3).trans L4)).mono L4.sane fun P hc hC hNs h3 p2 p1 => hC ?_
  obtain ⟨hN, hsort⟩ := hNs
  refine ⟨hN, cp, cs, p1, p2, fun Ta σa Tb σb R v1 v2 v3 v4 v5 hR hA hB => ?_⟩
  have hs2 := q2.sane
  have vp := vals_query (P := P) (N := N) hs2 (h := p) (i := p) (c := cp) (by later) (by later)
  have vs := vals_query (P := P) (N := N) hs2 (h := sel) (i := sel) (c := cs) (by later) (by later)
  have himg : (imgOf N fun b => P cp (boolPt N b)).card ≤ 2 ^ (max a.numVars b.numVars + 1) := by
    have hN' : N = max a.numVars b.numVars + 1 := hN
    rw [← hN']
    exact Finset.card_image_le.trans (by simp)
  refine ⟨hsort _ _ _ ((L3.vals hs2 (by later)).2 vp) ((L3.vals hs2 (by later)).2 vs) ((L3.vals hs2 (by later)).2 ((w1.q.vals hs kr).2 v5)) hR, fun z => ?_⟩
  have := h3 _ _ _ _ _ _ ((w1.q.vals hs ka1).2 v1) ((w1.q.vals hs ka2).2 v2) ((w1.q.vals hs kb1).2 v3) ((w1.q.vals hs kb2).2 v4) vp vs (by omega) z
  dsimp only at this
  rw [max_eq_right (by omega : max a.numVars b.numVars ≤ max a.numVars b.numVars + 1)] at this
  rw [this]
  unfold scl
  simp

end Zksql
