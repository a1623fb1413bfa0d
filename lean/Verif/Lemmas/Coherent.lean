import Verif.Spec.Compilable
import Verif.Spec.Coherent
import Verif.Spec.ProgramSound
import Verif.Lemmas.BagTab
import Verif.Lemmas.SetTabs
import Mathlib.Data.List.GetD
/-!
The data an honest prover can use satisfies what an accepted check says.
-/
set_option linter.unusedSectionVars false
namespace Zksql
open Spec
variable {F K : Type} [Field F] [DecidableEq F] {W : K → Column F} {N : Nat}

theorem weight_active {t : BagTab F} {m : Nat → F} {z : F} (h : t.weight m z ≠ 0) : t.Active z := by
  by_contra hn
  apply h
  rw [weight_eq]
  refine Finset.sum_eq_zero fun b hb => ?_
  split
  · rename_i e
    by_contra h0
    exact hn ⟨b, Finset.mem_range.1 hb, fun hs => h0 (by beta_reduce; rw [hs, mul_zero]), e⟩
  · rfl

theorem count_le_size (t : BagTab F) (z : F) : t.count z ≤ 2 ^ t.nv := by
  rw [count_eq_card]
  exact (Finset.card_filter_le _ _).trans (Finset.card_range _).le

theorem nodup_weight {t : BagTab F} (hd : t.Nodup) (m : Nat → F) {i : Nat} (hi : i < 2 ^ t.nv) (hs : t.sel i ≠ 0) : t.weight m (t.val i) = m i * t.sel i := by
  rw [weight_eq]
  exact cw_single hi rfl fun b hb e hw => hd b hb i hi (right_ne_zero_of_mul hw) hs e

theorem sortedIn_small {t : BagTab F} {r : Column F} {M : Nat} (h : SortedIn t.nv r.nv t.val t.sel r.val) (hM : Small r (2 ^ t.nv) M) : t.Increasing ∧ t.Nodup := by
  let R : Nat → F := fun b => if b + 1 < 2 ^ t.nv then t.val (b + 1) - t.val b else r.val 0
  have sf : SortFacts t.nv t.val t.sel R := fun i hi => ⟨⟨i, by omega, if_pos hi⟩, fun h0 => sub_ne_zero.1 ((h i hi).2 h0)⟩
  have rf : RangeFacts t.nv R M := fun j _ => by
    by_cases hj : j + 1 < 2 ^ t.nv
    · obtain ⟨⟨k, hk, e⟩, -⟩ := h j hj
      rw [show R j = r.val k from (if_pos hj).trans e]
      exact hM.2 k hk
    · rw [show R j = r.val 0 from if_neg hj]
      exact hM.2 0 (by positivity)
  obtain ⟨d, h1, h3⟩ := sort_increasing sf rf
  refine ⟨⟨d, fun i hi => (h1 i hi).1, fun i j hij hj => ?_⟩, fun i hi j hj hi0 hj0 he => (sort_distinct sf rf hM.1).unique hi hj hi0 hj0 he⟩
  have mono : ∀ m, i + 1 + m < 2 ^ t.nv → d i ≤ d (i + 1 + m) ∧ (t.sel i ≠ 0 → d i < d (i + 1 + m)) := by
    intro m
    induction m with
    | zero => intro hm; exact h3 i hm
    | succ m ih =>
      intro hm
      have h4 := ih (by omega)
      have := (h3 (i + 1 + m) hm).1
      rw [show i + 1 + (m + 1) = i + 1 + m + 1 by omega]
      exact ⟨h4.1.trans this, fun h0 => lt_of_lt_of_le (h4.2 h0) this⟩
  have := mono (j - (i + 1)) (by omega)
  rwa [show i + 1 + (j - (i + 1)) = j by omega] at this

theorem pairCount_card (n : Nat) (A T : Nat → F) (x y : F) : pairCount n A T x y = ((Finset.range (2 ^ n)).filter fun i => A i = x ∧ T i = y).card := by
  unfold pairCount
  rw [Finset.card_def, Finset.filter_val]
  change _ = Multiset.card (Multiset.filter _ ((List.range (2 ^ n) : List Nat) : Multiset Nat))
  rw [Multiset.filter_coe, Multiset.coe_card]

theorem permutes_pairs {n : Nat} {f g p : Nat → F} (h : Permutes n f g p) (x y : F) : pairCount n (fun i : Nat => (i : F)) f x y = pairCount n p g x y := by
  obtain ⟨σ, h1, h2, h3⟩ := h
  rw [pairCount_card, pairCount_card]
  symm
  refine Finset.card_bij (fun i _ => σ i) (fun i hi => ?_) (fun i hi j hj e => ?_) fun j hj => ?_
  · simp only [Finset.mem_filter, Finset.mem_range] at hi ⊢
    obtain ⟨e1, e2⟩ := h3 i hi.1
    exact ⟨h1 i hi.1, e1.symm.trans hi.2.1, e2.symm.trans hi.2.2⟩
  · simp only [Finset.mem_filter, Finset.mem_range] at hi hj
    exact h2 i hi.1 j hj.1 e
  · simp only [Finset.mem_filter, Finset.mem_range] at hj
    have sur : Finset.image σ (Finset.range (2 ^ n)) = Finset.range (2 ^ n) := by
      refine Finset.eq_of_subset_of_card_le (fun k hk => ?_) ?_
      · obtain ⟨i, hi, rfl⟩ := Finset.mem_image.1 hk
        exact Finset.mem_range.2 (h1 i (Finset.mem_range.1 hi))
      · rw [Finset.card_image_of_injOn fun i hi j hj e => h2 i (Finset.mem_range.1 hi) j (Finset.mem_range.1 hj) e]
    have := Finset.mem_range.2 hj.1
    rw [← sur] at this
    obtain ⟨i, hi, rfl⟩ := Finset.mem_image.1 this
    have hi := Finset.mem_range.1 hi
    obtain ⟨e1, e2⟩ := h3 i hi
    exact ⟨i, by simp only [Finset.mem_filter, Finset.mem_range]; exact ⟨hi, e1.trans hj.2.1, e2.trans hj.2.2⟩, rfl⟩

theorem over_lt {w : Column F} {n b : Nat} (h : w.nv = n) (hb : b < 2 ^ n) : w.over b = w.val b := by
  unfold Column.over
  rw [h, Nat.mod_eq_of_lt hb]

theorem pairCount_congr {n : Nat} {A A' T T' : Nat → F} (hA : ∀ b < 2 ^ n, A b = A' b) (hT : ∀ b < 2 ^ n, T b = T' b) (x y : F) : pairCount n A T x y = pairCount n A' T' x y := by
  unfold pairCount
  congr 1
  refine List.filter_congr fun b hb => ?_
  rw [hA b (List.mem_range.1 hb), hT b (List.mem_range.1 hb)]

theorem boolean_one {x : F} (h : x = 0 ∨ x = 1) (h0 : x ≠ 0) : x = 1 := h.resolve_left h0

/-- Valid data has the meaning of the check. -/
theorem Spec.Check.valid_means {rep : F → Nat} (hN : NatsNonzero F (2 ^ N)) : ∀ (c : Check K), c.Fits N W → c.Exact N W → c.Valid rep W → c.Means N W
  | .multiset _ _, _, _, hv => hv
  | .bagEq f g, ⟨hn, _⟩, _, hv => by
    refine ⟨hv, fun b1 b2 z => ?_⟩
    have := hv z
    rw [weight_count b1, weight_count b2] at this
    have s1 : (W f.1).nv ≤ N := hn _ (by simp [Check.names])
    have s2 : (W g.1).nv ≤ N := hn _ (by simp [Check.names])
    exact natCast_inj_of hN ((count_le_size _ _).trans (Nat.pow_le_pow_right (by omega) s1)) ((count_le_size _ _).trans (Nat.pow_le_pow_right (by omega) s2)) this
  | .bagSum _ _ _, _, _, hv => hv
  | .inclusion f g, _, _, ⟨_, _, hv⟩ => ⟨fun z h => hv z (weight_active h), fun _ => hv⟩
  | .inclusionAdvice _ _ _, _, _, hv => hv
  | .noZeros _, _, _, hv => hv
  | .selector _, _, _, hv => hv
  | .permutation f g p, ⟨_, _, _, e1, e2⟩, hx, hv => by
    have hx : N = (W f.1).nv := hx
    have of : ∀ b < 2 ^ N, (W f.1).over b = (W f.1).val b := fun b hb => over_lt hx.symm hb
    have og : ∀ b < 2 ^ N, (W g.1).over b = (W g.1).val b := fun b hb => over_lt (e1.trans hx.symm) hb
    have op : ∀ b < 2 ^ N, (W p).over b = (W p).val b := fun b hb => over_lt (e2.trans hx.symm) hb
    have hv : Permutes N (W f.1).val (W g.1).val (W p).val := by rw [hx]; exact hv
    refine ⟨fun x y => ?_, fun π hπ i hi => ?_⟩
    · rw [pairCount_congr (fun _ _ => rfl) of, pairCount_congr op og]
      exact permutes_pairs hv x y
    · obtain ⟨σ, h1, -, h3⟩ := hv
      obtain ⟨a, b⟩ := hπ i hi
      rw [op i hi, (h3 i hi).1] at b
      have : σ i = π i := natCast_inj_of hN (h1 i hi).le a.le b
      rw [of _ a, og i hi, (h3 i hi).2, this]
  | .sort f range, _, hx, hv => ⟨hx, hv, fun M hM => sortedIn_small (t := bagTab W f) hv hM⟩
  | .support f g range, _, _, ⟨_, _, _, d, a, _⟩ => fun _ _ _ => ⟨d, a⟩
  | .supportAdvice f g m range, ⟨hn, _⟩, _, ⟨a, nz, s⟩ => fun M hM b => by
    have d := (sortedIn_small (t := bagTab W g) s hM).2
    have s1 : (W f.1).nv ≤ N := hn _ (by simp [Check.names])
    refine ⟨d, fun z => ⟨fun h => ?_, fun h => ?_⟩⟩
    · refine weight_active (m := (W m).val) ?_
      rw [← a z, weight_count b]
      exact hN _ (count_pos.2 h) ((count_le_size _ _).trans (Nat.pow_le_pow_right (by omega) s1))
    · obtain ⟨i, hi, hs, rfl⟩ := h
      refine weight_active (m := fun _ => 1) ?_
      rw [a, nodup_weight d _ hi hs]
      exact mul_ne_zero (nz i hi hs) hs
  | .disjoint f g range, _, _, ⟨_, _, _, _, _, _, _, _, a⟩ => fun _ _ _ _ => a
  | .setDisjoint _ _ _, _, _, _ => trivial
  | .union f g u range, _, _, ⟨_, _, _, _, d, a, _⟩ => fun _ _ _ _ => ⟨d, fun z => (a z).symm⟩
  | .diff f g l m mult range, _, _, ⟨_, _, _, s, t⟩ => ⟨s, fun z h => weight_active (m := (W mult).val) (by rw [← t z]; exact h)⟩
  | .intersect f g l m r range, _, _, ⟨_, _, _, s, t⟩ => ⟨s, t⟩
  | .joinReduction f g lSel rSel range, _, _, ⟨_, _, _, b1, b2, s, t⟩ => fun _ _ _ _ _ => by
    have one : ∀ {x : F}, x = 0 ∨ x = 1 → (x = 1 ↔ x ≠ 0) := fun h => ⟨fun e => by rw [e]; exact one_ne_zero, boolean_one h⟩
    exact ⟨b1, b2, fun i hi hs => (one (b1 i hi)).trans (s i hi hs), fun i hi hs => (one (b2 i hi)).trans (t i hi hs)⟩
  | .indexTransform inp out, _, _, ⟨_, _, hv⟩ => fun _ _ i hi => by
    obtain ⟨j, hj, e⟩ := hv i hi
    exact ⟨j, hj, by rw [e]⟩
  | .joinAdvice a b ai bi ta, _, _, ⟨_, _, hv⟩ => fun _ _ i hi => by
    obtain ⟨j, hj, e, k⟩ := hv i hi
    refine ⟨?_, j, hj, ?_⟩
    · rw [← k, ← List.getD_map (f := fun c : Nat → F => c i) (d := fun _ => 0), List.map_map]
      refine (congrArg (fun l => List.getD l ai 0) e).trans ?_
      exact List.getD_map (tabData W a).cols (fun _ => 0) fun c : Nat → F => c j
    · rw [List.map_map, ← e]
      rfl
  | .groupBy inp key grp mult aggs range, _, _, ⟨_, _, G, _⟩ => fun _ _ _ => by
    have one : ∀ i < 2 ^ (W grp.1).nv, (W grp.2).val i ≠ 0 → (W grp.2).val i = 1 := fun i hi hs => boolean_one (G.boolean i hi) hs
    refine ⟨G.nodup, G.active, fun i hi hs => ?_, fun e he ht i hi hs => ?_, fun _ => G⟩
    · rw [one i hi hs, mul_one]
      exact G.counts i hi hs
    · rw [one i hi hs, mul_one]
      exact G.sums (e.1, e.2.1, (W e.2.2).val) (List.mem_map.2 ⟨e, he, rfl⟩) ht i hi hs

theorem pairs_permutes (hN : NatsNonzero F (2 ^ N)) {f g p : Nat → F} (h : ∀ x y, pairCount N (fun i : Nat => (i : F)) f x y = pairCount N p g x y) : Permutes N f g p := by
  have ex : ∀ i : Nat, ∃ j : Nat, i < 2 ^ N → j < 2 ^ N ∧ p i = (j : F) ∧ g i = f j := fun i => by
    by_cases hi : i < 2 ^ N
    · have c := h (p i) (g i)
      rw [pairCount_card, pairCount_card] at c
      have pos : 0 < ((Finset.range (2 ^ N)).filter fun k => p k = p i ∧ g k = g i).card := Finset.card_pos.2 ⟨i, by simp [hi]⟩
      rw [← c] at pos
      obtain ⟨j, hj⟩ := Finset.card_pos.1 pos
      simp only [Finset.mem_filter, Finset.mem_range] at hj
      exact ⟨j, fun _ => ⟨hj.1, hj.2.1.symm, hj.2.2.symm⟩⟩
    · exact ⟨0, fun h => absurd h hi⟩
  choose σ hσ using ex
  refine ⟨σ, fun i hi => (hσ i hi).1, fun i hi j hj e => ?_, fun i hi => (hσ i hi).2⟩
  have c := h (p i) (g i)
  rw [pairCount_card, pairCount_card] at c
  have le : ((Finset.range (2 ^ N)).filter fun k : Nat => (k : F) = p i ∧ f k = g i).card ≤ 1 := by
    rw [Finset.card_le_one]
    intro a ha b hb
    simp only [Finset.mem_filter, Finset.mem_range] at ha hb
    exact natCast_inj_of hN ha.1.le hb.1.le (ha.2.1.trans hb.2.1.symm)
  rw [c, Finset.card_le_one] at le
  refine le i (by simp [hi]) j ?_
  simp only [Finset.mem_filter, Finset.mem_range]
  exact ⟨hj, by rw [(hσ j hj).2.1, (hσ i hi).2.1, e], by rw [(hσ j hj).2.2, (hσ i hi).2.2, e]⟩

/-- For these checks the meaning is all an honest prover needs. -/
theorem Spec.Check.means_valid {rep : F → Nat} (hN : NatsNonzero F (2 ^ N)) : ∀ (c : Check K), c.Fits N W → c.Exact N W → c.Settles W → c.Means N W → c.Valid rep W
  | .multiset _ _, _, _, _, h => h
  | .bagEq _ _, _, _, _, h => h.1
  | .bagSum _ _ _, _, _, _, h => h
  | .inclusion _ _, _, _, ⟨b1, b2⟩, h => ⟨b1, b2, h.2 b1⟩
  | .inclusionAdvice _ _ _, _, _, _, h => h
  | .noZeros _, _, _, _, h => h
  | .selector _, _, _, _, h => h
  | .permutation f g p, ⟨_, _, _, e1, e2⟩, hx, _, h => by
    have hx : N = (W f.1).nv := hx
    have := pairs_permutes hN (f := (W f.1).val) (g := (W g.1).val) (p := (W p).val) fun x y => by
      rw [← pairCount_congr (A := fun i : Nat => (i : F)) (fun _ _ => rfl) fun b hb => over_lt (w := W f.1) hx.symm hb, h.1 x y]
      exact pairCount_congr (fun b hb => over_lt (e2.trans hx.symm) hb) (fun b hb => over_lt (e1.trans hx.symm) hb) x y
    rw [hx] at this
    exact this
  | .sort _ _, _, _, _, h => h.2.1

end Zksql
