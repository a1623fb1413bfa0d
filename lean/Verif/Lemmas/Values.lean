import Verif.Spec.Values
import Verif.Lemmas.Inactive
import Verif.Lemmas.BagTab
/-!
What a check says depends on the active values only.
-/
set_option linter.unusedSectionVars false
namespace Zksql
open Spec
variable {F K : Type} [Field F] [DecidableEq F]

theorem count_values (t : BagTab F) (z : F) : t.count z = t.values.count z := by
  unfold BagTab.values
  rw [count_eq_card, Multiset.count_map, Multiset.filter_filter]
  change Multiset.card ((Multiset.range _).filter _) = _
  congr 1
  refine Multiset.filter_congr fun i _ => ?_
  constructor
  · rintro ⟨a, rfl⟩; exact ⟨rfl, a⟩
  · rintro ⟨rfl, a⟩; exact ⟨a, rfl⟩

theorem nodup_of_count {t : BagTab F} (h : ∀ z, t.count z ≤ 1) : t.Nodup := fun i hi j hj si sj e => by
  have := h (t.val i)
  rw [count_eq_card, Finset.card_le_one] at this
  exact this i (by simp [hi, si]) j (by simp [hj, sj, e])

theorem bag_values (t : TabData F) (k : Nat) : (t.bag k).values = t.rows.map fun r => r.getD k 0 := by
  unfold BagTab.values TabData.rows
  rw [Multiset.map_map]
  refine Multiset.map_congr rfl fun i _ => ?_
  change t.col k i = (t.row i).getD k 0
  exact (List.getD_map (f := fun c : Nat → F => c i) (l := t.cols) (n := k) (d := fun _ => 0)).symm

theorem sumAt_rows (t : TabData F) (key c : Nat) (z : F) : sumAt t key c z = ((t.rows.filter fun r => r.getD key 0 = z).map fun r => r.getD c 0).sum := by
  have e : ∀ k i, t.col k i = (t.row i).getD k 0 := fun k i => (List.getD_map (f := fun c : Nat → F => c i) (l := t.cols) (n := k) (d := fun _ => 0)).symm
  unfold sumAt TabData.rows
  rw [← Finset.sum_filter, Multiset.filter_map, Multiset.map_map, Multiset.filter_filter]
  change ((((Multiset.range _).filter _)).map _).sum = _
  congr 1
  refine Multiset.map_congr (Multiset.filter_congr fun i _ => ?_) fun i _ => e c i
  rw [e]
  exact and_comm

namespace Spec
variable {W W' : K → Column F}

/-- Two bags with the same active values. -/
structure BagTab.Equal (t t' : BagTab F) : Prop where
  bool : t.Boolean
  bool' : t'.Boolean
  count : ∀ z, t'.count z = t.count z

namespace BagTab.Equal
variable {t t' : BagTab F}

theorem symm (h : t.Equal t') : t'.Equal t := ⟨h.bool', h.bool, fun z => (h.count z).symm⟩
theorem weight_one (h : t.Equal t') (z : F) : t'.weight (fun _ => 1) z = t.weight (fun _ => 1) z := by rw [weight_count h.bool', weight_count h.bool, h.count]
theorem active (h : t.Equal t') (z : F) : t'.Active z ↔ t.Active z := by rw [← count_pos, ← count_pos, h.count]
theorem nodup (h : t.Equal t') (hb : t.Nodup) : t'.Nodup := nodup_of_count fun z => (h.count z).le.trans (nodup_count hb z)
theorem below (h : t.Equal t') {rep : F → Nat} {M : Nat} (hb : t.Below rep M) : t'.Below rep M := fun i hi si => by
  obtain ⟨j, hj, sj, e⟩ := (h.active (t'.val i)).1 ⟨i, hi, si, rfl⟩
  rw [← e]
  exact hb j hj sj

end BagTab.Equal

theorem SameValues.equal {b : K × K} (h : SameValues W W' b) : (bagTab W b).Equal (bagTab W' b) := ⟨h.1, h.2.1, fun z => by rw [count_values, count_values, h.2.2]⟩

theorem SameRows.bag {t : List K × K} (h : SameRows W W' t) (k : Nat) : ((tabData W t).bag k).Equal ((tabData W' t).bag k) :=
  ⟨h.1, h.2.1, fun z => by rw [count_values, count_values, bag_values, bag_values, h.2.2]⟩

theorem SameRows.sumAt {t : List K × K} (h : SameRows W W' t) (key c : Nat) (z : F) : Spec.sumAt (tabData W' t) key c z = Spec.sumAt (tabData W t) key c z := by
  rw [sumAt_rows, sumAt_rows, h.2.2]

theorem mem_rows {T : TabData F} {r : List F} : r ∈ T.rows ↔ ∃ i, T.On i ∧ T.row i = r := by
  unfold TabData.rows
  simp only [Multiset.mem_map, Multiset.mem_filter, Multiset.mem_range]
  rfl

theorem SameRows.on {t : List K × K} (h : SameRows W W' t) {j : Nat} (hj : (tabData W t).On j) : ∃ i, (tabData W' t).On i ∧ (tabData W' t).row i = (tabData W t).row j := by
  rw [← mem_rows, h.2.2, mem_rows]
  exact ⟨j, hj, rfl⟩

theorem SameRows.back {t : List K × K} (h : SameRows W W' t) {j : Nat} (hj : (tabData W' t).On j) : ∃ i, (tabData W t).On i ∧ (tabData W t).row i = (tabData W' t).row j := by
  rw [← mem_rows, ← h.2.2, mem_rows]
  exact ⟨j, hj, rfl⟩

theorem col_of_row {T T' : TabData F} {i j : Nat} (h : T'.row i = T.row j) (k : Nat) : T'.col k i = T.col k j := by
  have e : ∀ (T : TabData F) i, T.col k i = (T.row i).getD k 0 := fun T i => (List.getD_map (f := fun c : Nat → F => c i) (l := T.cols) (n := k) (d := fun _ => 0)).symm
  rw [e, e, h]

theorem Check.Apart.equal {rep : F → Nat} {r : K} {S T S' T' : BagTab F} (h : SameCol W W' r) (h1 : S.Equal S') (h2 : T.Equal T') (ha : Check.Apart rep (W r) S T) : Check.Apart rep (W' r) S' T' := by
  obtain ⟨M, c, p, cv, b1, b2, n⟩ := ha
  exact ⟨M, c, p, h.covers cv, h1.below b1, h2.below b2, fun z => by rw [h1.active, h2.active]; exact n z⟩

theorem total_weights (l : List ((K × K) × K)) (h : ∀ e ∈ l, SameWeights W W' e.1 e.2) (z : F) :
    Side.total (l.map fun e => (bagTab W' e.1, (W' e.2).val)) z = Side.total (l.map fun e => (bagTab W e.1, (W e.2).val)) z := by
  unfold Side.total
  rw [List.map_map, List.map_map]
  congr 1
  exact List.map_congr_left fun e he => h e he z

theorem nats_le {N n : Nat} (h : NatsNonzero F (2 ^ N)) (hn : n ≤ N) : NatsNonzero F (2 ^ n) := fun i h0 hi => h i h0 (hi.trans (Nat.pow_le_pow_right (by omega) hn))

/-- What an honest prover needs of the data depends on the contents of the bags and tables only. -/
theorem Check.valid_contents {rep : F → Nat} {N : Nat} (hN : NatsNonzero F (2 ^ N)) : ∀ (c : Check K), c.Fits N W → c.Fits N W' → c.SameContents W W' → c.Valid rep W → c.Valid rep W'
  | .multiset fs gs, _, _, h, hv => fun z => by
    rw [total_weights fs fun e he => h e (List.mem_append_left _ he), total_weights gs fun e he => h e (List.mem_append_right _ he)]
    exact hv z
  | .bagEq f g, _, _, ⟨h1, h2⟩, hv => fun z => by rw [h1.equal.weight_one, h2.equal.weight_one]; exact hv z
  | .bagSum f g k, _, _, ⟨h1, h2, h3⟩, hv => fun z => by rw [h1.equal.weight_one, h2.equal.weight_one, h3.equal.weight_one]; exact hv z
  | .inclusion f g, _, _, ⟨h1, h2⟩, ⟨_, _, hv⟩ => ⟨h1.2.1, h2.2.1, fun z => by rw [h1.equal.active, h2.equal.active]; exact hv z⟩
  | .inclusionAdvice f g m, _, _, ⟨h1, h2⟩, hv => fun z => by rw [h1.equal.weight_one, h2]; exact hv z
  | .noZeros f, _, _, h1, hv => fun i hi hs hz => by
    obtain ⟨j, hj, sj, e⟩ := (h1.equal.active ((W' f.1).val i)).1 ⟨i, hi, hs, rfl⟩
    exact hv j hj sj (e.trans hz)
  | .support f g range, hf, ⟨hn', _⟩, ⟨h1, h2, h3, h4⟩, ⟨_, b2, _, d, a, s⟩ => by
    have ag := (SameCol.bag h2 h3).alike hf.2.2
    refine ⟨h1.2.1, ag.boolean b2, ?_, ag.nodup d, fun z => ?_, h2.sorted h3 h4 hf.2.2 s⟩
    · exact nats_le hN (hn' _ (by simp [Check.names]))
    · rw [h1.equal.active, ag.active]; exact a z
  | .supportAdvice f g m range, ⟨_, _, e2, e3⟩, _, ⟨h1, h2, h3, h4, h5⟩, ⟨a, nz, s⟩ => by
    have ag := (SameCol.bag h2 h3).alike e2
    refine ⟨fun z => ?_, fun i hi hs => ?_, h2.sorted h3 h5 e2 s⟩
    · rw [h1.equal.weight_one, ag.weight fun i hi hs => h4.2 i (e3.symm ▸ hi) hs]; exact a z
    · have hi' : i < 2 ^ (W g.1).nv := h2.1 ▸ hi
      have hs' : (W g.2).val i ≠ 0 := h3.2 i (e2.symm ▸ hi') ▸ hs
      rw [h4.2 i (e3.symm ▸ hi') hs']
      exact nz i hi' hs'
  | .disjoint f g range, _, _, ⟨h1, h2, h3⟩, ⟨_, _, a⟩ => ⟨h1.2.1, h2.2.1, Check.Apart.equal h3 h1.equal h2.equal a⟩
  | .setDisjoint f g range, _, _, ⟨h1, h2, h3⟩, ⟨d1, d2, a⟩ => ⟨h1.equal.nodup d1, h2.equal.nodup d2, Check.Apart.equal h3 h1.equal h2.equal a⟩
  | .union f g u range, ⟨_, _, _, e3, _⟩, ⟨_, _, _, _, hm⟩, ⟨h1, h2, h3, h4, h5⟩, ⟨_, _, b3, _, d, a, s⟩ => by
    have au := (SameCol.bag h3 h4).alike e3
    refine ⟨h1.2.1, h2.2.1, au.boolean b3, nats_le hN hm, au.nodup d, fun z => ?_, h3.sorted h4 h5 e3 s⟩
    rw [h1.equal.active, h2.equal.active, au.active]; exact a z
  | .diff f g l m mult range, _, _, ⟨h1, h2, h3, h4, h5, h6⟩, ⟨d1, d2, a, s, t⟩ => by
    refine ⟨h3.equal.nodup d1, h2.equal.nodup d2, Check.Apart.equal h6 h3.equal h2.equal a, fun z => ?_, fun z => ?_⟩
    · rw [h3.equal.weight_one, h4.equal.weight_one, h1.equal.weight_one]; exact s z
    · rw [h4.equal.weight_one, h5]; exact t z
  | .intersect f g l m r range, _, _, ⟨h1, h2, h3, h4, h5, h6⟩, ⟨d1, d2, a, s, t⟩ => by
    refine ⟨h3.equal.nodup d1, h5.equal.nodup d2, Check.Apart.equal h6 h3.equal h5.equal a, fun z => ?_, fun z => ?_⟩
    · rw [h3.equal.weight_one, h4.equal.weight_one, h1.equal.weight_one]; exact s z
    · rw [h4.equal.weight_one, h5.equal.weight_one, h2.equal.weight_one]; exact t z
  | .indexTransform inp out, _, _, ⟨h1, h2⟩, ⟨_, _, hv⟩ => by
    refine ⟨h1.2.1, h2.2.1, fun i hi => ?_⟩
    obtain ⟨i', hi', e'⟩ := h2.back hi
    obtain ⟨j, hj, e⟩ := hv i' hi'
    obtain ⟨j', hj', e''⟩ := h1.on hj
    exact ⟨j', hj', (e'.symm.trans e).trans e''.symm⟩
  | .joinAdvice a b ai bi ta, ⟨_, _, e2, e3, _⟩, _, ⟨h1, h2, h3⟩, ⟨_, b2, hv⟩ => by
    have a2 := h2.alike e2
    refine ⟨h1.2.1, a2.boolean b2, fun i hi => ?_⟩
    have hi' := a2.on hi
    obtain ⟨j, hj, e, k⟩ := hv i hi'
    obtain ⟨j', hj', e'⟩ := h1.on hj
    refine ⟨j', hj', ?_, ?_⟩
    · rw [e', ← e]
      exact List.map_congr_left fun c hc => (h3 c hc).2 i ((e3 c hc).symm ▸ hi'.1) hi'.2
    · rw [col_of_row e', TabData.Alike.col_eq (a2.onRow hi')]; exact k
  | .groupBy inp key grp mult aggs range, ⟨_, _, e2, e3, _, _, e4⟩, ⟨hn', _⟩, ⟨h1, h2, h3, h4, h5, h6⟩, ⟨_, _, G, s⟩ => by
    have ag := (SameCol.bag h2 h3).alike e2
    have a1 := h1.bag key
    have back : ∀ i, i < 2 ^ (bagTab W' grp).nv → (bagTab W' grp).sel i ≠ 0 → i < 2 ^ (W grp.1).nv ∧ (W grp.2).val i ≠ 0 := fun i hi hs => by
      have hi' : i < 2 ^ (W grp.1).nv := h2.1 ▸ hi
      exact ⟨hi', h3.2 i (e2.symm ▸ hi') ▸ hs⟩
    refine ⟨h1.2.1, ?_, ⟨ag.boolean G.boolean, ag.nodup G.nodup, fun z => ?_, fun i hi hs => ?_, fun e he ht i hi hs => ?_⟩, h2.sorted h3 h6 e2 s⟩
    · exact nats_le hN (hn' _ (by simp [Check.names]))
    · exact (a1.active z).trans ((G.active z).trans (ag.active z).symm)
    · obtain ⟨hi', hs'⟩ := back i hi hs
      change (W' mult).val i = (((tabData W' inp).bag key).count ((W' grp.1).val i) : F)
      rw [a1.count, h2.2 i hi', h4.2 i (e3.symm ▸ hi') hs']
      exact G.counts i hi' hs'
    · obtain ⟨x, hx, rfl⟩ := List.mem_map.1 he
      obtain ⟨hi', hs'⟩ := back i hi hs
      change (W' x.2.2).val i = Spec.sumAt (tabData W' inp) key x.1 ((W' grp.1).val i)
      rw [h1.sumAt, h2.2 i hi', (h5 x hx).2 i ((e4 x hx).1.symm ▸ hi') hs']
      exact G.sums (x.1, x.2.1, (W x.2.2).val) (List.mem_map.2 ⟨x, hx, rfl⟩) ht i hi' hs'
  | .selector m, hf, _, h, hv => Check.valid_same (.selector m) hf h hv
  | .permutation f g p, hf, _, h, hv => Check.valid_same (.permutation f g p) hf h hv
  | .sort f range, hf, _, h, hv => Check.valid_same (.sort f range) hf h hv
  | .joinReduction f g lSel rSel range, hf, _, h, hv => Check.valid_same (.joinReduction f g lSel rSel range) hf h hv

/-- What an accepted check says depends on the contents of the bags and tables only, except that the disjointness check says less of bags stored in more rows. -/
theorem Check.means_contents {N D : Nat} : ∀ (c : Check K), c.Fits D W → (∀ f g r, c = .disjoint f g r → max (W f.1).nv (W g.1).nv ≤ max (W' f.1).nv (W' g.1).nv) → c.SameContents W W' → c.Means N W → c.Means N W'
  | .multiset fs gs, _, _, h, hv => fun z => by
    rw [total_weights fs fun e he => h e (List.mem_append_left _ he), total_weights gs fun e he => h e (List.mem_append_right _ he)]
    exact hv z
  | .bagEq f g, _, _, ⟨h1, h2⟩, hv => by
    refine ⟨fun z => by rw [h1.equal.weight_one, h2.equal.weight_one]; exact hv.1 z, fun _ _ z => ?_⟩
    rw [h1.equal.count, h2.equal.count]
    exact hv.2 h1.1 h2.1 z
  | .bagSum f g k, _, _, ⟨h1, h2, h3⟩, hv => fun z => by rw [h1.equal.weight_one, h2.equal.weight_one, h3.equal.weight_one]; exact hv z
  | .inclusion f g, _, _, ⟨h1, h2⟩, hv =>
    ⟨fun z => by rw [h1.equal.weight_one, h2.equal.active]; exact hv.1 z, fun _ z => by rw [h1.equal.active, h2.equal.active]; exact hv.2 h1.1 z⟩
  | .inclusionAdvice f g m, _, _, ⟨h1, h2⟩, hv => fun z => by rw [h1.equal.weight_one, h2]; exact hv z
  | .noZeros f, _, _, h1, hv => fun i hi hs hz => by
    obtain ⟨j, hj, sj, e⟩ := (h1.equal.active ((W' f.1).val i)).1 ⟨i, hi, hs, rfl⟩
    exact hv j hj sj (e.trans hz)
  | .support f g range, hf, _, ⟨h1, h2, h3, h4⟩, hv => fun M hM b => by
    have ag := (SameCol.bag h2 h3).alike hf.2.2
    rw [h2.1] at hM
    obtain ⟨d, a⟩ := hv M (h4.small hM) h1.1
    exact ⟨ag.nodup d, fun z => (h1.equal.active z).trans ((a z).trans (ag.active z).symm)⟩
  | .supportAdvice f g m range, ⟨_, _, e2, _⟩, _, ⟨h1, h2, h3, _, h5⟩, hv => fun M hM b => by
    have ag := (SameCol.bag h2 h3).alike e2
    rw [h2.1] at hM
    obtain ⟨d, a⟩ := hv M (h5.small hM) h1.1
    exact ⟨ag.nodup d, fun z => (h1.equal.active z).trans ((a z).trans (ag.active z).symm)⟩
  | .disjoint f g range, _, hs, ⟨h1, h2, h3⟩, hv => fun M hM _ _ z => by
    have hM := h3.small hM
    have le := hs f g range rfl
    rw [h1.equal.active, h2.equal.active]
    refine hv M ⟨fun i h0 hi => hM.1 i h0 (hi.trans (Nat.mul_le_mul_right M (Nat.pow_le_pow_right (by omega) (by omega)))), hM.2⟩ h1.1 h2.1 z
  | .setDisjoint _ _ _, _, _, _, _ => trivial
  | .union f g u range, ⟨_, _, _, e3, _⟩, _, ⟨h1, h2, h3, h4, h5⟩, hv => fun M hM _ _ => by
    have au := (SameCol.bag h3 h4).alike e3
    rw [h3.1] at hM
    obtain ⟨d, a⟩ := hv M (h5.small hM) h1.1 h2.1
    exact ⟨au.nodup d, fun z => (au.active z).trans ((a z).trans (or_congr (h1.equal.active z) (h2.equal.active z)).symm)⟩
  | .diff f g l m mult range, _, _, ⟨h1, h2, h3, h4, _, _⟩, ⟨s, t⟩ => by
    refine ⟨fun z => ?_, fun z => ?_⟩
    · rw [h3.equal.weight_one, h4.equal.weight_one, h1.equal.weight_one]; exact s z
    · rw [h4.equal.weight_one, h2.equal.active]; exact t z
  | .intersect f g l m r range, _, _, ⟨h1, h2, h3, h4, h5, _⟩, ⟨s, t⟩ => by
    refine ⟨fun z => ?_, fun z => ?_⟩
    · rw [h3.equal.weight_one, h4.equal.weight_one, h1.equal.weight_one]; exact s z
    · rw [h4.equal.weight_one, h5.equal.weight_one, h2.equal.weight_one]; exact t z
  | .indexTransform inp out, _, _, ⟨h1, h2⟩, hv => fun _ _ i hi => by
    obtain ⟨i', hi', e'⟩ := h2.back hi
    obtain ⟨j, hj, e⟩ := hv h1.1 h2.1 i' hi'
    obtain ⟨j', hj', e''⟩ := h1.on hj
    exact ⟨j', hj', by rw [← e', e'', e]⟩
  | .joinAdvice a b ai bi ta, ⟨_, _, e2, e3, _⟩, _, ⟨h1, h2, h3⟩, hv => fun _ b2 i hi => by
    have a2 := h2.alike e2
    have hi' := a2.on hi
    obtain ⟨k, j, hj, e⟩ := hv h1.1 (a2.symm.boolean b2) i hi'
    obtain ⟨j', hj', e'⟩ := h1.on hj
    have row : (ta.map fun c => (W' c).val i) = ta.map fun c => (W c).val i := List.map_congr_left fun c hc => (h3 c hc).2 i ((e3 c hc).symm ▸ hi'.1) hi'.2
    have get : ∀ X : K → Column F, ((ta.map fun c => (X c).val).getD ai fun _ => 0) i = (ta.map fun c => (X c).val i).getD ai 0 := fun X => by
      rw [← List.getD_map (f := fun c : Nat → F => c i) (d := fun _ => 0), List.map_map]
      rfl
    refine ⟨?_, j', hj', ?_⟩
    · rw [get, row, ← get, TabData.Alike.col_eq (a2.onRow hi')]; exact k
    · rw [e', ← e, List.map_map, List.map_map]
      exact congrArg List.prod row
  | .groupBy inp key grp mult aggs range, ⟨_, _, e2, e3, _, _, e4⟩, _, ⟨h1, h2, h3, h4, h5, h6⟩, hv => fun M hM _ => by
    have ag := (SameCol.bag h2 h3).alike e2
    have a1 := h1.bag key
    have back : ∀ i, i < 2 ^ (bagTab W' grp).nv → (bagTab W' grp).sel i ≠ 0 → i < 2 ^ (W grp.1).nv ∧ (W grp.2).val i ≠ 0 := fun i hi hs => by
      have hi' : i < 2 ^ (W grp.1).nv := h2.1 ▸ hi
      exact ⟨hi', h3.2 i (e2.symm ▸ hi') ▸ hs⟩
    rw [h2.1] at hM
    obtain ⟨d, a, c, s, G⟩ := hv M (h6.small hM) h1.1
    refine ⟨ag.nodup d, fun z => (a1.active z).trans ((a z).trans (ag.active z).symm), fun i hi hs => ?_, fun e he ht i hi hs => ?_, fun b => ?_⟩
    · obtain ⟨hi', hs'⟩ := back i hi hs
      rw [a1.count, h2.2 i hi', h4.2 i (e3.symm ▸ hi') hs', h3.2 i (e2.symm ▸ hi')]
      exact c i hi' hs'
    · obtain ⟨hi', hs'⟩ := back i hi hs
      rw [h1.sumAt, h2.2 i hi', (h5 e he).2 i ((e4 e he).1.symm ▸ hi') hs', h3.2 i (e2.symm ▸ hi')]
      exact s e he ht i hi' hs'
    · have G := G (ag.symm.boolean b)
      refine ⟨b, ag.nodup G.nodup, fun z => (a1.active z).trans ((G.active z).trans (ag.active z).symm), fun i hi hs => ?_, fun e he ht i hi hs => ?_⟩
      · obtain ⟨hi', hs'⟩ := back i hi hs
        change (W' mult).val i = (((tabData W' inp).bag key).count ((W' grp.1).val i) : F)
        rw [a1.count, h2.2 i hi', h4.2 i (e3.symm ▸ hi') hs']
        exact G.counts i hi' hs'
      · obtain ⟨x, hx, rfl⟩ := List.mem_map.1 he
        obtain ⟨hi', hs'⟩ := back i hi hs
        change (W' x.2.2).val i = Spec.sumAt (tabData W' inp) key x.1 ((W' grp.1).val i)
        rw [h1.sumAt, h2.2 i hi', (h5 x hx).2 i ((e4 x hx).1.symm ▸ hi') hs']
        exact G.sums (x.1, x.2.1, (W x.2.2).val) (List.mem_map.2 ⟨x, hx, rfl⟩) ht i hi' hs'
  | .selector m, hf, _, h, hv => Check.means_same (.selector m) hf h hv
  | .permutation f g p, hf, _, h, hv => Check.means_same (.permutation f g p) hf h hv
  | .sort f range, hf, _, h, hv => Check.means_same (.sort f range) hf h hv
  | .joinReduction f g lSel rSel range, hf, _, h, hv => Check.means_same (.joinReduction f g lSel rSel range) hf h hv

/-- Programs. -/
theorem Step.validAll_contents {rep : F → Nat} {N : Nat} (hN : NatsNonzero F (2 ^ N)) : ∀ (prog prog' : List (Step F)) (W W' : List (Column F)), Step.FitsAll N W prog → Step.FitsAll N W' prog' →
    Step.SameContentsAll W W' prog prog' → Step.ValidAll rep W prog → Step.ValidAll rep W' prog'
  | [], [], _, _, _, _, _, _ => trivial
  | [], _ :: _, _, _, _, _, h, _ => h.elim
  | s :: r, [], _, _, _, _, h, _ => by cases s <;> exact h.elim
  | .check c :: r, s' :: r', W, W', hf, hf', h, hv => by
    cases s' with
    | check c' =>
      obtain ⟨rfl, h1, h2⟩ := h
      exact ⟨Check.valid_contents hN _ hf.1.2 hf'.1.2 h1 hv.1, validAll_contents hN r r' W W' hf.2 hf'.2 h2 hv.2⟩
    | _ => exact absurd h.1 (by simp)
  | .commit p :: r, s' :: r', W, W', hf, hf', h, hv => by
    cases s' with
    | commit p' => exact validAll_contents hN r r' _ _ hf.2 hf'.2 h hv
    | _ => exact absurd h.1 (by simp)
  | .add i j :: r, s' :: r', W, W', hf, hf', h, hv => by
    obtain ⟨rfl, h⟩ := h; exact validAll_contents hN r r' _ _ hf.2 hf'.2 h hv
  | .sub i j :: r, s' :: r', W, W', hf, hf', h, hv => by
    obtain ⟨rfl, h⟩ := h; exact validAll_contents hN r r' _ _ hf.2 hf'.2 h hv
  | .mul i j :: r, s' :: r', W, W', hf, hf', h, hv => by
    obtain ⟨rfl, h⟩ := h; exact validAll_contents hN r r' _ _ hf.2 hf'.2 h hv
  | .addScalar i c :: r, s' :: r', W, W', hf, hf', h, hv => by
    obtain ⟨rfl, h⟩ := h; exact validAll_contents hN r r' _ _ hf.2 hf'.2 h hv
  | .mulScalar i c :: r, s' :: r', W, W', hf, hf', h, hv => by
    obtain ⟨rfl, h⟩ := h; exact validAll_contents hN r r' _ _ hf.2 hf'.2 h hv
  | .join a b ai bi :: r, s' :: r', W, W', hf, hf', h, hv => by
    obtain ⟨rfl, h⟩ := h; exact validAll_contents hN r r' _ _ hf.2 hf'.2 h hv

end Spec
end Zksql
