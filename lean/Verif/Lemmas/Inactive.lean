import Verif.Spec.Inactive
import Mathlib.Data.List.GetD
/-!
Sums and quantifiers over active rows do not depend on the other rows.
-/
set_option linter.unusedSectionVars false
namespace Zksql
open Spec
variable {F K : Type} [Field F] [DecidableEq F]

namespace Spec

/-- Two bags with the same selector and the same values in active rows. -/
structure BagTab.Alike (t t' : BagTab F) : Prop where
  nv : t'.nv = t.nv
  sel : ∀ i < 2 ^ t.nv, t'.sel i = t.sel i
  val : ∀ i < 2 ^ t.nv, t.sel i ≠ 0 → t'.val i = t.val i

namespace BagTab.Alike
variable {t t' : BagTab F}

theorem symm (h : t.Alike t') : t'.Alike t :=
  ⟨h.nv.symm, fun i hi => (h.sel i (h.nv ▸ hi)).symm, fun i hi hs => (h.val i (h.nv ▸ hi) (h.sel i (h.nv ▸ hi) ▸ hs)).symm⟩

theorem weight (h : t.Alike t') {m m' : Nat → F} (hm : ∀ i < 2 ^ t.nv, t.sel i ≠ 0 → m' i = m i) (z : F) : t'.weight m' z = t.weight m z := by
  unfold BagTab.weight
  rw [h.nv]
  refine Finset.sum_congr rfl fun i hi => ?_
  have hi := Finset.mem_range.1 hi
  rw [h.sel i hi]
  by_cases hs : t.sel i = 0
  · simp [hs]
  · rw [h.val i hi hs, hm i hi hs]

theorem weight_one (h : t.Alike t') (z : F) : t'.weight (fun _ => 1) z = t.weight (fun _ => 1) z := h.weight (fun _ _ _ => rfl) z

theorem active' (h : t.Alike t') {z : F} (ha : t.Active z) : t'.Active z := by
  obtain ⟨i, hi, hs, hv⟩ := ha
  exact ⟨i, h.nv.symm ▸ hi, (h.sel i hi).symm ▸ hs, (h.val i hi hs).trans hv⟩

theorem active (h : t.Alike t') (z : F) : t'.Active z ↔ t.Active z := ⟨h.symm.active', h.active'⟩

theorem boolean (h : t.Alike t') (hb : t.Boolean) : t'.Boolean := fun i hi => by rw [h.sel i (h.nv ▸ hi)]; exact hb i (h.nv ▸ hi)

theorem nodup (h : t.Alike t') (hb : t.Nodup) : t'.Nodup := fun i hi j hj si sj e => by
  rw [h.nv] at hi hj
  rw [h.sel i hi] at si
  rw [h.sel j hj] at sj
  rw [h.val i hi si, h.val j hj sj] at e
  exact hb i hi j hj si sj e

theorem below (h : t.Alike t') {rep : F → Nat} {M : Nat} (hb : t.Below rep M) : t'.Below rep M := fun i hi si => by
  rw [h.nv] at hi
  rw [h.sel i hi] at si
  rw [h.val i hi si]
  exact hb i hi si

theorem count (h : t.Alike t') (z : F) : t'.count z = t.count z := by
  unfold BagTab.count
  rw [h.nv]
  congr 1
  refine List.filter_congr fun i hi => ?_
  have hi := List.mem_range.1 hi
  rw [h.sel i hi]
  by_cases hs : t.sel i = 0
  · simp [hs]
  · rw [h.val i hi hs]

end BagTab.Alike

/-- Two tables with the same selector and the same values in active rows. -/
structure TabData.Alike (t t' : TabData F) : Prop where
  nv : t'.nv = t.nv
  sel : ∀ i < 2 ^ t.nv, t'.sel i = t.sel i
  row : ∀ i < 2 ^ t.nv, t.sel i ≠ 0 → t'.row i = t.row i

namespace TabData.Alike
variable {t t' : TabData F}

theorem col_eq {t t' : TabData F} {i : Nat} (h : t'.row i = t.row i) (k : Nat) : t'.col k i = t.col k i := by
  have e : ∀ T : TabData F, T.col k i = (T.row i).getD k 0 := fun T => by
    unfold TabData.col TabData.row
    exact (List.getD_map (f := fun c : Nat → F => c i) (l := T.cols) (n := k) (d := fun _ => 0)).symm
  rw [e, e, h]

theorem symm (h : t.Alike t') : t'.Alike t :=
  ⟨h.nv.symm, fun i hi => (h.sel i (h.nv ▸ hi)).symm, fun i hi hs => (h.row i (h.nv ▸ hi) (h.sel i (h.nv ▸ hi) ▸ hs)).symm⟩

theorem on (h : t.Alike t') {i : Nat} (ho : t'.On i) : t.On i := by
  have hi : i < 2 ^ t.nv := h.nv ▸ ho.1
  exact ⟨hi, h.sel i hi ▸ ho.2⟩

theorem boolean (h : t.Alike t') (hb : t.Boolean) : t'.Boolean := fun i hi => by rw [h.sel i (h.nv ▸ hi)]; exact hb i (h.nv ▸ hi)

theorem bag (h : t.Alike t') (k : Nat) : (t.bag k).Alike (t'.bag k) := ⟨h.nv, h.sel, fun i hi hs => col_eq (h.row i hi hs) k⟩

theorem sumAt (h : t.Alike t') (key c : Nat) (z : F) : Spec.sumAt t' key c z = Spec.sumAt t key c z := by
  unfold Spec.sumAt
  rw [h.nv]
  refine Finset.sum_congr rfl fun i hi => ?_
  have hi := Finset.mem_range.1 hi
  rw [h.sel i hi]
  by_cases hs : t.sel i = 0
  · simp [hs]
  · rw [col_eq (h.row i hi hs), col_eq (h.row i hi hs)]

theorem onRow (h : t.Alike t') {i : Nat} (ho : t.On i) : t'.row i = t.row i := h.row i ho.1 ho.2

end TabData.Alike

variable {W W' : K → Column F}

theorem SameBag.alike {b : K × K} (h : SameBag W W' b) (e : Even W b) : (bagTab W b).Alike (bagTab W' b) := ⟨h.2.1, fun i hi => h.1.2 i (e ▸ hi), h.2.2⟩

theorem SameCol.bag {v s : K} (h1 : SameCol W W' v) (h2 : SameCol W W' s) : SameBag W W' (v, s) := ⟨h2, h1.1, fun i hi _ => h1.2 i hi⟩

theorem SameTab.alike {t : List K × K} (h : SameTab W W' t) (e : EvenTab W t) : (tabData W t).Alike (tabData W' t) := ⟨h.1.1, h.1.2, fun i hi hs => by
  unfold TabData.row tabData
  rw [List.map_map, List.map_map]
  exact List.map_congr_left fun c hc => (h.2 c hc).2 i ((e c hc).symm ▸ hi) hs⟩

theorem SameCol.sorted {v s r : K} (h1 : SameCol W W' v) (h2 : SameCol W W' s) (h3 : SameCol W W' r) (e : (W s).nv = (W v).nv)
    (h : SortedIn (W v).nv (W r).nv (W v).val (W s).val (W r).val) : SortedIn (W' v).nv (W' r).nv (W' v).val (W' s).val (W' r).val := by
  rw [h1.1, h3.1]
  intro i hi
  obtain ⟨⟨j, hj, hd⟩, hn⟩ := h i hi
  rw [h1.2 i (by omega), h1.2 (i + 1) hi, h2.2 i (by rw [e]; omega)]
  exact ⟨⟨j, hj, by rw [h3.2 j hj]; exact hd⟩, hn⟩

theorem SameCol.covers {r : K} (h : SameCol W W' r) {M : Nat} (hc : Covers (W r).nv (W r).val M) : Covers (W' r).nv (W' r).val M := fun k hk => by
  obtain ⟨j, hj, e⟩ := hc k hk
  exact ⟨j, h.1.symm ▸ hj, (h.2 j hj).trans e⟩

theorem Check.Apart.alike {rep : F → Nat} {r : K} {S T S' T' : BagTab F} (h : SameCol W W' r) (h1 : S.Alike S') (h2 : T.Alike T') (ha : Check.Apart rep (W r) S T) : Check.Apart rep (W' r) S' T' := by
  obtain ⟨M, c, p, cv, b1, b2, n⟩ := ha
  exact ⟨M, c, p, h.covers cv, h1.below b1, h2.below b2, fun z => by rw [h1.active, h2.active]; exact n z⟩

theorem SameCol.nv_le {N : Nat} {k : K} (h : SameCol W W' k) (e : (W k).nv ≤ N) : (W' k).nv ≤ N := h.1 ▸ e

theorem total_alike (l : List ((K × K) × K)) (hf : ∀ e ∈ l, Even W e.1) (h : ∀ e ∈ l, SameBag W W' e.1 ∧ SameWhere W W' e.1.2 e.2) (hn : ∀ e ∈ l, (W e.2).nv = (W e.1.1).nv) (z : F) :
    Side.total (l.map fun e => (bagTab W' e.1, (W' e.2).val)) z = Side.total (l.map fun e => (bagTab W e.1, (W e.2).val)) z := by
  unfold Side.total
  rw [List.map_map, List.map_map]
  congr 1
  refine List.map_congr_left fun e he => ?_
  exact ((h e he).1.alike (hf e he)).weight (fun i hi hs => (h e he).2.2 i ((hn e he).symm ▸ hi) hs) z

/-- What an honest prover needs of the data does not depend on the rows that are switched off. -/
theorem Check.valid_same {rep : F → Nat} {N : Nat} : ∀ (c : Check K), c.Fits N W → c.SameActive W W' → c.Valid rep W → c.Valid rep W'
  | .multiset fs gs, ⟨_, _, _, hf⟩, h, hv => fun z => by
    rw [total_alike fs (fun e he => (hf e (List.mem_append_left _ he)).1) (fun e he => h e (List.mem_append_left _ he)) (fun e he => (hf e (List.mem_append_left _ he)).2),
      total_alike gs (fun e he => (hf e (List.mem_append_right _ he)).1) (fun e he => h e (List.mem_append_right _ he)) (fun e he => (hf e (List.mem_append_right _ he)).2)]
    exact hv z
  | .bagEq f g, ⟨_, e1, e2, _⟩, ⟨h1, h2⟩, hv => fun z => by rw [(h1.alike e1).weight_one, (h2.alike e2).weight_one]; exact hv z
  | .bagSum f g k, ⟨_, e1, e2, e3⟩, ⟨h1, h2, h3⟩, hv => fun z => by rw [(h1.alike e1).weight_one, (h2.alike e2).weight_one, (h3.alike e3).weight_one]; exact hv z
  | .inclusion f g, ⟨_, e1, e2⟩, ⟨h1, h2⟩, ⟨b1, b2, hv⟩ =>
    ⟨(h1.alike e1).boolean b1, (h2.alike e2).boolean b2, fun z => by rw [(h1.alike e1).active, (h2.alike e2).active]; exact hv z⟩
  | .inclusionAdvice f g m, ⟨_, e1, e2, e3⟩, ⟨h1, h2, h3⟩, hv => fun z => by
    rw [(h1.alike e1).weight_one, (h2.alike e2).weight fun i hi hs => h3.2 i (e3.symm ▸ hi) hs]; exact hv z
  | .noZeros f, ⟨_, e1⟩, h1, hv => fun i hi hs => by
    have hi' : i < 2 ^ (W f.1).nv := h1.2.1 ▸ hi
    have hs' : (W f.2).val i ≠ 0 := h1.1.2 i (e1.symm ▸ hi') ▸ hs
    rw [h1.2.2 i hi' hs']
    exact hv i hi' hs'
  | .selector m, _, h1, hv => fun i hi => by rw [h1.2 i (h1.1 ▸ hi)]; exact hv i (h1.1 ▸ hi)
  | .permutation f g p, ⟨_, _, _, e1, e2⟩, ⟨h1, h2, h3⟩, hv => by
    obtain ⟨σ, s1, s2, s3⟩ := hv
    refine ⟨σ, h1.1 ▸ s1, h1.1 ▸ s2, fun i hi => ?_⟩
    rw [h1.1] at hi
    rw [h3.2 i (e2.symm ▸ hi), h2.2 i (e1.symm ▸ hi), h1.2 (σ i) (s1 i hi)]
    exact s3 i hi
  | .sort f range, ⟨_, e1⟩, ⟨h1, h2, h3⟩, hv => h1.sorted h2 h3 e1 hv
  | .support f g range, ⟨_, e1, e2⟩, ⟨h1, h2, h3, h4⟩, ⟨b1, b2, n, d, a, s⟩ => by
    have al := h1.alike e1
    have ag := (SameCol.bag h2 h3).alike e2
    refine ⟨al.boolean b1, ag.boolean b2, ?_, ag.nodup d, fun z => ?_, h2.sorted h3 h4 e2 s⟩
    · rw [h1.2.1]; exact n
    · rw [al.active, ag.active]; exact a z
  | .supportAdvice f g m range, ⟨_, e1, e2, e3⟩, ⟨h1, h2, h3, h4, h5⟩, ⟨a, nz, s⟩ => by
    have al := h1.alike e1
    have ag := (SameCol.bag h2 h3).alike e2
    refine ⟨fun z => ?_, fun i hi hs => ?_, h2.sorted h3 h5 e2 s⟩
    · rw [al.weight_one, ag.weight fun i hi hs => h4.2 i (e3.symm ▸ hi) hs]; exact a z
    · have hi' : i < 2 ^ (W g.1).nv := h2.1 ▸ hi
      have hs' : (W g.2).val i ≠ 0 := h3.2 i (e2.symm ▸ hi') ▸ hs
      rw [h4.2 i (e3.symm ▸ hi') hs']
      exact nz i hi' hs'
  | .disjoint f g range, ⟨_, e1, e2, _⟩, ⟨h1, h2, h3⟩, ⟨b1, b2, a⟩ => ⟨(h1.alike e1).boolean b1, (h2.alike e2).boolean b2, a.alike h3 (h1.alike e1) (h2.alike e2)⟩
  | .setDisjoint f g range, ⟨_, e1, e2, _⟩, ⟨h1, h2, h3⟩, ⟨b1, b2, a⟩ => ⟨(h1.alike e1).nodup b1, (h2.alike e2).nodup b2, a.alike h3 (h1.alike e1) (h2.alike e2)⟩
  | .union f g u range, ⟨_, e1, e2, e3, _⟩, ⟨h1, h2, h3, h4, h5⟩, ⟨b1, b2, b3, n, d, a, s⟩ => by
    have au := (SameCol.bag h3 h4).alike e3
    refine ⟨(h1.alike e1).boolean b1, (h2.alike e2).boolean b2, au.boolean b3, ?_, au.nodup d, fun z => ?_, h3.sorted h4 h5 e3 s⟩
    · rw [h1.2.1, h2.2.1]; exact n
    · rw [(h1.alike e1).active, (h2.alike e2).active, au.active]; exact a z
  | .diff f g l m mult range, ⟨_, e1, e2, e3, e4, e5, _⟩, ⟨h1, h2, h3, h4, h5, h6⟩, ⟨d1, d2, a, s, t⟩ => by
    refine ⟨(h3.alike e3).nodup d1, (h2.alike e2).nodup d2, a.alike h6 (h3.alike e3) (h2.alike e2), fun z => ?_, fun z => ?_⟩
    · rw [(h3.alike e3).weight_one, (h4.alike e4).weight_one, (h1.alike e1).weight_one]; exact s z
    · rw [(h4.alike e4).weight_one, (h2.alike e2).weight fun i hi hs => h5.2 i (e5.symm ▸ hi) hs]; exact t z
  | .intersect f g l m r range, ⟨_, e1, e2, e3, e4, e5, _⟩, ⟨h1, h2, h3, h4, h5, h6⟩, ⟨d1, d2, a, s, t⟩ => by
    refine ⟨(h3.alike e3).nodup d1, (h5.alike e5).nodup d2, a.alike h6 (h3.alike e3) (h5.alike e5), fun z => ?_, fun z => ?_⟩
    · rw [(h3.alike e3).weight_one, (h4.alike e4).weight_one, (h1.alike e1).weight_one]; exact s z
    · rw [(h4.alike e4).weight_one, (h5.alike e5).weight_one, (h2.alike e2).weight_one]; exact t z
  | .joinReduction f g lSel rSel range, ⟨_, e1, e2, e3, e4, _⟩, ⟨h1, h2, h3, h4, h5⟩, ⟨b1, b2, ⟨M, c, p, cv, w1, w2⟩, l, r, s, t⟩ => by
    have a1 := h1.alike e1
    have a2 := h2.alike e2
    refine ⟨a1.boolean b1, a2.boolean b2, ⟨M, c, p, h5.covers cv, a1.below w1, a2.below w2⟩, fun i hi => ?_, fun i hi => ?_, fun i hi hs => ?_, fun i hi hs => ?_⟩
    · have hi' : i < 2 ^ (W f.1).nv := h1.2.1 ▸ hi
      rw [h3.2 i (e3.symm ▸ hi')]; exact l i hi'
    · have hi' : i < 2 ^ (W g.1).nv := h2.2.1 ▸ hi
      rw [h4.2 i (e4.symm ▸ hi')]; exact r i hi'
    · have hi' : i < 2 ^ (W f.1).nv := h1.2.1 ▸ hi
      have hs' : (W f.2).val i ≠ 0 := h1.1.2 i (e1.symm ▸ hi') ▸ hs
      rw [h3.2 i (e3.symm ▸ hi'), a2.active, h1.2.2 i hi' hs']; exact s i hi' hs'
    · have hi' : i < 2 ^ (W g.1).nv := h2.2.1 ▸ hi
      have hs' : (W g.2).val i ≠ 0 := h2.1.2 i (e2.symm ▸ hi') ▸ hs
      rw [h4.2 i (e4.symm ▸ hi'), a1.active, h2.2.2 i hi' hs']; exact t i hi' hs'
  | .indexTransform inp out, ⟨_, e1, e2, _⟩, ⟨h1, h2⟩, ⟨b1, b2, hv⟩ => by
    have a1 := h1.alike e1
    have a2 := h2.alike e2
    refine ⟨a1.boolean b1, a2.boolean b2, fun i hi => ?_⟩
    obtain ⟨j, hj, e⟩ := hv i (a2.on hi)
    exact ⟨j, a1.symm.on hj, by rw [a2.onRow (a2.on hi), a1.onRow hj]; exact e⟩
  | .joinAdvice a b ai bi ta, ⟨_, e1, e2, e3, _⟩, ⟨h1, h2, h3⟩, ⟨b1, b2, hv⟩ => by
    have a1 := h1.alike e1
    have a2 := h2.alike e2
    refine ⟨a1.boolean b1, a2.boolean b2, fun i hi => ?_⟩
    have hi' := a2.on hi
    obtain ⟨j, hj, e, k⟩ := hv i hi'
    refine ⟨j, a1.symm.on hj, ?_, ?_⟩
    · rw [a1.onRow hj, ← e]
      exact List.map_congr_left fun c hc => (h3 c hc).2 i ((e3 c hc).symm ▸ hi'.1) hi'.2
    · rw [TabData.Alike.col_eq (a1.onRow hj), TabData.Alike.col_eq (a2.onRow hi')]; exact k
  | .groupBy inp key grp mult aggs range, ⟨_, e1, e2, e3, _, _, e4⟩, ⟨h1, h2, h3, h4, h5, h6⟩, ⟨b1, n, G, s⟩ => by
    have a1 := h1.alike e1
    have ag := (SameCol.bag h2 h3).alike e2
    have back : ∀ i, i < 2 ^ (bagTab W' grp).nv → (bagTab W' grp).sel i ≠ 0 → i < 2 ^ (W grp.1).nv ∧ (W grp.2).val i ≠ 0 := fun i hi hs => by
      have hi' : i < 2 ^ (W grp.1).nv := h2.1 ▸ hi
      exact ⟨hi', h3.2 i (e2.symm ▸ hi') ▸ hs⟩
    refine ⟨a1.boolean b1, ?_, ⟨ag.boolean G.boolean, ag.nodup G.nodup, fun z => ?_, fun i hi hs => ?_, fun e he ht i hi hs => ?_⟩, h2.sorted h3 h6 e2 s⟩
    · rw [h1.1.1]; exact n
    · exact ((a1.bag key).active z).trans ((G.active z).trans (ag.active z).symm)
    · obtain ⟨hi', hs'⟩ := back i hi hs
      change (W' mult).val i = (((tabData W' inp).bag key).count ((W' grp.1).val i) : F)
      rw [(a1.bag key).count, h2.2 i hi', h4.2 i (e3.symm ▸ hi') hs']
      exact G.counts i hi' hs'
    · obtain ⟨x, hx, rfl⟩ := List.mem_map.1 he
      obtain ⟨hi', hs'⟩ := back i hi hs
      change (W' x.2.2).val i = sumAt (tabData W' inp) key x.1 ((W' grp.1).val i)
      rw [a1.sumAt, h2.2 i hi', (h5 x hx).2 i ((e4 x hx).1.symm ▸ hi') hs']
      exact G.sums (x.1, x.2.1, (W x.2.2).val) (List.mem_map.2 ⟨x, hx, rfl⟩) ht i hi' hs'

theorem SameCol.small {r : K} (h : SameCol W W' r) {n M : Nat} (hs : Small (W' r) n M) : Small (W r) n M := ⟨hs.1, fun j hj => by
  obtain ⟨k, hk, e⟩ := hs.2 j (h.1.symm ▸ hj)
  exact ⟨k, hk, (h.2 j hj).symm.trans e⟩⟩

theorem SameCol.over {k : K} (h : SameCol W W' k) : (W' k).over = (W k).over := funext fun b => by
  unfold Column.over
  rw [h.1, h.2 _ (Nat.mod_lt _ (Nat.two_pow_pos _))]

theorem Joins.alike {A A' T T' : TabData F} {ai bi : Nat} {Ms Ms' : List (Nat → F)} (h1 : A.Alike A') (h2 : T.Alike T') (h3 : ∀ i, T.On i → Ms'.map (fun M => M i) = Ms.map fun M => M i)
    (h : Joins A T ai bi Ms) : Joins A' T' ai bi Ms' := fun b1 b2 i hi => by
  have hi' := h2.on hi
  obtain ⟨e, j, hj, p⟩ := h (h1.symm.boolean b1) (h2.symm.boolean b2) i hi'
  refine ⟨?_, j, h1.symm.on hj, ?_⟩
  · have g : ∀ L : List (Nat → F), (L.getD ai fun _ => 0) i = (L.map fun M => M i).getD ai 0 := fun L => (List.getD_map (f := fun c : Nat → F => c i) (l := L) (n := ai) (d := fun _ => 0)).symm
    rw [TabData.Alike.col_eq (h2.onRow hi'), ← e, g, g, h3 i hi']
  · rw [h3 i hi', h1.onRow hj]
    exact p

theorem increasing_same {v s : K} (h1 : SameCol W W' v) (h2 : SameCol W W' s) (e : (W s).nv = (W v).nv) (h : (bagTab W (v, s)).Increasing) : (bagTab W' (v, s)).Increasing := by
  obtain ⟨d, h3, h4⟩ := h
  refine ⟨d, fun i hi => ?_, fun i j hij hj => ?_⟩
  · have hi' : i < 2 ^ (W v).nv := h1.1 ▸ hi
    change (W' v).val i = (W' v).val 0 + d i
    rw [h1.2 i hi', h1.2 0 (by omega)]
    exact h3 i hi'
  · have hj' : j < 2 ^ (W v).nv := h1.1 ▸ hj
    refine ⟨(h4 i j hij hj').1, fun hs => (h4 i j hij hj').2 ?_⟩
    change (W' s).val i ≠ 0 at hs
    rwa [h2.2 i (by rw [e]; omega)] at hs

/-- What an accepted check says of the data does not depend on the rows that are switched off. -/
theorem Check.means_same {N D : Nat} : ∀ (c : Check K), c.Fits D W → c.SameActive W W' → c.Means N W → c.Means N W'
  | .multiset fs gs, ⟨_, _, _, hf⟩, h, hv => fun z => by
    rw [total_alike fs (fun e he => (hf e (List.mem_append_left _ he)).1) (fun e he => h e (List.mem_append_left _ he)) (fun e he => (hf e (List.mem_append_left _ he)).2),
      total_alike gs (fun e he => (hf e (List.mem_append_right _ he)).1) (fun e he => h e (List.mem_append_right _ he)) (fun e he => (hf e (List.mem_append_right _ he)).2)]
    exact hv z
  | .bagEq f g, ⟨_, e1, e2, _⟩, ⟨h1, h2⟩, hv => by
    have a1 := h1.alike e1
    have a2 := h2.alike e2
    refine ⟨fun z => by rw [a1.weight_one, a2.weight_one]; exact hv.1 z, fun b1 b2 z => ?_⟩
    rw [a1.count, a2.count]
    exact hv.2 (a1.symm.boolean b1) (a2.symm.boolean b2) z
  | .bagSum f g k, ⟨_, e1, e2, e3⟩, ⟨h1, h2, h3⟩, hv => fun z => by rw [(h1.alike e1).weight_one, (h2.alike e2).weight_one, (h3.alike e3).weight_one]; exact hv z
  | .inclusion f g, ⟨_, e1, e2⟩, ⟨h1, h2⟩, hv => by
    have a1 := h1.alike e1
    have a2 := h2.alike e2
    exact ⟨fun z => by rw [a1.weight_one, a2.active]; exact hv.1 z, fun b1 z => by rw [a1.active, a2.active]; exact hv.2 (a1.symm.boolean b1) z⟩
  | .inclusionAdvice f g m, ⟨_, e1, e2, e3⟩, ⟨h1, h2, h3⟩, hv => fun z => by
    rw [(h1.alike e1).weight_one, (h2.alike e2).weight fun i hi hs => h3.2 i (e3.symm ▸ hi) hs]; exact hv z
  | .noZeros f, ⟨_, e1⟩, h1, hv => fun i hi hs => by
    have hi' : i < 2 ^ (W f.1).nv := h1.2.1 ▸ hi
    have hs' : (W f.2).val i ≠ 0 := h1.1.2 i (e1.symm ▸ hi') ▸ hs
    rw [h1.2.2 i hi' hs']
    exact hv i hi' hs'
  | .selector m, _, h1, hv => fun i hi => by rw [h1.2 i (h1.1 ▸ hi)]; exact hv i (h1.1 ▸ hi)
  | .permutation f g p, ⟨_, _, _, e1, e2⟩, ⟨h1, h2, h3⟩, hv => by
    change (∀ x y, pairCount N (fun i : Nat => (i : F)) (W' f.1).over x y = pairCount N (W' p).over (W' g.1).over x y) ∧
      ∀ π : Nat → Nat, (∀ i < 2 ^ N, π i < 2 ^ N ∧ (W' p).over i = (π i : F)) → ∀ i < 2 ^ N, (W' f.1).over (π i) = (W' g.1).over i
    rw [h1.over, h2.over, h3.over]
    exact hv
  | .sort f range, ⟨_, e1⟩, ⟨h1, h2, h3⟩, ⟨v1, v2, v3⟩ => by
    refine ⟨v1.trans h1.1.symm, h1.sorted h2 h3 e1 v2, fun M hM => ?_⟩
    rw [h1.1] at hM
    obtain ⟨i1, i2⟩ := v3 M (h3.small hM)
    exact ⟨increasing_same h1 h2 e1 i1, ((SameCol.bag h1 h2).alike e1).nodup i2⟩
  | .support f g range, ⟨_, e1, e2⟩, ⟨h1, h2, h3, h4⟩, hv => fun M hM b => by
    have al := h1.alike e1
    have ag := (SameCol.bag h2 h3).alike e2
    rw [h2.1] at hM
    obtain ⟨d, a⟩ := hv M (h4.small hM) (al.symm.boolean b)
    exact ⟨ag.nodup d, fun z => (al.active z).trans ((a z).trans (ag.active z).symm)⟩
  | .supportAdvice f g m range, ⟨_, e1, e2, e3⟩, ⟨h1, h2, h3, h4, h5⟩, hv => fun M hM b => by
    have al := h1.alike e1
    have ag := (SameCol.bag h2 h3).alike e2
    rw [h2.1] at hM
    obtain ⟨d, a⟩ := hv M (h5.small hM) (al.symm.boolean b)
    exact ⟨ag.nodup d, fun z => (al.active z).trans ((a z).trans (ag.active z).symm)⟩
  | .disjoint f g range, ⟨_, e1, e2, _⟩, ⟨h1, h2, h3⟩, hv => fun M hM b1 b2 z => by
    have a1 := h1.alike e1
    have a2 := h2.alike e2
    rw [h1.2.1, h2.2.1] at hM
    rw [a1.active, a2.active]
    exact hv M (h3.small hM) (a1.symm.boolean b1) (a2.symm.boolean b2) z
  | .setDisjoint _ _ _, _, _, _ => trivial
  | .union f g u range, ⟨_, e1, e2, e3, _⟩, ⟨h1, h2, h3, h4, h5⟩, hv => fun M hM b1 b2 => by
    have a1 := h1.alike e1
    have a2 := h2.alike e2
    have au := (SameCol.bag h3 h4).alike e3
    rw [h3.1] at hM
    obtain ⟨d, a⟩ := hv M (h5.small hM) (a1.symm.boolean b1) (a2.symm.boolean b2)
    exact ⟨au.nodup d, fun z => (au.active z).trans ((a z).trans (or_congr (a1.active z) (a2.active z)).symm)⟩
  | .diff f g l m mult range, ⟨_, e1, e2, e3, e4, e5, _⟩, ⟨h1, h2, h3, h4, h5, h6⟩, ⟨s, t⟩ => by
    refine ⟨fun z => ?_, fun z => ?_⟩
    · rw [(h3.alike e3).weight_one, (h4.alike e4).weight_one, (h1.alike e1).weight_one]; exact s z
    · rw [(h4.alike e4).weight_one, (h2.alike e2).active]; exact t z
  | .intersect f g l m r range, ⟨_, e1, e2, e3, e4, e5, _⟩, ⟨h1, h2, h3, h4, h5, h6⟩, ⟨s, t⟩ => by
    refine ⟨fun z => ?_, fun z => ?_⟩
    · rw [(h3.alike e3).weight_one, (h4.alike e4).weight_one, (h1.alike e1).weight_one]; exact s z
    · rw [(h4.alike e4).weight_one, (h5.alike e5).weight_one, (h2.alike e2).weight_one]; exact t z
  | .joinReduction f g lSel rSel range, ⟨_, e1, e2, e3, e4, _⟩, ⟨h1, h2, h3, h4, h5⟩, hv => fun M hp hM b1 b2 => by
    have a1 := h1.alike e1
    have a2 := h2.alike e2
    rw [h1.2.1, h2.2.1] at hM
    obtain ⟨l, r, s, t⟩ := hv M hp (h5.small hM) (a1.symm.boolean b1) (a2.symm.boolean b2)
    refine ⟨fun i hi => ?_, fun i hi => ?_, fun i hi hs => ?_, fun i hi hs => ?_⟩
    · have hi' : i < 2 ^ (W f.1).nv := h1.2.1 ▸ hi
      rw [h3.2 i (e3.symm ▸ hi')]; exact l i hi'
    · have hi' : i < 2 ^ (W g.1).nv := h2.2.1 ▸ hi
      rw [h4.2 i (e4.symm ▸ hi')]; exact r i hi'
    · have hi' : i < 2 ^ (W f.1).nv := h1.2.1 ▸ hi
      have hs' : (W f.2).val i ≠ 0 := h1.1.2 i (e1.symm ▸ hi') ▸ hs
      rw [h3.2 i (e3.symm ▸ hi'), a2.active, h1.2.2 i hi' hs']; exact s i hi' hs'
    · have hi' : i < 2 ^ (W g.1).nv := h2.2.1 ▸ hi
      have hs' : (W g.2).val i ≠ 0 := h2.1.2 i (e2.symm ▸ hi') ▸ hs
      rw [h4.2 i (e4.symm ▸ hi'), a1.active, h2.2.2 i hi' hs']; exact t i hi' hs'
  | .indexTransform inp out, ⟨_, e1, e2, _⟩, ⟨h1, h2⟩, hv => fun b1 b2 i hi => by
    have a1 := h1.alike e1
    have a2 := h2.alike e2
    obtain ⟨j, hj, e⟩ := hv (a1.symm.boolean b1) (a2.symm.boolean b2) i (a2.on hi)
    exact ⟨j, a1.symm.on hj, by rw [a2.onRow (a2.on hi), a1.onRow hj]; exact e⟩
  | .joinAdvice a b ai bi ta, ⟨_, e1, e2, e3, _⟩, ⟨h1, h2, h3⟩, hv => Joins.alike (h1.alike e1) (h2.alike e2) (fun i hi => by
      rw [List.map_map, List.map_map]
      exact List.map_congr_left fun c hc => (h3 c hc).2 i ((e3 c hc).symm ▸ hi.1) hi.2) hv
  | .groupBy inp key grp mult aggs range, ⟨_, e1, e2, e3, _, _, e4⟩, ⟨h1, h2, h3, h4, h5, h6⟩, hv => fun M hM b1 => by
    have a1 := h1.alike e1
    have ag := (SameCol.bag h2 h3).alike e2
    have back : ∀ i, i < 2 ^ (bagTab W' grp).nv → (bagTab W' grp).sel i ≠ 0 → i < 2 ^ (W grp.1).nv ∧ (W grp.2).val i ≠ 0 := fun i hi hs => by
      have hi' : i < 2 ^ (W grp.1).nv := h2.1 ▸ hi
      exact ⟨hi', h3.2 i (e2.symm ▸ hi') ▸ hs⟩
    rw [h2.1] at hM
    obtain ⟨d, a, c, s, G⟩ := hv M (h6.small hM) (a1.symm.boolean b1)
    refine ⟨ag.nodup d, fun z => ((a1.bag key).active z).trans ((a z).trans (ag.active z).symm), fun i hi hs => ?_, fun e he ht i hi hs => ?_, fun b => ?_⟩
    · obtain ⟨hi', hs'⟩ := back i hi hs
      rw [(a1.bag key).count, h2.2 i hi', h4.2 i (e3.symm ▸ hi') hs', h3.2 i (e2.symm ▸ hi')]
      exact c i hi' hs'
    · obtain ⟨hi', hs'⟩ := back i hi hs
      rw [a1.sumAt, h2.2 i hi', (h5 e he).2 i ((e4 e he).1.symm ▸ hi') hs', h3.2 i (e2.symm ▸ hi')]
      exact s e he ht i hi' hs'
    · have G := G (ag.symm.boolean b)
      refine ⟨b, ag.nodup G.nodup, fun z => ((a1.bag key).active z).trans ((G.active z).trans (ag.active z).symm), fun i hi hs => ?_, fun e he ht i hi hs => ?_⟩
      · obtain ⟨hi', hs'⟩ := back i hi hs
        change (W' mult).val i = (((tabData W' inp).bag key).count ((W' grp.1).val i) : F)
        rw [(a1.bag key).count, h2.2 i hi', h4.2 i (e3.symm ▸ hi') hs']
        exact G.counts i hi' hs'
      · obtain ⟨x, hx, rfl⟩ := List.mem_map.1 he
        obtain ⟨hi', hs'⟩ := back i hi hs
        change (W' x.2.2).val i = sumAt (tabData W' inp) key x.1 ((W' grp.1).val i)
        rw [a1.sumAt, h2.2 i hi', (h5 x hx).2 i ((e4 x hx).1.symm ▸ hi') hs']
        exact G.sums (x.1, x.2.1, (W x.2.2).val) (List.mem_map.2 ⟨x, hx, rfl⟩) ht i hi' hs'

/-- Programs. -/
theorem Step.validAll_same {rep : F → Nat} {N : Nat} : ∀ (prog prog' : List (Step F)) (W W' : List (Column F)), Step.FitsAll N W prog → Step.SameActiveAll W W' prog prog' → Step.ValidAll rep W prog →
    Step.ValidAll rep W' prog'
  | [], [], _, _, _, _, _ => trivial
  | [], _ :: _, _, _, _, h, _ => h.elim
  | s :: r, [], _, _, _, h, _ => by cases s <;> exact h.elim
  | .check c :: r, s' :: r', W, W', hf, h, hv => by
    cases s' with
    | check c' =>
      obtain ⟨rfl, h1, h2⟩ := h
      exact ⟨Check.valid_same _ hf.1.2 h1 hv.1, validAll_same r r' W W' hf.2 h2 hv.2⟩
    | _ => exact absurd h.1 (by simp)
  | .commit p :: r, s' :: r', W, W', hf, h, hv => by
    cases s' with
    | commit p' => exact validAll_same r r' _ _ hf.2 h.2 hv
    | _ => exact absurd h.1 (by simp)
  | .add i j :: r, s' :: r', W, W', hf, h, hv => by
    obtain ⟨rfl, h⟩ := h; exact validAll_same r r' _ _ hf.2 h hv
  | .sub i j :: r, s' :: r', W, W', hf, h, hv => by
    obtain ⟨rfl, h⟩ := h; exact validAll_same r r' _ _ hf.2 h hv
  | .mul i j :: r, s' :: r', W, W', hf, h, hv => by
    obtain ⟨rfl, h⟩ := h; exact validAll_same r r' _ _ hf.2 h hv
  | .addScalar i c :: r, s' :: r', W, W', hf, h, hv => by
    obtain ⟨rfl, h⟩ := h; exact validAll_same r r' _ _ hf.2 h hv
  | .mulScalar i c :: r, s' :: r', W, W', hf, h, hv => by
    obtain ⟨rfl, h⟩ := h; exact validAll_same r r' _ _ hf.2 h hv
  | .join a b ai bi :: r, s' :: r', W, W', hf, h, hv => by
    obtain ⟨rfl, h⟩ := h; exact validAll_same r r' _ _ hf.2 h hv

/-- The columns a join makes are the same in every row. -/
theorem moved_same {A A' T T' : TabData F} {ai bi : Nat} (h1 : A.Alike A') (h2 : T.Alike T') (hm : Matched A T ai bi) {f f' : Nat → F} (hf : ∀ j, A.On j → f' j = f j) :
    ∀ i < 2 ^ T.nv, moved f' (partners A' T' ai bi) T'.sel i = moved f (partners A T ai bi) T.sel i := fun i hi => by
  unfold moved
  rw [h2.sel i hi]
  by_cases hs : T.sel i = 0
  · simp [hs]
  have hon : T.On i := ⟨hi, hs⟩
  have get : ∀ A T : TabData F, i < 2 ^ T.nv → T.sel i ≠ 0 →
      (partners A T ai bi).getD i 0 = Nat.findGreatest (fun j => A.sel j ≠ 0 ∧ A.col ai j = T.col bi i) (2 ^ A.nv - 1) := fun A T hi hs => by
    unfold partners
    rw [List.getD_eq_getElem _ _ (by simpa using hi)]
    simp [hs]
  rw [if_pos hs, if_pos hs, get A T hi hs, get A' T' (h2.nv.symm ▸ hi) ((h2.sel i hi).symm ▸ hs), h1.nv]
  have e : Nat.findGreatest (fun j => A'.sel j ≠ 0 ∧ A'.col ai j = T'.col bi i) (2 ^ A.nv - 1) = Nat.findGreatest (fun j => A.sel j ≠ 0 ∧ A.col ai j = T.col bi i) (2 ^ A.nv - 1) := by
    have key : ∀ j ≤ 2 ^ A.nv - 1, (A'.sel j ≠ 0 ∧ A'.col ai j = T'.col bi i) ↔ (A.sel j ≠ 0 ∧ A.col ai j = T.col bi i) := fun j hj => by
      have hj' : j < 2 ^ A.nv := by have := Nat.two_pow_pos A.nv; omega
      rw [h1.sel j hj']
      refine and_congr_right fun hsj => ?_
      rw [TabData.Alike.col_eq (h1.row j hj' hsj), TabData.Alike.col_eq (h2.onRow hon)]
    have gen : ∀ n, (∀ j ≤ n, (A'.sel j ≠ 0 ∧ A'.col ai j = T'.col bi i) ↔ (A.sel j ≠ 0 ∧ A.col ai j = T.col bi i)) →
        Nat.findGreatest (fun j => A'.sel j ≠ 0 ∧ A'.col ai j = T'.col bi i) n = Nat.findGreatest (fun j => A.sel j ≠ 0 ∧ A.col ai j = T.col bi i) n := by
      intro n
      induction n with
      | zero => intro _; rfl
      | succ n ih =>
        intro hk
        rw [Nat.findGreatest_succ, Nat.findGreatest_succ, ih fun j hj => hk j (by omega)]
        exact if_congr (hk (n + 1) le_rfl) rfl rfl
    exact gen _ key
  rw [e]
  obtain ⟨j, hj, hc⟩ := hm i hon
  have hle : j ≤ 2 ^ A.nv - 1 := by have := hj.1; omega
  have sp := Nat.findGreatest_spec (P := fun j => A.sel j ≠ 0 ∧ A.col ai j = T.col bi i) hle ⟨hj.2, hc⟩
  have lt := Nat.findGreatest_le (P := fun j => A.sel j ≠ 0 ∧ A.col ai j = T.col bi i) (2 ^ A.nv - 1)
  exact hf _ ⟨by have := Nat.two_pow_pos A.nv; omega, sp.1⟩

end Spec
end Zksql
