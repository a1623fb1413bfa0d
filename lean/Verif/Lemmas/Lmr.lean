import Verif.Lemmas.TabAdvice
import Verif.Lemmas.BagTab
/-!
The split of two bags.
-/
set_option linter.unusedSectionVars false
namespace Zksql
open Spec
variable {F C B : Type} [Field F] [DecidableEq F]
variable {E : Env F C} {t t1 : PTracker F C} {N : Nat}

namespace LmrSplit

/-- What is left after the leading copies of the smallest value is larger. -/
theorem drop_gt {rep : F → Nat} (hinj : ∀ x y, rep x = rep y → x = y) {l : List F} {a : F} (hs : l.Pairwise fun x y => rep x ≤ rep y)
    (ha : ∀ x ∈ l, rep a ≤ rep x) : ∀ x ∈ l.dropWhile (· == a), rep a < rep x := by
  intro x hx
  have hsub := List.dropWhile_suffix (l := l) (· == a)
  refine lt_of_le_of_ne (ha x (hsub.mem hx)) fun he => ?_
  have hxa : x = a := (hinj _ _ he).symm
  cases hd : l.dropWhile (· == a) with
  | nil => rw [hd] at hx; simp at hx
  | cons y ys =>
    have hy : (y == a) = false := by
      have := List.head_dropWhile_not (· == a) (l := l) (by rw [hd]; simp)
      simpa [hd] using this
    have hya : y ≠ a := by simpa using hy
    have hs' := hs.sublist hsub.sublist
    rw [hd] at hx hs'
    rcases List.mem_cons.1 hx with rfl | hx
    · exact hya hxa
    · have h1 := (List.pairwise_cons.1 hs').1 x hx
      have h2 := ha y (hsub.mem (by rw [hd]; simp))
      rw [hxa] at h1
      exact hya (hinj _ _ (by omega))

/-- The merging loop on ascending lists. -/
theorem merge_spec (hinj : ∀ x y, E.rep x = E.rep y → x = y) : ∀ (n : Nat) (as bs : List F), as.length + bs.length ≤ n →
    (as.Pairwise fun x y => E.rep x ≤ E.rep y) → (bs.Pairwise fun x y => E.rep x ≤ E.rep y) →
    (merge E n as bs).l ++ (merge E n as bs).restA = as.filter (fun x => decide (x ∉ bs)) ∧
    (merge E n as bs).ma = as.filter (fun x => decide (x ∈ bs)) ∧ (merge E n as bs).mb = bs.filter (fun x => decide (x ∈ as)) ∧
    (merge E n as bs).r ++ (merge E n as bs).restB = bs.filter (fun x => decide (x ∉ as)) ∧
    (merge E n as bs).restA <:+ as ∧ (merge E n as bs).restB <:+ bs
  | 0, as, bs, hn, _, _ => by
    have h1 : as = [] := List.length_eq_zero_iff.1 (by omega)
    have h2 : bs = [] := List.length_eq_zero_iff.1 (by omega)
    subst h1; subst h2
    simp [merge]
  | n + 1, [], bs, _, _, _ => by simp [merge]
  | n + 1, a :: as, [], _, _, _ => by simp [merge]
  | n + 1, a :: as, b :: bs, hn, ha, hb => by
    have ha' := List.pairwise_cons.1 ha
    have hb' := List.pairwise_cons.1 hb
    simp only [List.length_cons] at hn
    unfold merge
    split_ifs with h1 h2
    · have hgt : ∀ x ∈ b :: bs, E.rep a < E.rep x := by
        intro x hx
        rcases List.mem_cons.1 hx with rfl | hx
        · exact h1
        · exact lt_of_lt_of_le h1 (hb'.1 x hx)
      have hnot : a ∉ b :: bs := fun h => lt_irrefl _ (hgt a h)
      obtain ⟨i1, i2, i3, i4, i5, i6⟩ := merge_spec hinj n as (b :: bs) (by simp; omega) ha'.2 hb
      have hmem : ∀ x ∈ b :: bs, (x ∈ a :: as ↔ x ∈ as) := fun x hx => by
        rw [List.mem_cons, or_iff_right]
        rintro rfl
        exact hnot hx
      refine ⟨?_, ?_, ?_, ?_, i5.trans (List.suffix_cons _ _), i6⟩
      · simp only
        rw [List.filter_cons_of_pos (by simpa using hnot), List.cons_append, i1]
      · simp only
        rw [List.filter_cons_of_neg (by simpa using hnot), i2]
      · simp only
        rw [i3]
        exact List.filter_congr fun x hx => by rw [decide_eq_decide]; exact (hmem x hx).symm
      · simp only
        rw [i4]
        exact List.filter_congr fun x hx => by rw [decide_eq_decide, not_iff_not]; exact (hmem x hx).symm
    · have hgt : ∀ x ∈ a :: as, E.rep b < E.rep x := by
        intro x hx
        rcases List.mem_cons.1 hx with rfl | hx
        · exact h2
        · exact lt_of_lt_of_le h2 (ha'.1 x hx)
      have hnot : b ∉ a :: as := fun h => lt_irrefl _ (hgt b h)
      obtain ⟨i1, i2, i3, i4, i5, i6⟩ := merge_spec hinj n (a :: as) bs (by simp; omega) ha hb'.2
      have hmem : ∀ x ∈ a :: as, (x ∈ b :: bs ↔ x ∈ bs) := fun x hx => by
        rw [List.mem_cons, or_iff_right]
        rintro rfl
        exact hnot hx
      refine ⟨?_, ?_, ?_, ?_, i5, i6.trans (List.suffix_cons _ _)⟩
      · simp only
        rw [i1]
        exact List.filter_congr fun x hx => by rw [decide_eq_decide, not_iff_not]; exact (hmem x hx).symm
      · simp only
        rw [i2]
        exact List.filter_congr fun x hx => by rw [decide_eq_decide]; exact (hmem x hx).symm
      · simp only
        rw [List.filter_cons_of_neg (by simpa using hnot), i3]
      · simp only
        rw [List.filter_cons_of_pos (by simpa using hnot), List.cons_append, i4]
    · have hab : a = b := hinj _ _ (by omega)
      subst hab
      set A' := (a :: as).dropWhile (· == a) with hA'
      set B' := (a :: bs).dropWhile (· == a) with hB'
      have sA : A' <:+ a :: as := List.dropWhile_suffix _
      have sB : B' <:+ a :: bs := List.dropWhile_suffix _
      have lA : A'.length ≤ as.length := by rw [hA', List.dropWhile_cons_of_pos (by simp)]; exact (List.dropWhile_suffix _).length_le
      have lB : B'.length ≤ bs.length := by rw [hB', List.dropWhile_cons_of_pos (by simp)]; exact (List.dropWhile_suffix _).length_le
      obtain ⟨i1, i2, i3, i4, i5, i6⟩ := merge_spec hinj n A' B' (by omega) (ha.sublist sA.sublist) (hb.sublist sB.sublist)
      have gA := drop_gt hinj ha (a := a) (by simpa using ha'.1)
      have gB := drop_gt hinj hb (a := a) (by simpa using hb'.1)
      have eA : a :: as = (a :: as).takeWhile (· == a) ++ A' := (List.takeWhile_append_dropWhile).symm
      have eB : a :: bs = (a :: bs).takeWhile (· == a) ++ B' := (List.takeWhile_append_dropWhile).symm
      have tA : ∀ x ∈ (a :: as).takeWhile (· == a), x = a := fun x hx => by
        simpa using List.all_eq_true.1 (List.all_takeWhile (p := (· == a)) (l := a :: as)) x hx
      have tB : ∀ x ∈ (a :: bs).takeWhile (· == a), x = a := fun x hx => by
        simpa using List.all_eq_true.1 (List.all_takeWhile (p := (· == a)) (l := a :: bs)) x hx
      have mA : ∀ x ∈ B', (x ∈ a :: as ↔ x ∈ A') := fun x hx => by
        rw [eA, List.mem_append, or_iff_right]
        intro h
        have := gB x hx
        rw [tA x h] at this
        omega
      have mB : ∀ x ∈ A', (x ∈ a :: bs ↔ x ∈ B') := fun x hx => by
        rw [eB, List.mem_append, or_iff_right]
        intro h
        have := gA x hx
        rw [tB x h] at this
        omega
      have inB : ∀ x ∈ (a :: as).takeWhile (· == a), x ∈ a :: bs := fun x hx => by rw [tA x hx]; exact List.mem_cons_self
      have inA : ∀ x ∈ (a :: bs).takeWhile (· == a), x ∈ a :: as := fun x hx => by rw [tB x hx]; exact List.mem_cons_self
      refine ⟨?_, ?_, ?_, ?_, i5.trans sA, i6.trans sB⟩
      · simp only
        rw [i1]
        conv_rhs => rw [show List.filter (fun x => decide (x ∉ a :: bs)) (a :: as) = List.filter (fun x => decide (x ∉ a :: bs)) ((a :: as).takeWhile (· == a) ++ A') by rw [← eA],
          List.filter_append, List.filter_eq_nil_iff.2 (fun x hx => by simp only [decide_eq_true_eq, not_not]; exact inB x hx), List.nil_append]
        exact List.filter_congr fun x hx => by rw [decide_eq_decide, not_iff_not]; exact (mB x hx).symm
      · simp only
        rw [i2]
        conv_rhs => rw [show List.filter (fun x => decide (x ∈ a :: bs)) (a :: as) = List.filter (fun x => decide (x ∈ a :: bs)) ((a :: as).takeWhile (· == a) ++ A') by rw [← eA],
          List.filter_append, List.filter_eq_self.2 (fun x hx => by simpa using inB x hx)]
        congr 1
        exact List.filter_congr fun x hx => by rw [decide_eq_decide]; exact (mB x hx).symm
      · simp only
        rw [i3]
        conv_rhs => rw [show List.filter (fun x => decide (x ∈ a :: as)) (a :: bs) = List.filter (fun x => decide (x ∈ a :: as)) ((a :: bs).takeWhile (· == a) ++ B') by rw [← eB],
          List.filter_append, List.filter_eq_self.2 (fun x hx => by simpa using inA x hx)]
        congr 1
        exact List.filter_congr fun x hx => by rw [decide_eq_decide]; exact (mA x hx).symm
      · simp only
        rw [i4]
        conv_rhs => rw [show List.filter (fun x => decide (x ∉ a :: as)) (a :: bs) = List.filter (fun x => decide (x ∉ a :: as)) ((a :: bs).takeWhile (· == a) ++ B') by rw [← eB],
          List.filter_append, List.filter_eq_nil_iff.2 (fun x hx => by simp only [decide_eq_true_eq, not_not]; exact inA x hx), List.nil_append]
        exact List.filter_congr fun x hx => by rw [decide_eq_decide, not_iff_not]; exact (mA x hx).symm

/-! ### The lists of values -/

theorem actives_map (V S : Nat → F) : ∀ l : List Nat, actives (l.map V) (l.map S) = (l.filter fun i => decide (S i ≠ 0)).map V
  | [] => rfl
  | i :: l => by
    have ih := actives_map V S l
    unfold actives at ih ⊢
    by_cases h : S i = 0
    · simp only [List.map_cons, List.zip_cons_cons]
      rw [List.filter_cons_of_neg (by simpa using h), List.filter_cons_of_neg (by simpa using h), ih]
    · simp only [List.map_cons, List.zip_cons_cons]
      rw [List.filter_cons_of_pos (by simpa using h), List.filter_cons_of_pos (by simpa using h), List.map_cons, List.map_cons, ih]

theorem filter_range' (S : Nat → F) (n : Nat) : ∀ (m i : Nat), i ≤ n → n ≤ i + m → (∀ j, i ≤ j → j < i + m → (S j ≠ 0 ↔ j < n)) →
    ((List.range' i m).filter fun j => decide (S j ≠ 0)) = List.range' i (n - i)
  | 0, i, h1, h2, _ => by simp [show n - i = 0 by omega]
  | m + 1, i, h1, h2, h3 => by
    rw [List.range'_succ]
    by_cases hi : i < n
    · rw [List.filter_cons_of_pos (by simpa using (h3 i le_rfl (by omega)).2 hi),
        filter_range' S n m (i + 1) (by omega) (by omega) fun j a b => h3 j (by omega) (by omega), show n - i = (n - (i + 1)) + 1 by omega, List.range'_succ]
    · rw [List.filter_eq_nil_iff.2, show n - i = 0 by omega]
      · rfl
      · intro x hx
        have hx' : i ≤ x ∧ x < i + (m + 1) := by
          rcases List.mem_cons.1 hx with rfl | hx
          · omega
          · rw [List.mem_range'_1] at hx; omega
        have := h3 x hx'.1 hx'.2
        simp only [decide_eq_true_eq, this]
        omega

/-- The values of the active rows, in the order of the table. -/
def activeList (T : BagTab F) : List F := ((List.range (2 ^ T.nv)).filter fun i => decide (T.sel i ≠ 0)).map T.val

theorem mem_activeList {T : BagTab F} {z : F} : z ∈ activeList T ↔ T.Active z := by
  simp only [activeList, List.mem_map, List.mem_filter, List.mem_range, decide_eq_true_eq, BagTab.Active, and_assoc]

theorem count_activeList (T : BagTab F) (z : F) : (activeList T).count z = T.count z := by
  unfold activeList BagTab.count
  rw [List.count, List.countP_map, List.countP_eq_length_filter, List.filter_filter]
  congr 1
  refine List.filter_congr fun i _ => ?_
  by_cases h1 : T.sel i = 0 <;> by_cases h2 : T.val i = z <;> simp [h1, h2]

theorem nodup_activeList {T : BagTab F} (h : T.Nodup) : (activeList T).Nodup := by
  unfold activeList
  refine List.Nodup.map_on (fun i hi j hj e => ?_) (List.nodup_range.filter _)
  simp only [List.mem_filter, List.mem_range, decide_eq_true_eq] at hi hj
  exact h i hi.1 j hj.1 hi.2 hj.2 e

theorem length_activeList (T : BagTab F) : (activeList T).length ≤ 2 ^ T.nv := by
  unfold activeList
  rw [List.length_map]
  exact (List.length_filter_le _ _).trans (by simp)

theorem sorted_front {T : BagTab F} (h : ActiveAscending E.rep T) :
    (activeList T).Pairwise (fun x y => E.rep x ≤ E.rep y) ∧ ((List.range (2 ^ T.nv)).map T.val).take (activeList T).length = activeList T ∧
    ∀ c ≤ (activeList T).length, actives (((List.range (2 ^ T.nv)).map T.val).drop c) (((List.range (2 ^ T.nv)).map T.sel).drop c) = (activeList T).drop c := by
  obtain ⟨n, hn, h1, h2⟩ := h
  have ea : activeList T = (List.range n).map T.val := by
    unfold activeList
    rw [List.range_eq_range', filter_range' T.sel n (2 ^ T.nv) 0 (by omega) (by omega) (fun j _ hj => h1 j (by omega)), ← List.range_eq_range']
    rfl
  have el : (activeList T).length = n := by rw [ea]; simp
  refine ⟨?_, ?_, fun c hc => ?_⟩
  · rw [ea, List.pairwise_map, List.pairwise_iff_getElem]
    intro i j hi hj hij
    simp only [List.getElem_range]
    exact h2 i j hij (by simpa using hj)
  · rw [el, ea, ← List.map_take, List.take_range, Nat.min_eq_left hn]
  · rw [el] at hc
    rw [← List.map_drop, ← List.map_drop, actives_map, ea, ← List.map_drop]
    congr 1
    rw [List.range_eq_range', List.drop_range', List.range_eq_range', List.drop_range']
    simp only [Nat.zero_add, Nat.mul_one]
    exact filter_range' T.sel n (2 ^ T.nv - c) c hc (by omega) fun j a b => h1 j (by omega)

theorem drop_suffix {l r : List F} (h : r <:+ l) : l.drop (l.length - r.length) = r := List.suffix_iff_eq_drop.1 h |>.symm

theorem actives_tab (T : BagTab F) : actives ((List.range (2 ^ T.nv)).map T.val) ((List.range (2 ^ T.nv)).map T.sel) = activeList T := actives_map _ _ _

/-- The four lists for ascending tables. -/
theorem vecs_spec (hinj : ∀ x y, E.rep x = E.rep y → x = y) {S T : BagTab F} (hS : ActiveAscending E.rep S) (hT : ActiveAscending E.rep T) :
    vecs E ((List.range (2 ^ S.nv)).map S.val) ((List.range (2 ^ S.nv)).map S.sel) ((List.range (2 ^ T.nv)).map T.val) ((List.range (2 ^ T.nv)).map T.sel) =
      ((activeList S).filter (fun x => decide (x ∉ activeList T)), (activeList S).filter (fun x => decide (x ∈ activeList T)),
        (activeList T).filter (fun x => decide (x ∈ activeList S)), (activeList T).filter (fun x => decide (x ∉ activeList S))) := by
  obtain ⟨a1, a2, a3⟩ := sorted_front hS
  obtain ⟨b1, b2, b3⟩ := sorted_front hT
  unfold vecs
  rw [actives_tab, actives_tab]
  simp only
  rw [a2, b2]
  obtain ⟨i1, i2, i3, i4, i5, i6⟩ := merge_spec hinj ((activeList S).length + (activeList T).length) (activeList S) (activeList T) le_rfl a1 b1
  rw [a3 _ (Nat.sub_le _ _), b3 _ (Nat.sub_le _ _), drop_suffix i5, drop_suffix i6, i1, i2, i3, i4]

/-! ### The bags -/

/-- A list of values, active, followed by inactive rows. -/
def listTab (nv : Nat) (l : List F) : BagTab F := ⟨nv, fun i => l.getD i 0, fun i => if i < l.length then 1 else 0⟩

theorem listTab_boolean (nv : Nat) (l : List F) : (listTab nv l).Boolean := fun i _ => by
  simp only [listTab]; split_ifs <;> simp

theorem activeList_listTab {nv : Nat} {l : List F} (h : l.length ≤ 2 ^ nv) : activeList (listTab nv l) = l := by
  unfold activeList
  rw [show (listTab nv l).nv = nv from rfl, List.range_eq_range', filter_range' (listTab nv l).sel l.length (2 ^ nv) 0 (by omega) (by omega)
    (fun j _ _ => by by_cases hj : j < l.length <;> simp [listTab, hj]), ← List.range_eq_range']
  refine List.ext_getElem (by simp) fun i h1 h2 => ?_
  simp [listTab, List.getD, h2]

theorem listTab_nodup {nv : Nat} {l : List F} (h : l.Nodup) : (listTab nv l).Nodup := by
  intro i _ j _ si sj e
  simp only [listTab] at si sj e
  have hi : i < l.length := by by_contra hc; simp [hc] at si
  have hj : j < l.length := by by_contra hc; simp [hc] at sj
  simp only [List.getD, List.getElem?_eq_getElem hi, List.getElem?_eq_getElem hj, Option.getD_some] at e
  exact (h.getElem_inj_iff).1 e

theorem pad_eq (nv : Nat) (l : List F) (h : l.length ≤ 2 ^ nv) : l ++ List.replicate (2 ^ nv - l.length) 0 = (List.range (2 ^ nv)).map fun i => l.getD i 0 := by
  refine List.ext_getElem (by simp; omega) fun i h1 h2 => ?_
  simp only [List.getElem_map, List.getElem_range, List.getElem_append, List.getElem_replicate, List.getD]
  split_ifs with hi
  · simp [hi]
  · simp [hi]

theorem mles_ok {nv : Nat} {l : List F} (h : l.length ≤ 2 ^ nv) : mles nv l = .ok (tabMle nv (listTab nv l).val, tabMle nv (listTab nv l).sel) := by
  unfold mles padTo
  rw [if_neg (by omega), if_neg (by simp; omega), pad_eq nv l h, pad_eq nv _ (by simpa using h)]
  have e1 : Mle.fromEvals nv ((List.range (2 ^ nv)).map fun i => l.getD i 0) = .ok (tabMle nv (listTab nv l).val) := fromEvals_map rfl _
  have e2 : Mle.fromEvals nv ((List.range (2 ^ nv)).map fun i => (List.replicate l.length (1 : F)).getD i 0) = .ok (tabMle nv (listTab nv l).sel) := by
    rw [show (fun i => (List.replicate l.length (1 : F)).getD i 0) = (listTab nv l).sel by
      funext i; simp only [listTab, List.getD, List.getElem?_replicate]; split_ifs <;> rfl]
    exact fromEvals_map rfl _
  simp only [bind, Except.bind]
  rw [e1]
  simp only
  rw [e2]

theorem commit_tab (hC : CanCommit E.commit N) (hr : Ready E.commit t) {nv : Nat} (hN : nv ≤ N) (T : Nat → F) :
    ∃ a t', TPoly.trackAndCommit E.commit (tabMle nv T) t = (.ok a, t') ∧ Ready E.commit t' ∧ (∀ b U, HoldsP t b U → HoldsP t' b U) ∧ a.numVars = nv ∧ HoldsP t' a T := by
  obtain ⟨c, hc⟩ := hC (tabMle nv T) (tabMle_wf _ _) hN
  obtain ⟨s1, s2, s3, s4, -, -⟩ := commit_step (B := Unit) (P := fun _ _ => 0) (Sz := True) (N := N) (d := false) (Γ := Facts.none) hr.inv (tabMle_wf _ _) hN hc
  exact ⟨_, _, s1, s3, fun b U h => holdsP_pres hr s3 s2 h, rfl, (s4.congr fun b hb => tabMle_tbl nv T hb).holdsP s3⟩

theorem commitBag_ok (hC : CanCommit E.commit N) (hr : Ready E.commit t) {T : BagTab F} (hN : T.nv ≤ N) :
    ∃ b t', commitBag E (tabMle T.nv T.val, tabMle T.nv T.sel) t = (.ok b, t') ∧ Ready E.commit t' ∧ (∀ b U, HoldsP t b U → HoldsP t' b U) ∧ HoldsBagP t' b T := by
  obtain ⟨a, t1, h1, r1, p1, n1, o1⟩ := commit_tab hC hr hN T.val
  obtain ⟨b, t2, h2, r2, p2, n2, o2⟩ := commit_tab hC r1 hN T.sel
  refine ⟨⟨a, b⟩, t2, ?_, r2, fun x U h => p2 x U (p1 x U h), n1, n2, p2 _ _ o1, o2⟩
  unfold commitBag
  rw [Act.bind_ok h1]; beta_reduce
  rw [Act.bind_ok h2]; beta_reduce
  unfold Bag.new
  rw [Act.bind_ok (Act.assert_true (fun _ => by rw [n1, n2]) t2)]
  rfl

theorem holdsBagP_mono (h : ∀ b U, HoldsP t b U → HoldsP t1 b U) {b : Bag} {T : BagTab F} (hb : HoldsBagP t b T) : HoldsBagP t1 b T :=
  ⟨hb.nv, hb.nvSel, h _ _ hb.val, h _ _ hb.sel⟩

/-- The whole computation. -/
theorem bag_spec (hinj : ∀ x y, E.rep x = E.rep y → x = y) (hC : CanCommit E.commit N) (hr : Ready E.commit t) {a b : Bag} {S T : BagTab F}
    (ha : HoldsBagP t a S) (hb : HoldsBagP t b T) (hS : ActiveAscending E.rep S) (hT : ActiveAscending E.rep T) (hNa : S.nv ≤ N) (hNb : T.nv ≤ N) :
    ∃ l ma mb r t', bag E a b t = (.ok (l, ma, mb, r), t') ∧ Ready E.commit t' ∧ (∀ b U, HoldsP t b U → HoldsP t' b U) ∧
      HoldsBagP t' l (listTab S.nv ((activeList S).filter fun x => decide (x ∉ activeList T))) ∧
      HoldsBagP t' ma (listTab S.nv ((activeList S).filter fun x => decide (x ∈ activeList T))) ∧
      HoldsBagP t' mb (listTab T.nv ((activeList T).filter fun x => decide (x ∈ activeList S))) ∧
      HoldsBagP t' r (listTab T.nv ((activeList T).filter fun x => decide (x ∉ activeList S))) := by
  obtain ⟨t1, h1, r1, -, -, -, -, -, p1⟩ := returns_eval hr ha.val
  obtain ⟨t2, h2, r2, -, -, -, -, -, p2⟩ := returns_eval r1 (p1 _ _ ha.sel)
  obtain ⟨t3, h3, r3, -, -, -, -, -, p3⟩ := returns_eval r2 (p2 _ _ (p1 _ _ hb.val))
  obtain ⟨t4, h4, r4, -, -, -, -, -, p4⟩ := returns_eval r3 (p3 _ _ (p2 _ _ (p1 _ _ hb.sel)))
  rw [ha.nv] at h1; rw [ha.nvSel] at h2; rw [hb.nv] at h3; rw [hb.nvSel] at h4
  have q4 := fun a T h => p4 a T (p3 a T (p2 a T (p1 a T h)))
  set L := (activeList S).filter fun x => decide (x ∉ activeList T) with hL
  set MA := (activeList S).filter fun x => decide (x ∈ activeList T) with hMA
  set MB := (activeList T).filter fun x => decide (x ∈ activeList S) with hMB
  set R := (activeList T).filter fun x => decide (x ∉ activeList S) with hR
  have lL : L.length ≤ 2 ^ S.nv := (List.length_filter_le _ _).trans (length_activeList S)
  have lMA : MA.length ≤ 2 ^ S.nv := (List.length_filter_le _ _).trans (length_activeList S)
  have lMB : MB.length ≤ 2 ^ T.nv := (List.length_filter_le _ _).trans (length_activeList T)
  have lR : R.length ≤ 2 ^ T.nv := (List.length_filter_le _ _).trans (length_activeList T)
  obtain ⟨b1, t5, h5, r5, p5, o5⟩ := commitBag_ok (T := listTab S.nv L) hC r4 hNa
  obtain ⟨b2, t6, h6, r6, p6, o6⟩ := commitBag_ok (T := listTab S.nv MA) hC r5 hNa
  obtain ⟨b3, t7, h7, r7, p7, o7⟩ := commitBag_ok (T := listTab T.nv MB) hC r6 hNb
  obtain ⟨b4, t8, h8, r8, p8, o8⟩ := commitBag_ok (T := listTab T.nv R) hC r7 hNb
  refine ⟨b1, b2, b3, b4, t8, ?_, r8, fun x U h => p8 _ _ (p7 _ _ (p6 _ _ (p5 _ _ (q4 _ _ h)))),
    holdsBagP_mono p8 (holdsBagP_mono p7 (holdsBagP_mono p6 o5)), holdsBagP_mono p8 (holdsBagP_mono p7 o6), holdsBagP_mono p8 o7, o8⟩
  have na : a.numVars = S.nv := ha.nv
  have nb : b.numVars = T.nv := hb.nv
  unfold bag
  rw [Act.bind_ok h1]; beta_reduce
  rw [Act.bind_ok h2]; beta_reduce
  rw [Act.bind_ok (Act.assert_true (by rw [na]; simp) t2)]; beta_reduce
  rw [Act.bind_ok h3]; beta_reduce
  rw [Act.bind_ok h4]; beta_reduce
  rw [Act.bind_ok (Act.assert_true (by rw [nb]; simp) t4)]; beta_reduce
  rw [vecs_spec hinj hS hT, na, nb]
  simp only [← hL, ← hMA, ← hMB, ← hR]
  rw [mles_ok lL, mles_ok lMA, mles_ok lMB, mles_ok lR]
  rw [Act.bind_ok (m := Act.lift (.ok _)) rfl]; beta_reduce
  rw [Act.bind_ok (m := Act.lift (.ok _)) rfl]; beta_reduce
  rw [Act.bind_ok (m := Act.lift (.ok _)) rfl]; beta_reduce
  rw [Act.bind_ok (m := Act.lift (.ok _)) rfl]; beta_reduce
  rw [Act.bind_ok (show commitBag E (tabMle S.nv _, tabMle S.nv _) t4 = _ from h5)]; beta_reduce
  rw [Act.bind_ok (show commitBag E (tabMle S.nv _, tabMle S.nv _) t5 = _ from h6)]; beta_reduce
  rw [Act.bind_ok (show commitBag E (tabMle T.nv _, tabMle T.nv _) t6 = _ from h7)]; beta_reduce
  rw [Act.bind_ok (show commitBag E (tabMle T.nv _, tabMle T.nv _) t7 = _ from h8)]
  rfl

end LmrSplit
end Zksql
