import Verif.Lemmas.Lmr
/-!
The split of two bags with multiplicities, when both bags have the same values.
-/
set_option linter.unusedSectionVars false
namespace Zksql
open Spec
variable {F C B : Type} [Field F] [DecidableEq F]
variable {E : Env F C} {t t1 : PTracker F C} {N : Nat}

namespace LmrSplit

theorem takeWhile_count {l : List F} {a : F} (h : a ∉ l.dropWhile (· == a)) : (l.takeWhile (· == a)).length = l.count a := by
  conv_rhs => rw [← List.takeWhile_append_dropWhile (p := (· == a)) (l := l), List.count_append, List.count_eq_zero.2 h, Nat.add_zero]
  rw [List.count_eq_length.2]
  intro b hb
  have := List.all_eq_true.1 (List.all_takeWhile (p := (· == a)) (l := l)) b hb
  exact (beq_iff_eq.1 this).symm

theorem drop_takeWhile (l : List F) (p : F → Bool) : l.drop (l.takeWhile p).length = l.dropWhile p := by
  conv_lhs => rw [← List.takeWhile_append_dropWhile (p := p) (l := l)]
  rw [List.takeWhile_append_dropWhile]
  conv_lhs => arg 2; rw [← List.takeWhile_append_dropWhile (p := p) (l := l)]
  rw [List.drop_left]

/-- The merging loop on ascending lists with the same values. -/
theorem multMerge_same (hinj : ∀ x y, E.rep x = E.rep y → x = y) (X Y : List F) : ∀ (n : Nat) (as bs : List F), as.length + bs.length ≤ n →
    (as.Pairwise fun x y => E.rep x ≤ E.rep y) → (bs.Pairwise fun x y => E.rep x ≤ E.rep y) → (∀ z, z ∈ as ↔ z ∈ bs) →
    ∃ M : List (F × Nat × Nat), multMerge E n (as ++ X) as.length (bs ++ Y) bs.length = .ok ⟨[], M, [], X, Y⟩ ∧
      ((M.map (·.1)).Pairwise fun x y => E.rep x < E.rep y) ∧ (∀ z, z ∈ M.map (·.1) ↔ z ∈ as) ∧ (∀ e ∈ M, e.2.1 = as.count e.1 ∧ e.2.2 = bs.count e.1) ∧
      M.length ≤ as.length
  | 0, as, bs, hn, _, _, _ => by
    have h1 : as = [] := List.length_eq_zero_iff.1 (by omega)
    have h2 : bs = [] := List.length_eq_zero_iff.1 (by omega)
    subst h1; subst h2
    exact ⟨[], by simp [multMerge], by simp, by simp, by simp, by simp⟩
  | n + 1, [], bs, hn, ha, hb, he => by
    have h2 : bs = [] := List.eq_nil_iff_forall_not_mem.2 fun z hz => by simpa using (he z).2 hz
    subst h2
    exact ⟨[], by simp [multMerge], by simp, by simp, by simp, by simp⟩
  | n + 1, a :: as, [], hn, ha, hb, he => by simpa using (he a).1 List.mem_cons_self
  | n + 1, a :: as, b :: bs, hn, ha, hb, he => by
    have ha' := List.pairwise_cons.1 ha
    have hb' := List.pairwise_cons.1 hb
    simp only [List.length_cons] at hn
    have lea : ∀ x ∈ a :: as, E.rep a ≤ E.rep x := by simpa using ha'.1
    have leb : ∀ x ∈ b :: bs, E.rep b ≤ E.rep x := by simpa using hb'.1
    have hab : a = b := hinj _ _ (le_antisymm (lea b ((he b).2 List.mem_cons_self)) (leb a ((he a).1 List.mem_cons_self)))
    subst hab
    set A' := (a :: as).dropWhile (· == a) with hA'
    set B' := (a :: bs).dropWhile (· == a) with hB'
    have sA : A' <:+ a :: as := List.dropWhile_suffix _
    have sB : B' <:+ a :: bs := List.dropWhile_suffix _
    have lA : A'.length ≤ as.length := by rw [hA', List.dropWhile_cons_of_pos (by simp)]; exact (List.dropWhile_suffix _).length_le
    have lB : B'.length ≤ bs.length := by rw [hB', List.dropWhile_cons_of_pos (by simp)]; exact (List.dropWhile_suffix _).length_le
    have gA := drop_gt hinj ha lea
    have gB := drop_gt hinj hb leb
    have nA : a ∉ A' := fun h => lt_irrefl _ (gA a h)
    have nB : a ∉ B' := fun h => lt_irrefl _ (gB a h)
    have eA : a :: as = (a :: as).takeWhile (· == a) ++ A' := (List.takeWhile_append_dropWhile).symm
    have eB : a :: bs = (a :: bs).takeWhile (· == a) ++ B' := (List.takeWhile_append_dropWhile).symm
    have tA : ∀ x ∈ (a :: as).takeWhile (· == a), x = a := fun x hx => by
      simpa using List.all_eq_true.1 (List.all_takeWhile (p := (· == a)) (l := a :: as)) x hx
    have tB : ∀ x ∈ (a :: bs).takeWhile (· == a), x = a := fun x hx => by
      simpa using List.all_eq_true.1 (List.all_takeWhile (p := (· == a)) (l := a :: bs)) x hx
    have mA : ∀ z, z ≠ a → (z ∈ a :: as ↔ z ∈ A') := fun z hz => by
      rw [eA, List.mem_append, or_iff_right]
      exact fun h => hz (tA z h)
    have mB : ∀ z, z ≠ a → (z ∈ a :: bs ↔ z ∈ B') := fun z hz => by
      rw [eB, List.mem_append, or_iff_right]
      exact fun h => hz (tB z h)
    have cA : ∀ z, z ≠ a → (a :: as).count z = A'.count z := fun z hz => by
      conv_lhs => rw [eA, List.count_append, List.count_eq_zero.2 (fun h => hz (tA z h)), Nat.zero_add]
    have cB : ∀ z, z ≠ a → (a :: bs).count z = B'.count z := fun z hz => by
      conv_lhs => rw [eB, List.count_append, List.count_eq_zero.2 (fun h => hz (tB z h)), Nat.zero_add]
    obtain ⟨M, i1, i2, i3, i4, i5⟩ := multMerge_same hinj X Y n A' B' (by omega) (ha.sublist sA.sublist) (hb.sublist sB.sublist) (by
      intro z
      rcases eq_or_ne z a with rfl | hz
      · exact ⟨fun h => absurd h nA, fun h => absurd h nB⟩
      · rw [← mA z hz, ← mB z hz]; exact he z)
    refine ⟨(a, (a :: as).count a, (a :: bs).count a) :: M, ?_, ?_, ?_, ?_, ?_⟩
    · show multMerge E (n + 1) (a :: (as ++ X)) (a :: as).length (a :: (bs ++ Y)) (a :: bs).length = _
      unfold multMerge
      rw [if_neg (by simp)]
      simp only [lt_irrefl, if_false]
      rw [← List.cons_append, ← List.cons_append, List.take_left, List.take_left]
      have hca : ((a :: as).takeWhile (· == a)).length = (a :: as).count a := takeWhile_count nA
      have hcb : ((a :: bs).takeWhile (· == a)).length = (a :: bs).count a := takeWhile_count nB
      have da : (a :: as ++ X).drop ((a :: as).takeWhile (· == a)).length = A' ++ X := by
        rw [List.drop_append_of_le_length (List.takeWhile_prefix _).length_le, drop_takeWhile]
      have db : (a :: bs ++ Y).drop ((a :: bs).takeWhile (· == a)).length = B' ++ Y := by
        rw [List.drop_append_of_le_length (List.takeWhile_prefix _).length_le, drop_takeWhile]
      have ka : (a :: as).length - ((a :: as).takeWhile (· == a)).length = A'.length := by rw [← List.length_drop, drop_takeWhile]
      have kb : (a :: bs).length - ((a :: bs).takeWhile (· == a)).length = B'.length := by rw [← List.length_drop, drop_takeWhile]
      rw [da, db, ka, kb, i1, hca, hcb]
      rfl
    · rw [List.map_cons, List.pairwise_cons]
      exact ⟨fun z hz => gA z ((i3 z).1 hz), i2⟩
    · intro z
      rw [List.map_cons, List.mem_cons, i3]
      rcases eq_or_ne z a with rfl | hz
      · simp
      · rw [mA z hz]; simp [hz]
    · intro e he'
      rcases List.mem_cons.1 he' with rfl | he'
      · exact ⟨rfl, rfl⟩
      · have hz : e.1 ≠ a := fun h => nA ((i3 a).1 (List.mem_map.2 ⟨e, he', h⟩))
        rw [cA _ hz, cB _ hz]
        exact i4 e he'
    · simp only [List.length_cons]; omega

theorem multTail_zero : ∀ (ss as : List F), (∀ s ∈ ss, s = 0) → multTail ss as = .ok []
  | [], _, _ => rfl
  | s :: ss, as, h => by
    unfold multTail
    rw [if_pos (h s List.mem_cons_self)]
    exact multTail_zero ss as fun x hx => h x (List.mem_cons_of_mem _ hx)

theorem front_split {T : BagTab F} (h : ActiveAscending E.rep T) : ∃ X, (List.range (2 ^ T.nv)).map T.val = activeList T ++ X ∧
    ((List.range (2 ^ T.nv)).map T.val).length - X.length = (activeList T).length ∧
    ∀ s ∈ ((List.range (2 ^ T.nv)).map T.sel).drop (activeList T).length, s = 0 := by
  obtain ⟨-, h2, h3⟩ := sorted_front h
  have e : (List.range (2 ^ T.nv)).map T.val = activeList T ++ ((List.range (2 ^ T.nv)).map T.val).drop (activeList T).length := by
    conv_lhs => rw [← List.take_append_drop (activeList T).length ((List.range (2 ^ T.nv)).map T.val), h2]
  refine ⟨_, e, ?_, fun s hs => ?_⟩
  · have := congrArg List.length e
    rw [List.length_append] at this
    omega
  · have h4 := h3 _ le_rfl
    rw [List.drop_length] at h4
    by_contra hs0
    rw [← List.map_drop, List.mem_map] at hs
    obtain ⟨i, hi, rfl⟩ := hs
    rw [← List.map_drop, ← List.map_drop, actives_map, List.map_eq_nil_iff, List.filter_eq_nil_iff] at h4
    exact h4 i hi (by simpa using hs0)

theorem multVecs_same (hinj : ∀ x y, E.rep x = E.rep y → x = y) {S T : BagTab F} (hS : ActiveAscending E.rep S) (hT : ActiveAscending E.rep T)
    (he : ∀ z, S.Active z ↔ T.Active z) : ∃ M : List (F × Nat × Nat),
    multVecs E ((List.range (2 ^ S.nv)).map S.val) ((List.range (2 ^ S.nv)).map S.sel) ((List.range (2 ^ T.nv)).map T.val) ((List.range (2 ^ T.nv)).map T.sel) =
      .ok ([], M, []) ∧ (M.map (·.1)).Nodup ∧ (∀ z, z ∈ M.map (·.1) ↔ S.Active z) ∧ (∀ e ∈ M, e.2.1 = S.count e.1 ∧ e.2.2 = T.count e.1) ∧ M.length ≤ 2 ^ S.nv := by
  obtain ⟨X, x1, x2, x3⟩ := front_split hS
  obtain ⟨Y, y1, y2, y3⟩ := front_split hT
  obtain ⟨M, i1, i2, i3, i4, i5⟩ := multMerge_same (E := E) hinj X Y ((activeList S).length + (activeList T).length) (activeList S) (activeList T) le_rfl
    (sorted_front hS).1 (sorted_front hT).1 (fun z => by rw [mem_activeList, mem_activeList]; exact he z)
  refine ⟨M, ?_, i2.imp fun h => fun e => by rw [e] at h; exact lt_irrefl _ h, fun z => (i3 z).trans mem_activeList, fun e h => ?_, i5.trans (length_activeList S)⟩
  · unfold multVecs
    rw [actives_tab, actives_tab]
    simp only
    rw [x2.symm] at x3
    rw [y2.symm] at y3
    rw [show multMerge E ((activeList S).length + (activeList T).length) ((List.range (2 ^ S.nv)).map S.val) (activeList S).length
      ((List.range (2 ^ T.nv)).map T.val) (activeList T).length = .ok ⟨[], M, [], X, Y⟩ by rw [x1, y1]; exact i1]
    simp only [bind, Except.bind]
    rw [multTail_zero _ _ x3, multTail_zero _ _ y3]
    rfl
  · rw [← count_activeList, ← count_activeList]; exact i4 e h

/-- Multiplicities of a list of entries. -/
def natTab (l : List Nat) : Nat → F := fun i => (l.map fun k : Nat => (k : F)).getD i 0

theorem multMle_ok {nv : Nat} {l : List Nat} (h : l.length ≤ 2 ^ nv) : multMle (F := F) nv l = .ok (tabMle nv (natTab l)) := by
  unfold multMle padTo
  rw [if_neg (by simp; omega), pad_eq nv _ (by simpa using h)]
  simp only [bind, Except.bind]
  exact fromEvals_map rfl _

theorem lists_of {nv : Nat} {A : Type} {M : List A} {f : A → F} {g : A → Nat} {on : F → Prop} {cnt : F → Nat} (hl : M.length ≤ 2 ^ nv) (hd : (M.map f).Nodup)
    (hm : ∀ z, z ∈ M.map f ↔ on z) (hc : ∀ e ∈ M, g e = cnt (f e)) : Lists (listTab nv (M.map f)) (natTab (M.map g)) on cnt := by
  refine ⟨listTab_boolean _ _, listTab_nodup hd, fun z => ?_, fun i hi => ?_⟩
  · rw [← mem_activeList, activeList_listTab (by simpa using hl), hm]
  · by_cases h : i < M.length
    · have : (listTab nv (M.map f)).sel i ≠ 0 := by simp [listTab, h]
      rw [if_pos this]
      have e := hc M[i] (List.getElem_mem h)
      simp only [natTab, listTab, List.getD, List.getElem?_map, List.getElem?_eq_getElem h, Option.map_some, Option.getD_some, e]
    · have : ¬ (listTab nv (M.map f)).sel i ≠ 0 := by simp [listTab, h]
      rw [if_neg this]
      simp only [natTab, List.getD, List.getElem?_map, List.getElem?_eq_none (Nat.le_of_not_lt h), Option.map_none, Option.getD_none]

/-- The whole computation, when both bags have the same values. -/
theorem multBag_same (hinj : ∀ x y, E.rep x = E.rep y → x = y) (hC : CanCommit E.commit N) (hr : Ready E.commit t) {a b : Bag} {S T : BagTab F}
    (ha : HoldsBagP t a S) (hb : HoldsBagP t b T) (hS : ActiveAscending E.rep S) (hT : ActiveAscending E.rep T) (he : ∀ z, S.Active z ↔ T.Active z)
    (hNa : S.nv ≤ N) (hNb : T.nv ≤ N) :
    ∃ l m r lm am bm rm t' Tl Tm Tr Ul Ua Ub Ur, multBag E a b t = (.ok (l, m, r, lm, am, bm, rm), t') ∧ Ready E.commit t' ∧
      (∀ b U, HoldsP t b U → HoldsP t' b U) ∧ HoldsBagP t' l Tl ∧ HoldsBagP t' m Tm ∧ HoldsBagP t' r Tr ∧
      HoldsP t' lm Ul ∧ HoldsP t' am Ua ∧ HoldsP t' bm Ub ∧ HoldsP t' rm Ur ∧
      Lists Tl Ul (fun z => S.Active z ∧ ¬ T.Active z) S.count ∧ Lists Tm Ua (fun z => S.Active z ∧ T.Active z) S.count ∧
      Lists Tm Ub (fun z => S.Active z ∧ T.Active z) T.count ∧ Lists Tr Ur (fun z => T.Active z ∧ ¬ S.Active z) T.count := by
  obtain ⟨t1, h1, r1, -, -, -, -, -, p1⟩ := returns_eval hr ha.val
  obtain ⟨t2, h2, r2, -, -, -, -, -, p2⟩ := returns_eval r1 (p1 _ _ ha.sel)
  obtain ⟨t3, h3, r3, -, -, -, -, -, p3⟩ := returns_eval r2 (p2 _ _ (p1 _ _ hb.val))
  obtain ⟨t4, h4, r4, -, -, -, -, -, p4⟩ := returns_eval r3 (p3 _ _ (p2 _ _ (p1 _ _ hb.sel)))
  rw [ha.nv] at h1; rw [ha.nvSel] at h2; rw [hb.nv] at h3; rw [hb.nvSel] at h4
  have q4 := fun a T h => p4 a T (p3 a T (p2 a T (p1 a T h)))
  obtain ⟨M, m1, m2, m3, m4, m5⟩ := multVecs_same (E := E) hinj hS hT he
  have hmid : M.length ≤ 2 ^ max S.nv T.nv := m5.trans (Nat.pow_le_pow_right (by norm_num) (le_max_left _ _))
  have hNm : max S.nv T.nv ≤ N := max_le hNa hNb
  obtain ⟨b1, t5, h5, r5, p5, o5⟩ := commitBag_ok (T := listTab S.nv (([] : List (F × Nat)).map (·.1))) hC r4 hNa
  obtain ⟨b2, t6, h6, r6, p6, o6⟩ := commitBag_ok (T := listTab (max S.nv T.nv) (M.map (·.1))) hC r5 hNm
  obtain ⟨b3, t7, h7, r7, p7, o7⟩ := commitBag_ok (T := listTab T.nv (([] : List (F × Nat)).map (·.1))) hC r6 hNb
  obtain ⟨c1, t8, h8, r8, p8, -, o8⟩ := commit_tab hC r7 hNa (natTab (([] : List (F × Nat)).map (·.2)))
  obtain ⟨c2, t9, h9, r9, p9, -, o9⟩ := commit_tab hC r8 hNm (natTab (M.map (·.2.1)))
  obtain ⟨c3, t10, h10, r10, p10, -, o10⟩ := commit_tab hC r9 hNm (natTab (M.map (·.2.2)))
  obtain ⟨c4, t11, h11, r11, p11, -, o11⟩ := commit_tab hC r10 hNb (natTab (([] : List (F × Nat)).map (·.2)))
  have up8 : ∀ b U, HoldsP t8 b U → HoldsP t11 b U := fun b U h => p11 _ _ (p10 _ _ (p9 _ _ h))
  have up7 : ∀ b U, HoldsP t7 b U → HoldsP t11 b U := fun b U h => up8 _ _ (p8 _ _ h)
  refine ⟨b1, b2, b3, c1, c2, c3, c4, t11, _, _, _, _, _, _, _, ?_, r11, fun x U h => up7 _ _ (p7 _ _ (p6 _ _ (p5 _ _ (q4 _ _ h)))),
    holdsBagP_mono (fun x U h => up7 _ _ (p7 _ _ (p6 _ _ h))) o5, holdsBagP_mono (fun x U h => up7 _ _ (p7 _ _ h)) o6, holdsBagP_mono up7 o7,
    up8 _ _ o8, p11 _ _ (p10 _ _ o9), p11 _ _ o10, o11, ?_, ?_, ?_, ?_⟩
  · have na : a.numVars = S.nv := ha.nv
    have nb : b.numVars = T.nv := hb.nv
    unfold multBag
    rw [Act.bind_ok h1]; beta_reduce
    rw [Act.bind_ok h2]; beta_reduce
    rw [Act.bind_ok (Act.assert_true (by rw [na]; simp) t2)]; beta_reduce
    rw [Act.bind_ok h3]; beta_reduce
    rw [Act.bind_ok h4]; beta_reduce
    rw [Act.bind_ok (Act.assert_true (by rw [nb]; simp) t4)]; beta_reduce
    rw [m1, na, nb, Act.bind_ok (m := Act.lift (.ok _)) rfl]
    simp only
    rw [mles_ok (nv := S.nv) (by simp), mles_ok (nv := max S.nv T.nv) (l := M.map (·.1)) (by simpa using hmid), mles_ok (nv := T.nv) (by simp), multMle_ok (by simp),
      multMle_ok (l := M.map (·.2.1)) (by simpa using hmid), multMle_ok (l := M.map (·.2.2)) (by simpa using hmid), multMle_ok (by simp)]
    iterate 7 (rw [Act.bind_ok (m := Act.lift (.ok _)) rfl]; beta_reduce)
    rw [Act.bind_ok (show commitBag E (tabMle S.nv _, tabMle S.nv _) t4 = _ from h5)]; beta_reduce
    rw [Act.bind_ok (show commitBag E (tabMle (max S.nv T.nv) _, tabMle (max S.nv T.nv) _) t5 = _ from h6)]; beta_reduce
    rw [Act.bind_ok (show commitBag E (tabMle T.nv _, tabMle T.nv _) t6 = _ from h7)]; beta_reduce
    rw [Act.bind_ok h8]; beta_reduce
    rw [Act.bind_ok h9]; beta_reduce
    rw [Act.bind_ok h10]; beta_reduce
    rw [Act.bind_ok h11]
    rfl
  · exact lists_of (by simp) (by simp) (fun z => by simp [he z]) (by simp)
  · exact lists_of hmid m2 (fun z => by rw [m3 z, ← he z]; simp) fun e h => (m4 e h).1
  · exact lists_of hmid m2 (fun z => by rw [m3 z, ← he z]; simp) fun e h => (m4 e h).2
  · exact lists_of (by simp) (by simp) (fun z => by simp [he z]) (by simp)

/-- The loop over the remaining rows panics when all of them are active. -/
theorem multTail_full : ∀ (ss as : List F), ss ≠ [] → as.length ≤ ss.length → (∀ s ∈ ss, s ≠ 0) → multTail ss as = .error .panic
  | [], _, h, _, _ => absurd rfl h
  | s :: ss, [], _, _, h => by
    unfold multTail
    rw [if_neg (h s List.mem_cons_self)]
  | s :: ss, a :: as, _, hl, h => by
    unfold multTail
    rw [if_neg (h s List.mem_cons_self)]
    dsimp only
    unfold runOf
    have hd : (a :: as).dropWhile (· == a) = as.dropWhile (· == a) := by simp
    have hle : (as.dropWhile (· == a)).length ≤ as.length := (List.dropWhile_sublist _).length_le
    rw [hd]
    rcases e : as.dropWhile (· == a) with _ | ⟨x, xs⟩
    · rfl
    · rw [e] at hle
      have hss : ss ≠ [] := by
        rintro rfl
        simp only [List.length_cons, List.length_nil] at hl hle
        omega
      have ih := multTail_full ss (x :: xs) hss (by simp only [List.length_cons] at hl hle ⊢; omega) fun y hy => h y (List.mem_cons_of_mem _ hy)
      show (multTail ss (x :: xs) >>= fun q => Except.ok ((x, ((a :: as).takeWhile (· == a)).length) :: q)) = _
      rw [ih]
      rfl

/-- Against a bag without active rows, a bag with all rows active panics. -/
theorem multVecs_full {av as bv bs : List F} (hl : av.length ≤ as.length) (hne : as ≠ []) (ha : ∀ s ∈ as, s ≠ 0) (hb : ∀ s ∈ bs, s = 0) :
    multVecs E av as bv bs = .error .panic := by
  have hb0 : actives bv bs = [] := by
    unfold actives
    rw [List.map_eq_nil_iff, List.filter_eq_nil_iff]
    intro e he
    simp [hb e.2 (List.of_mem_zip he).2]
  have hm : ∀ n k, multMerge E n av k bv 0 = .ok ⟨[], [], [], av, bv⟩ := by
    intro n k
    cases n <;> simp [multMerge]
  unfold multVecs
  rw [hb0]
  show (multMerge E _ av _ bv 0 >>= _) = _
  rw [hm]
  show (multTail (as.drop (av.length - av.length)) av >>= _) = _
  rw [Nat.sub_self, List.drop_zero, multTail_full as av hne hl ha]
  rfl

/-- The call panics on a bag with all rows active and a bag without active rows. -/
theorem multBag_full {a b : Bag} {S T : BagTab F} (hr : Ready E.commit t) (ha : HoldsBagP t a S) (hb : HoldsBagP t b T)
    (hS : ∀ i < 2 ^ S.nv, S.sel i ≠ 0) (hT : ∀ i < 2 ^ T.nv, T.sel i = 0) : (multBag E a b t).1 = .error .panic := by
  obtain ⟨t1, h1, r1, -, -, -, -, -, p1⟩ := returns_eval hr ha.val
  obtain ⟨t2, h2, r2, -, -, -, -, -, p2⟩ := returns_eval r1 (p1 _ _ ha.sel)
  obtain ⟨t3, h3, r3, -, -, -, -, -, p3⟩ := returns_eval r2 (p2 _ _ (p1 _ _ hb.val))
  obtain ⟨t4, h4, r4, -, -, -, -, -, p4⟩ := returns_eval r3 (p3 _ _ (p2 _ _ (p1 _ _ hb.sel)))
  rw [ha.nv] at h1; rw [ha.nvSel] at h2; rw [hb.nv] at h3; rw [hb.nvSel] at h4
  have na : a.numVars = S.nv := ha.nv
  have nb : b.numVars = T.nv := hb.nv
  unfold multBag
  rw [Act.bind_ok h1]; beta_reduce
  rw [Act.bind_ok h2]; beta_reduce
  rw [Act.bind_ok (Act.assert_true (by rw [na]; simp) t2)]; beta_reduce
  rw [Act.bind_ok h3]; beta_reduce
  rw [Act.bind_ok h4]; beta_reduce
  rw [Act.bind_ok (Act.assert_true (by rw [nb]; simp) t4)]; beta_reduce
  rw [multVecs_full (by simp) (by simp) (by
    intro s hs
    obtain ⟨i, hi, rfl⟩ := List.mem_map.1 hs
    exact hS i (List.mem_range.1 hi)) (by
    intro s hs
    obtain ⟨i, hi, rfl⟩ := List.mem_map.1 hs
    exact hT i (List.mem_range.1 hi))]
  rfl

/-- The loop over the remaining rows finds nothing when none of them is active. -/
theorem multTail_idle : ∀ (ss as : List F), (∀ s ∈ ss, s = 0) → multTail ss as = .ok []
  | [], _, _ => rfl
  | s :: ss, as, h => by
    unfold multTail
    rw [if_pos (h s List.mem_cons_self)]
    exact multTail_idle ss as fun x hx => h x (List.mem_cons_of_mem _ hx)

/-- The same with the bags exchanged. -/
theorem multVecs_full_right {av as bv bs : List F} (hl : bv.length ≤ bs.length) (hne : bs ≠ []) (ha : ∀ s ∈ as, s = 0) (hb : ∀ s ∈ bs, s ≠ 0) :
    multVecs E av as bv bs = .error .panic := by
  have ha0 : actives av as = [] := by
    unfold actives
    rw [List.map_eq_nil_iff, List.filter_eq_nil_iff]
    intro e he
    simp [ha e.2 (List.of_mem_zip he).2]
  have hm : ∀ n k, multMerge E n av 0 bv k = .ok ⟨[], [], [], av, bv⟩ := by
    intro n k
    cases n <;> simp [multMerge]
  unfold multVecs
  rw [ha0]
  show (multMerge E _ av 0 bv _ >>= _) = _
  rw [hm]
  show (multTail (as.drop (av.length - av.length)) av >>= fun l => multTail (bs.drop (bv.length - bv.length)) bv >>= _) = _
  rw [multTail_idle _ _ fun s hs => ha s (List.mem_of_mem_drop hs), Nat.sub_self, List.drop_zero, multTail_full bs bv hne hl hb]
  rfl

/-- The same with the bags exchanged. -/
theorem multBag_full_right {a b : Bag} {S T : BagTab F} (hr : Ready E.commit t) (ha : HoldsBagP t a S) (hb : HoldsBagP t b T)
    (hS : ∀ i < 2 ^ S.nv, S.sel i = 0) (hT : ∀ i < 2 ^ T.nv, T.sel i ≠ 0) : (multBag E a b t).1 = .error .panic := by
  obtain ⟨t1, h1, r1, -, -, -, -, -, p1⟩ := returns_eval hr ha.val
  obtain ⟨t2, h2, r2, -, -, -, -, -, p2⟩ := returns_eval r1 (p1 _ _ ha.sel)
  obtain ⟨t3, h3, r3, -, -, -, -, -, p3⟩ := returns_eval r2 (p2 _ _ (p1 _ _ hb.val))
  obtain ⟨t4, h4, r4, -, -, -, -, -, p4⟩ := returns_eval r3 (p3 _ _ (p2 _ _ (p1 _ _ hb.sel)))
  rw [ha.nv] at h1; rw [ha.nvSel] at h2; rw [hb.nv] at h3; rw [hb.nvSel] at h4
  have na : a.numVars = S.nv := ha.nv
  have nb : b.numVars = T.nv := hb.nv
  unfold multBag
  rw [Act.bind_ok h1]; beta_reduce
  rw [Act.bind_ok h2]; beta_reduce
  rw [Act.bind_ok (Act.assert_true (by rw [na]; simp) t2)]; beta_reduce
  rw [Act.bind_ok h3]; beta_reduce
  rw [Act.bind_ok h4]; beta_reduce
  rw [Act.bind_ok (Act.assert_true (by rw [nb]; simp) t4)]; beta_reduce
  rw [multVecs_full_right (by simp) (by simp) (by
    intro s hs
    obtain ⟨i, hi, rfl⟩ := List.mem_map.1 hs
    exact hS i (List.mem_range.1 hi)) (by
    intro s hs
    obtain ⟨i, hi, rfl⟩ := List.mem_map.1 hs
    exact hT i (List.mem_range.1 hi))]
  rfl

end LmrSplit
end Zksql
