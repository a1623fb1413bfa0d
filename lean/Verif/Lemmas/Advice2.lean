import Verif.Lemmas.HonestOps
import Verif.Lemmas.HonestSort
import Verif.Spec.Advice
/-!
The advice computations that read the prover's tables.
-/
set_option linter.unusedSectionVars false
namespace Zksql
open Spec
variable {F C B : Type} [Field F] [DecidableEq F]
variable {E : Env F C} {t t1 : PTracker F C} {α β : Type}

/-! ### Computations that only read -/

theorem Spec.Returns.bind {m : Act (PTracker F C) α} {f : α → Act (PTracker F C) β} {x : α} {y : β} (h : Returns E.commit m t x)
    (hf : ∀ t1, Ready E.commit t1 → (∀ a T, HoldsP t a T → HoldsP t1 a T) → Returns E.commit (f x) t1 y) : Returns E.commit (m >>= f) t y := by
  obtain ⟨t1, h1, h2, h3, h4, h5, h6, h7, h8⟩ := h
  obtain ⟨t2, k1, k2, k3, k4, k5, k6, k7, k8⟩ := hf t1 h2 h8
  exact ⟨t2, by rw [Act.bind_ok h1, k1], k2, k3.trans h3, k4.trans h4, k5.trans h5, k6.trans h6, k7.trans h7, fun a T h => k8 a T (h8 a T h)⟩

theorem returns_pure (hr : Ready E.commit t) (x : α) : Returns E.commit (pure x : Act (PTracker F C) α) t x :=
  ⟨t, rfl, hr, rfl, rfl, rfl, rfl, rfl, fun _ _ h => h⟩

theorem returns_lift (hr : Ready E.commit t) {r : Res α} {x : α} (h : r = .ok x) : Returns E.commit (Act.lift r) t x :=
  ⟨t, by rw [h]; rfl, hr, rfl, rfl, rfl, rfl, rfl, fun _ _ h => h⟩

theorem returns_assert (hr : Ready E.commit t) {p : Prop} [Decidable p] (h : p) : Returns E.commit (Act.assert p) t () :=
  ⟨t, Act.assert_true h t, hr, rfl, rfl, rfl, rfl, rfl, fun _ _ h => h⟩

theorem returns_eval (hr : Ready E.commit t) {a : TPoly} {T : Nat → F} (h : HoldsP t a T) : Returns E.commit a.evaluations t ((List.range (2 ^ a.numVars)).map T) := by
  have ha := h.ph hr
  have e := PTracker.evaluations_run hr.inv ha.nv
  have e2 : (List.range (2 ^ a.numVars)).map (fun b => t.gval (fun p => p.tbl b) a.id) = (List.range (2 ^ a.numVars)).map T :=
    List.map_congr_left fun b hb => ha.val b (List.mem_range.1 hb)
  rw [e2] at e
  obtain ⟨h1, h2, -⟩ := PTracker.matSt_spec hr.inv ha.nv
  have hl : SameLog t (t.matSt a.id a.numVars) ∧ (t.matSt a.id a.numVars).idCounter = t.idCounter := by
    unfold PTracker.matSt
    rcases t.mats.lookup a.id with _ | x
    · rcases t.virts.lookup a.id with _ | y
      · exact ⟨⟨rfl, rfl, rfl, rfl⟩, rfl⟩
      · exact ⟨⟨rfl, rfl, rfl, rfl⟩, rfl⟩
    · exact ⟨⟨rfl, rfl, rfl, rfl⟩, rfl⟩
  have hx := hl.1.ext hr h1 h2
  exact ⟨_, e, hx.ready, hl.2, hl.1.tr, hl.1.co, hl.1.su, hl.1.ze, fun b T hb => (hx.ph (hb.ph hr)).holdsP hx.ready⟩

/-! ### Inclusion -/

theorem returns_incAdvice (hr : Ready E.commit t) {inc sup : Bag} {I S : BagTab F} (hI : HoldsBagP t inc I) (hS : HoldsBagP t sup S) :
    Returns E.commit (Inclusion.advice inc sup) t ⟨S.nv, (List.range (2 ^ S.nv)).map (incMult I S)⟩ := by
  unfold Inclusion.advice
  refine (returns_eval hr hI.val).bind fun t1 r1 p1 => ?_
  rw [hI.nv]
  refine (returns_lift r1 (fromEvals_map hI.nv _)).bind fun t2 r2 p2 => ?_
  refine (returns_eval r2 (p2 _ _ (p1 _ _ hI.sel))).bind fun t3 r3 p3 => ?_
  rw [hI.nvSel]
  refine (returns_lift r3 (fromEvals_map hI.nv _)).bind fun t4 r4 p4 => ?_
  have q4 := fun a T h => p4 a T (p3 a T (p2 a T (p1 a T h)))
  refine (returns_eval r4 (q4 _ _ hS.val)).bind fun t5 r5 p5 => ?_
  rw [hS.nv]
  refine (returns_lift r5 (fromEvals_map hS.nv _)).bind fun t6 r6 p6 => ?_
  refine (returns_eval r6 (p6 _ _ (p5 _ _ (q4 _ _ hS.sel)))).bind fun t7 r7 p7 => ?_
  rw [hS.nvSel]
  refine (returns_lift r7 (fromEvals_map hS.nv _)).bind fun t8 r8 p8 => ?_
  exact returns_lift r8 (adviceMle_spec I S _ _ _ _ rfl rfl rfl rfl rfl)

/-! ### Support -/
namespace Supp

theorem run_eq (v : F) : ∀ (l : List (F × F)) (k : Nat),
    run v l k = (k + (l.takeWhile fun x => x.2 ≠ 0 ∧ x.1 = v).length, l.dropWhile fun x => x.2 ≠ 0 ∧ x.1 = v)
  | [], k => rfl
  | x :: xs, k => by
    unfold run
    by_cases h : x.2 ≠ 0 ∧ x.1 = v
    · rw [if_pos h, run_eq v xs, List.takeWhile_cons_of_pos (by simpa using h), List.dropWhile_cons_of_pos (by simpa using h), List.length_cons]
      congr 1; omega
    · rw [if_neg h, List.takeWhile_cons_of_neg (by simpa using h), List.dropWhile_cons_of_neg (by simpa using h)]
      rfl

/-- Number of active entries with a value. -/
def cnt (l : List (F × F)) (v : F) : Nat := l.countP fun x => x.2 ≠ 0 ∧ x.1 = v

theorem groups_spec (rep : F → Nat) (hinj : ∀ x y, rep x = rep y → x = y) : ∀ (n : Nat) (l : List (F × F)), l.length ≤ n →
    (l.Pairwise fun x y => y.2 ≠ 0 → x.2 ≠ 0 ∧ rep x.1 ≤ rep y.1) →
    ((groups n l).map (·.1)).Pairwise (fun x y => rep x < rep y) ∧ (∀ z, z ∈ (groups n l).map (·.1) ↔ ∃ x ∈ l, x.2 ≠ 0 ∧ x.1 = z) ∧
      (∀ e ∈ groups n l, e.2 = cnt l e.1) ∧ (groups n l).length ≤ l.length
  | 0, l, hn, _ => by
    rw [List.length_eq_zero_iff.1 (Nat.le_zero.1 hn)]
    simp [groups]
  | n + 1, [], _, _ => by simp [groups]
  | n + 1, x :: xs, hn, hs => by
    unfold groups
    rw [List.pairwise_cons] at hs
    obtain ⟨hx, hs⟩ := hs
    by_cases h0 : x.2 = 0
    · rw [if_pos h0]
      have : ∀ y ∈ x :: xs, y.2 = 0 := by
        intro y hy
        rcases List.mem_cons.1 hy with rfl | hy
        · exact h0
        · by_contra hc
          exact (hx y hy hc).1 h0
      refine ⟨by simp, fun z => ?_, by simp, by simp⟩
      simp only [List.map_nil, List.not_mem_nil, false_iff, not_exists, not_and]
      exact fun y hy hc => absurd (this y hy) hc
    rw [if_neg h0]
    simp only
    rw [run_eq]
    have hp : x.2 ≠ 0 ∧ x.1 = x.1 := ⟨h0, rfl⟩
    rw [List.takeWhile_cons_of_pos (by simpa using hp), List.dropWhile_cons_of_pos (by simpa using hp), List.length_cons]
    set p : F × F → Bool := fun y => y.2 ≠ 0 ∧ y.1 = x.1 with hpd
    have hsub : xs.dropWhile p <:+ xs := List.dropWhile_suffix p
    have hlen : (xs.dropWhile p).length ≤ n := by have := hsub.length_le; simp at hn; omega
    have hs' := hs.sublist hsub.sublist
    obtain ⟨i1, i2, i3, i4⟩ := groups_spec rep hinj n (xs.dropWhile p) hlen hs'
    -- what remains is larger
    have hbig : ∀ y ∈ xs.dropWhile p, y.2 ≠ 0 → rep x.1 < rep y.1 := by
      intro y hy hy2
      have hle := (hx y (hsub.mem hy) hy2).2
      refine lt_of_le_of_ne hle fun he => ?_
      have hyx : y.1 = x.1 := (hinj _ _ he).symm
      cases hd : xs.dropWhile p with
      | nil => rw [hd] at hy; simp at hy
      | cons z zs =>
        have hz : ¬ p z := by
          have := List.head_dropWhile_not p (l := xs) (by rw [hd]; simp)
          simpa [hd] using this
        rw [hd] at hy hs'
        rcases List.mem_cons.1 hy with rfl | hy
        · exact hz (by simp [hpd, hy2, hyx])
        · obtain ⟨hz2, hzle⟩ := (List.pairwise_cons.1 hs').1 y hy hy2
          have hzx := (hx z (hsub.mem (by rw [hd]; simp)) hz2).2
          have : rep z.1 = rep x.1 := by rw [hyx] at hzle; omega
          exact hz (by simp [hpd, hz2, hinj _ _ this])
    have htw : ∀ y ∈ xs.takeWhile p, y.2 ≠ 0 ∧ y.1 = x.1 := fun y hy => by
      have := List.all_eq_true.1 (List.all_takeWhile (p := p) (l := xs)) y hy
      simpa [hpd] using this
    have hsplit : xs = xs.takeWhile p ++ xs.dropWhile p := (List.takeWhile_append_dropWhile).symm
    refine ⟨?_, fun z => ?_, fun e he => ?_, ?_⟩
    · rw [List.map_cons, List.pairwise_cons]
      refine ⟨fun z hz => ?_, i1⟩
      obtain ⟨y, hy, hy2, rfl⟩ := (i2 z).1 hz
      exact hbig y hy hy2
    · rw [List.map_cons, List.mem_cons, i2]
      constructor
      · rintro (rfl | ⟨y, hy, h⟩)
        · exact ⟨x, List.mem_cons_self, h0, rfl⟩
        · exact ⟨y, List.mem_cons_of_mem _ (hsub.mem hy), h⟩
      · rintro ⟨y, hy, hy2, rfl⟩
        rcases List.mem_cons.1 hy with rfl | hy
        · exact .inl rfl
        · rw [hsplit, List.mem_append] at hy
          rcases hy with hy | hy
          · exact .inl (htw y hy).2
          · exact .inr ⟨y, hy, hy2, rfl⟩
    · have hcnt : ∀ v, cnt (x :: xs) v = (if x.1 = v then 1 + (xs.takeWhile p).length else 0) + cnt (xs.dropWhile p) v := by
        intro v
        unfold cnt
        rw [List.countP_cons]
        conv_lhs => rw [hsplit]
        rw [List.countP_append]
        by_cases hv : x.1 = v
        · rw [if_pos hv, if_pos (by simp [h0, hv])]
          rw [List.countP_eq_length.2 fun y hy => by have := htw y hy; simp [this.1, this.2, hv]]
          omega
        · rw [if_neg hv, if_neg (by simp [hv])]
          rw [List.countP_eq_zero.2 fun y hy => by have := htw y hy; simp [this.2, hv]]
          omega
      rcases List.mem_cons.1 he with rfl | he
      · simp only
        rw [hcnt, if_pos rfl]
        have : cnt (xs.dropWhile p) x.1 = 0 := List.countP_eq_zero.2 fun y hy => by
          simp only [decide_eq_true_eq, not_and]
          intro hy2 hy1
          have := hbig y hy hy2
          rw [hy1] at this; omega
        omega
      · rw [hcnt, i3 e he]
        have : x.1 ≠ e.1 := by
          intro hxe
          obtain ⟨y, hy, hy2, hy1⟩ := (i2 e.1).1 (List.mem_map_of_mem he)
          have := hbig y hy hy2
          rw [hy1, hxe] at this; omega
        rw [if_neg this]; omega
    · have := hsub.length_le
      simp only [List.length_cons]
      omega

theorem rep_inj {rep : F → Nat} (hc : Canonical rep) (x y : F) (h : rep x = rep y) : x = y := by rw [← hc.2 x, ← hc.2 y, h]

theorem idxLe_total (E : Env F C) : Std.Total (fun x y : F × F => idxLe E x y = true) := ⟨fun x y => by
  unfold idxLe
  simp only [Bool.or_eq_true, Bool.and_eq_true, decide_eq_true_eq, beq_iff_eq]
  omega⟩

theorem idxLe_trans (E : Env F C) : IsTrans (F × F) (fun x y => idxLe E x y = true) := ⟨fun x y z => by
  unfold idxLe
  simp only [Bool.or_eq_true, Bool.and_eq_true, decide_eq_true_eq, beq_iff_eq]
  omega⟩

/-- On 0/1 selectors. -/
theorem adviceVecs_spec (hc : Canonical E.rep) {T : BagTab F} (hb : T.Boolean) :
    ∃ L, T.Support E.rep L ∧ L.length ≤ 2 ^ T.nv ∧
      adviceVecs E (2 ^ T.nv) ((List.range (2 ^ T.nv)).map T.val) ((List.range (2 ^ T.nv)).map T.sel) =
        (List.replicate (2 ^ T.nv - L.length) 0 ++ L, List.replicate (2 ^ T.nv - L.length) 0 ++ L.map fun _ => 1,
          List.replicate (2 ^ T.nv - L.length) 0 ++ L.map fun z => (T.count z : F)) := by
  haveI := idxLe_total E
  haveI := idxLe_trans E
  set l := ((List.range (2 ^ T.nv)).map T.val).zip ((List.range (2 ^ T.nv)).map T.sel) with hl
  have hl' : l = (List.range (2 ^ T.nv)).map fun i => (T.val i, T.sel i) := by rw [hl, List.zip_map']
  set r := l.insertionSort fun x y => idxLe E x y = true with hr
  have hperm : r.Perm l := List.perm_insertionSort _ l
  have hsort : r.Pairwise fun x y => idxLe E x y = true := List.pairwise_insertionSort _ l
  have hbool : ∀ x ∈ r, x.2 = 0 ∨ x.2 = 1 := by
    intro x hx
    rw [hperm.mem_iff, hl'] at hx
    obtain ⟨i, hi, rfl⟩ := List.mem_map.1 hx
    exact hb i (List.mem_range.1 hi)
  have h1 : E.rep 1 ≠ 0 := fun h => by have := hc.2 1; rw [h] at this; simp at this
  have hs : r.Pairwise fun x y => y.2 ≠ 0 → x.2 ≠ 0 ∧ E.rep x.1 ≤ E.rep y.1 := by
    refine hsort.imp_of_mem fun {x y} hx hy h hy2 => ?_
    have hy1 : y.2 = 1 := (hbool y hy).resolve_left hy2
    unfold idxLe at h
    simp only [Bool.or_eq_true, Bool.and_eq_true, decide_eq_true_eq, beq_iff_eq] at h
    rw [hy1] at h
    rcases hbool x hx with hx0 | hx1
    · rw [hx0, hc.1] at h; omega
    · rw [hx1] at h
      refine ⟨by rw [hx1]; exact one_ne_zero, ?_⟩
      omega
  obtain ⟨i1, i2, i3, i4⟩ := groups_spec E.rep (rep_inj hc) r.length r le_rfl hs
  have hlen : r.length = 2 ^ T.nv := by rw [hperm.length_eq, hl']; simp
  refine ⟨(groups r.length r).map (·.1), ⟨i1, fun z => ?_⟩, ?_, ?_⟩
  · rw [i2]
    constructor
    · rintro ⟨x, hx, h2, h3⟩
      rw [hperm.mem_iff, hl'] at hx
      obtain ⟨i, hi, rfl⟩ := List.mem_map.1 hx
      exact ⟨i, List.mem_range.1 hi, h2, h3⟩
    · rintro ⟨i, hi, h2, h3⟩
      refine ⟨(T.val i, T.sel i), ?_, h2, h3⟩
      rw [hperm.mem_iff, hl']
      exact List.mem_map.2 ⟨i, List.mem_range.2 hi, rfl⟩
  · rw [List.length_map]; omega
  · unfold adviceVecs
    simp only [List.length_map, List.map_map]
    rw [← hl, ← hr]
    refine Prod.ext rfl (Prod.ext rfl ?_)
    simp only
    congr 1
    refine List.map_congr_left fun e he => ?_
    simp only [Function.comp]
    rw [i3 e he]
    congr 1
    unfold cnt
    rw [hperm.countP_eq, hl', List.countP_map, List.countP_eq_length_filter]
    rfl

end Supp

theorem fromEvals_ok {n : Nat} {l : List F} (h : l.length = 2 ^ n) : Mle.fromEvals n l = .ok ⟨n, l⟩ := by
  unfold Mle.fromEvals
  rw [if_pos h]

theorem returns_suppAdvice (hr : Ready E.commit t) (hc : Canonical E.rep) {bag : Bag} {T : BagTab F} (hT : HoldsBagP t bag T) (hb : T.Boolean) :
    ∃ L, T.Support E.rep L ∧ L.length ≤ 2 ^ T.nv ∧
      Returns E.commit (Supp.advice E bag) t (frontPadded T.nv L, frontPadded T.nv (L.map fun _ => 1), frontPadded T.nv (L.map fun z => (T.count z : F))) := by
  obtain ⟨L, h1, h2, h3⟩ := Supp.adviceVecs_spec hc hb
  refine ⟨L, h1, h2, ?_⟩
  unfold Supp.advice
  refine (returns_eval hr hT.val).bind fun t1 r1 p1 => ?_
  refine (returns_eval r1 (p1 _ _ hT.sel)).bind fun t2 r2 p2 => ?_
  rw [hT.nv, hT.nvSel]
  have hnv : bag.numVars = T.nv := hT.nv
  rw [hnv]
  refine (returns_assert r2 (by simp)).bind fun t3 r3 p3 => ?_
  rw [List.take_of_length_le (by simp), List.take_of_length_le (by simp), h3]
  refine (returns_lift r3 (fromEvals_ok (by simp; omega))).bind fun t4 r4 p4 => ?_
  refine (returns_lift r4 (fromEvals_ok (by simp; omega))).bind fun t5 r5 p5 => ?_
  refine (returns_lift r5 (fromEvals_ok (by simp; omega))).bind fun t6 r6 p6 => ?_
  unfold frontPadded
  simp only [List.length_map]
  exact returns_pure r6 _

/-! ### Join reduction -/

theorem joinAdvice_spec (Ta Tb : BagTab F) :
    JoinReduction.advice ⟨Ta.nv, (List.range (2 ^ Ta.nv)).map Ta.val⟩ ⟨Ta.nv, (List.range (2 ^ Ta.nv)).map Ta.sel⟩ ⟨Tb.nv, (List.range (2 ^ Tb.nv)).map Tb.val⟩
      ⟨Tb.nv, (List.range (2 ^ Tb.nv)).map Tb.sel⟩ =
      .ok (⟨Ta.nv, (List.range (2 ^ Ta.nv)).map fun i => if Tb.count (Ta.val i) = 0 then 1 else 0⟩,
        ⟨Tb.nv, (List.range (2 ^ Tb.nv)).map fun i => if Ta.count (Tb.val i) = 0 then 1 else 0⟩) := by
  obtain ⟨ma, a1, a2⟩ := multCount_bag Ta
  obtain ⟨mb, b1, b2⟩ := multCount_bag Tb
  have h1 : JoinReduction.outside mb ((List.range (2 ^ Ta.nv)).map Ta.val) = (List.range (2 ^ Ta.nv)).map fun i => if Tb.count (Ta.val i) = 0 then 1 else 0 := by
    unfold JoinReduction.outside
    rw [List.map_map]
    refine List.map_congr_left fun i _ => ?_
    simp only [Function.comp, b2]
    split <;> simp
  have h2 : JoinReduction.outside ma ((List.range (2 ^ Tb.nv)).map Tb.val) = (List.range (2 ^ Tb.nv)).map fun i => if Ta.count (Tb.val i) = 0 then 1 else 0 := by
    unfold JoinReduction.outside
    rw [List.map_map]
    refine List.map_congr_left fun i _ => ?_
    simp only [Function.comp, a2]
    split <;> simp
  unfold JoinReduction.advice
  simp only [a1, b1, bind, Except.bind]
  rw [h1, h2, fromEvals_ok (by simp), fromEvals_ok (by simp)]

end Zksql
