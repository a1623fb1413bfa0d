import Verif.Lemmas.Honest
import Verif.Lemmas.BagTab
/-! Honest runs of the multiset check and of the checks built on it. -/
set_option linter.unusedSectionVars false
namespace Zksql
open Spec
variable {F C B : Type} [Field F] [DecidableEq F]
variable {E : Env F C} {P : C → List F → F} {N : Nat} {Sz : Prop} {t t1 t2 t' : PTracker F C} {s s1 s' : VSt F C B}
variable {α β α0 β0 : Type} {Γ Γ1 : Facts F} {bounds b1 b2 : List Nat} {Φ Φ' : Prop}

/-- A table as a polynomial. -/
def tabMle (nv : Nat) (T : Nat → F) : Mle F := ⟨nv, (List.range (2 ^ nv)).map T⟩

theorem tabMle_wf (nv : Nat) (T : Nat → F) : (tabMle nv T).WF := by simp [tabMle, Mle.WF]

theorem tabMle_tbl (nv : Nat) (T : Nat → F) {b : Nat} (hb : b < 2 ^ nv) : (tabMle nv T).tbl b = T b := by
  simp [tabMle, Mle.tbl, hb]

theorem Spec.Holds.congr {i nv : Nat} {T T' : Nat → F} (h : Holds s P N i nv T) (e : ∀ b < 2 ^ nv, T b = T' b) : Holds s P N i nv T' := by
  refine ⟨h.1, fun b hb => ?_⟩
  rw [h.2 b hb]; beta_reduce; rw [e _ (Nat.mod_lt _ (Nat.two_pow_pos nv))]

/-- Facts about the same table in other words. -/
theorem c_fact {i nv : Nat} {T T' : Nat → F} {m : Oracle F C → Act (PTracker F C) α} {v : CompiledProof F C B → Oracle F C → Act (VSt F C B) β}
    (hi : Γ i nv T) (e : ∀ b < 2 ^ nv, T b = T' b) (h : GF E P N Sz m v (Γ.ins i nv T') t bounds Φ) : GF E P N Sz m v Γ t bounds Φ := by
  obtain ⟨bad, h⟩ := h
  refine ⟨bad, fun H => ?_⟩
  obtain ⟨a, t', h1, h2, h3, h4, hz5, h5⟩ := h H
  have tr : ∀ s : VSt F C B, Truth E P N Sz Γ s → Truth E P N Sz (Γ.ins i nv T') s := by
    rintro s ⟨a0, a1, a2⟩
    refine ⟨a0, ?_, a2⟩
    rintro j m U (hj | ⟨rfl, rfl, rfl⟩)
    · exact a1 _ _ _ hj
    · exact (a1 _ _ _ hi).congr e
  refine ⟨a, t', h1, h2, h3, h4, hz5, fun s hm hc => ?_⟩
  have hm' : Match (Γ.ins i nv T') t s := by
    refine ⟨hm.sane, hm.tog, ?_⟩
    rintro j m U (hj | ⟨rfl, rfl, rfl⟩)
    · exact hm.known _ _ _ hj
    · exact hm.known _ _ _ hi
  rcases h5 s hm' hc with ⟨b, s', k1, k2, k3, k4⟩ | ⟨s', k1, k2⟩
  · exact .inl ⟨b, s', k1, ⟨k2.sane, k2.tog, fun j m U hj => k2.known j m U (.inl hj)⟩, k3, fun a1 => k4 (tr s a1)⟩
  · exact .inr ⟨s', k1, k2⟩

theorem c_commitT {nv : Nat} {T : Nat → F} {d : Bool} {f : TPoly → Oracle F C → Act (PTracker F C) α}
    {g : Nat → CompiledProof F C B → Oracle F C → Act (VSt F C B) β} (hr : Ready E.commit t) (hN : nv ≤ N) (hC : CanCommit E.commit N)
    (h : ∀ x t1 Γ1, Ext E t t1 → Γ ≤ Γ1 → x.numVars = nv → PH t1 x T →
      Γ1 x.id nv T → GF E P N Sz (f x) (g x.id) Γ1 t1 bounds Φ) :
    GF E P N Sz (fun H => TPoly.trackAndCommit E.commit (tabMle nv T) >>= fun x => f x H)
      (fun pf H => VSt.getNextId >>= fun id => VSt.transferComm d id >>= fun x => g x pf H) Γ t bounds Φ := by
  refine c_commit hr (tabMle_wf nv T) hN hC fun x t1 Γ1 hx hΓ hn hp hi => ?_
  have e : ∀ b < 2 ^ nv, (tabMle nv T).tbl b = T b := fun b hb => tabMle_tbl nv T hb
  refine c_fact hi e (h x t1 _ hx (hΓ.trans (Γ1.le_ins _ _ _)) hn (hp.congr fun b hb => ?_) (Γ1.mem_ins _ _ _))
  rw [hn] at hb
  exact e b hb

theorem c_pubT {nv : Nat} {T U : Nat → F} {fn : List F → Res F} {f : TPoly → Oracle F C → Act (PTracker F C) α}
    {g : Nat → CompiledProof F C B → Oracle F C → Act (VSt F C B) β} (hr : Ready E.commit t) (hN : nv ≤ N)
    (hfn : Sz → ∀ b < 2 ^ N, fn (boolPt N b) = .ok (U (b % 2 ^ nv)))
    (h : ∀ x t1 Γ1, Ext E t t1 → Γ ≤ Γ1 → x.numVars = nv → PH t1 x T →
      Γ1 x.id nv U → GF E P N Sz (f x) (g x.id) Γ1 t1 bounds Φ) :
    GF E P N Sz (fun H => TPoly.trackMat (tabMle nv T) >>= fun x => f x H) (fun pf H => VSt.trackVirtual (.fn fn) >>= fun x => g x pf H) Γ t bounds Φ := by
  refine c_pub (p := tabMle nv T) hr (tabMle_wf nv T) hN hfn fun x t1 Γ1 hx hΓ hn hp hi => h x t1 Γ1 hx hΓ hn (hp.congr fun b hb => ?_) hi
  rw [hn] at hb
  exact tabMle_tbl nv T hb

/-! ### One bag -/

/-- A bag with its multiplicity on both sides: prover's handles, verifier's handles, tables. -/
abbrev Joint (F : Type) := (Bag × TPoly) × (BagComm × Nat) × (BagTab F × (Nat → F))

/-- The handles are what they should be. -/
structure EOk (Γ : Facts F) (t : PTracker F C) (q : Joint F) : Prop where
  nvp : q.1.1.poly.numVars = q.2.2.1.nv
  nvs : q.1.1.selector.numVars = q.2.2.1.nv
  nvm : q.1.2.numVars = q.2.2.1.nv
  nvc : q.2.1.1.numVars = q.2.2.1.nv
  pv : PH t q.1.1.poly q.2.2.1.val
  ps : PH t q.1.1.selector q.2.2.1.sel
  pm : PH t q.1.2 q.2.2.2
  fv : Γ q.2.1.1.poly q.2.2.1.nv q.2.2.1.val
  fs : Γ q.2.1.1.selector q.2.2.1.nv q.2.2.1.sel
  fm : Γ q.2.1.2 q.2.2.1.nv q.2.2.2

theorem EOk.mono {q : Joint F} (h : EOk Γ t q) (x : Ext E t t1) (hΓ : Γ ≤ Γ1) : EOk Γ1 t1 q :=
  ⟨h.nvp, h.nvs, h.nvm, h.nvc, x.ph h.pv, x.ph h.ps, x.ph h.pm, hΓ _ _ _ h.fv, hΓ _ _ _ h.fs, hΓ _ _ _ h.fm⟩

/-- The sum claimed for a bag. -/
def tfrac (γ : F) (e : BagTab F × (Nat → F)) : F := ∑ i ∈ Finset.range (2 ^ e.1.nv), (e.1.val i - γ)⁻¹ * (e.2 i * e.1.sel i)

theorem idx_mapRange {A : Type} (f : Nat → A) {n i : Nat} (h : i < n) : idx ((List.range n).map f) i = .ok (f i) := by
  unfold idx
  simp [h]

theorem sumLoop_ok (n : Nat) (A B' D : Nat → F) : ∀ (l : List Nat) (v : F), (∀ i ∈ l, i < n) →
    Multitool.sumLoop ((List.range n).map A) ((List.range n).map B') ((List.range n).map D) l v = .ok (v + (l.map fun i => A i * B' i * D i).sum)
  | [], v, _ => by simp [Multitool.sumLoop]
  | i :: l, v, h => by
    have hi := h i (by simp)
    unfold Multitool.sumLoop
    rw [idx_mapRange A hi, idx_mapRange B' hi, idx_mapRange D hi]
    show Multitool.sumLoop _ _ _ l _ = _
    rw [sumLoop_ok n A B' D l _ fun j hj => h j (by simp [hj])]
    simp [add_assoc]

theorem c_multSub {q : Joint F} {γ : F} {f : Unit → Oracle F C → Act (PTracker F C) α}
    {g : F → CompiledProof F C B → Oracle F C → Act (VSt F C B) β} (hr : Ready E.commit t) (hq : EOk Γ t q) (hN : q.2.2.1.nv ≤ N)
    (hC : CanCommit E.commit N) (hγ : Φ → ∀ i < 2 ^ q.2.2.1.nv, q.2.2.1.val i ≠ γ)
    (h : ∀ id t1 Γ1, Ext E t t1 → Γ ≤ Γ1 → t1.HasNv id q.2.2.1.nv → (id, tfrac γ q.2.2) ∈ t1.sumClaims →
      GF E P N Sz (f ()) (fun pf => g (claimOf pf id) pf) Γ1 t1 bounds Φ) :
    GF E P N Sz (fun H => Multitool.proveSub (E.withH H) q.1.1 q.1.2 γ >>= fun x => f x H)
      (fun pf H => Multitool.verifySub (E.withH H) q.2.1.1 q.2.1.2 γ >>= fun v => g v pf H) Γ t bounds Φ := by
  obtain ⟨⟨bag, m⟩, ⟨bc, mc⟩, ⟨T, M⟩⟩ := q
  obtain ⟨nvp, nvs, nvm, nvc, pv, ps, pm, fv, fs, fm⟩ := hq
  dsimp only at nvp nvs nvm nvc pv ps pm fv fs fm hN hγ h ⊢
  unfold Multitool.proveSub Multitool.verifySub
  simp only [Act.bind_assoc]
  refine c_eval hr pv fun t1 x1 => ?_
  have em : ((List.range (2 ^ bag.poly.numVars)).map T.val).map (fun x => (x - γ)⁻¹) = (List.range (2 ^ T.nv)).map fun i => (T.val i - γ)⁻¹ := by
    rw [List.map_map, nvp]; rfl
  rw [em]
  have em2 : Mle.fromEvals bag.numVars ((List.range (2 ^ T.nv)).map fun i => (T.val i - γ)⁻¹) = .ok (tabMle T.nv fun i => (T.val i - γ)⁻¹) := by
    unfold Mle.fromEvals Bag.numVars
    rw [nvp, if_pos (by simp)]; rfl
  refine c_lift x1.ready em2 ?_
  refine c_eval x1.ready (x1.ph pm) fun t2 x2 => ?_
  refine c_eval x2.ready ((x1.trans x2).ph ps) fun t3 x3 => ?_
  have x := (x1.trans x2).trans x3
  have es : Multitool.sumLoop ((List.range (2 ^ T.nv)).map fun i => (T.val i - γ)⁻¹) ((List.range (2 ^ m.numVars)).map M)
      ((List.range (2 ^ bag.selector.numVars)).map T.sel) (List.range (2 ^ bag.numVars)) 0 = .ok (tfrac γ (T, M)) := by
    unfold Bag.numVars
    rw [nvm, nvs, nvp, sumLoop_ok _ _ _ _ _ _ fun i hi => List.mem_range.1 hi, zero_add]
    congr 1
    unfold tfrac
    rw [Finset.sum_range]
    rw [← List.sum_ofFn]
    congr 1
    apply List.ext_getElem <;> simp [mul_assoc]
  refine c_lift x3.ready es ?_
  refine c_commitT x3.ready hN hC fun ph t4 Γ4 x4 g4 n4 p4 i4 => ?_
  have y4 := x.trans x4
  refine c_mul x4.ready p4 (y4.ph pm) (by rw [n4, nvm]) (by rw [n4]; exact i4) (by rw [n4]; exact g4 _ _ _ fm) fun q5 t5 Γ5 x5 g5 n5 p5 i5 => ?_
  have y5 := y4.trans x5
  have h5 := g4.trans g5
  refine c_mul x5.ready p5 (y5.ph ps) (by rw [n5, n4, nvs]) (by rw [n5]; exact i5) (by rw [n5, n4]; exact h5 _ _ _ fs) fun q6 t6 Γ6 x6 g6 n6 p6 i6 => ?_
  have y6 := y5.trans x6
  have h6 := h5.trans g6
  refine c_mul x6.ready (y6.ph pv) ((x5.trans x6).ph p4) (by rw [n4, nvp]) (by rw [nvp]; exact h6 _ _ _ fv)
    (by rw [nvp]; exact (g5.trans g6) _ _ _ i4) fun q7 t7 Γ7 x7 g7 n7 p7 i7 => ?_
  refine c_mulScalar x7.ready (((x5.trans x6).trans x7).ph p4) (by rw [n4]; exact ((g5.trans g6).trans g7) _ _ _ i4) fun q8 t8 Γ8 x8 g8 n8 p8 i8 => ?_
  refine c_sub x8.ready (x8.ph p7) p8 (by rw [n7, n8, nvp, n4]) (by rw [n7]; exact g8 _ _ _ i7) (by rw [n7, nvp, ← n4]; exact i8)
    fun q9 t9 Γ9 x9 g9 n9 p9 i9 => ?_
  refine c_addScalar x9.ready p9 (by rw [n9]; exact i9) fun q10 t10 Γ10 x10 g10 n10 p10 i10 => ?_
  have n6' : q6.numVars = T.nv := by rw [n6, n5, n4]
  have y := ((x7.trans x8).trans x9).trans x10
  have hΓ := ((g7.trans g8).trans g9).trans g10
  refine c_sum x10.ready (y.ph p6) (by rw [n6]; exact hΓ _ _ _ i6) ?_ fun t11 x11 m11 => ?_
  · rw [n6']
    unfold cubeSum tfrac
    exact Finset.sum_congr rfl fun i _ => by ring
  refine c_zero x11.ready n10 (x11.ph p10) i10 ?_ fun t12 x12 => ?_
  · intro hφ b hb
    have : b < 2 ^ T.nv := by rw [n9, n7, nvp] at hb; exact hb
    have := sub_ne_zero.2 (hγ hφ b this)
    rw [← sub_mul, mul_inv_cancel₀ this]
    ring
  have hz := (y.trans (x11.trans x12))
  exact h q6.id t12 Γ10 (y6.trans hz) (h6.trans hΓ) (by rw [← n6']; exact (hz.ph p6).nv) (x12.sums _ m11)

/-! ### All bags -/

theorem c_multSubs {γ : F} {top : Nat} (hC : CanCommit E.commit N) (h2 : (2 : F) ≠ 0) :
    ∀ (L : List (Joint F)) {f : Unit → Oracle F C → Act (PTracker F C) α} {g : F → CompiledProof F C B → Oracle F C → Act (VSt F C B) β}
      {t : PTracker F C} {Γ : Facts F} {acc : CompiledProof F C B → F}, Ready E.commit t → (∀ q ∈ L, EOk Γ t q) → (∀ q ∈ L, q.2.2.1.nv ≤ N) →
      (∀ q ∈ L, q.2.2.1.nv ≤ top) → (Φ → ∀ q ∈ L, ∀ i < 2 ^ q.2.2.1.nv, q.2.2.1.val i ≠ γ) →
      (∀ (acc1 : CompiledProof F C B → F) t1 Γ1, Ext E t t1 → Γ ≤ Γ1 →
        (∀ pf, TS N pf t1 → acc1 pf = acc pf + 2 ^ N * ((2 : F) ^ top)⁻¹ * (L.map fun q => tfrac γ q.2.2).sum) →
        GF E P N Sz (f ()) (fun pf => g (acc1 pf) pf) Γ1 t1 bounds Φ) →
      GF E P N Sz (fun H => Multitool.proveSubs (E.withH H) γ (L.map (·.1)) >>= fun x => f x H)
        (fun pf H => Multitool.verifySubs (E.withH H) γ top (L.map (·.2.1)) (acc pf) >>= fun v => g v pf H) Γ t bounds Φ
  | [], f, g, t, Γ, acc, hr, _, _, _, _, h => h acc t Γ hr.ext le_rfl (by simp)
  | q :: L, f, g, t, Γ, acc, hr, hq, hN, ht, hγ, h => by
    obtain ⟨⟨bag, m⟩, ⟨bc, mc⟩, e⟩ := q
    simp only [List.map_cons]
    unfold Multitool.proveSubs Multitool.verifySubs
    simp only [Act.bind_assoc]
    have hq0 := hq _ List.mem_cons_self
    refine c_multSub (q := ((bag, m), (bc, mc), e)) hr hq0 (hN _ List.mem_cons_self) hC (fun a => hγ a _ List.mem_cons_self)
      fun id t1 Γ1 x1 g1 n1 m1 => ?_
    refine c_vlift (x := fun pf => claimOf pf id / 2 ^ (top - bc.numVars)) (fun pf => ?_) ?_
    · unfold Multitool.divPow2
      rw [if_neg (pow_ne_zero _ h2)]
    refine c_multSubs hC h2 L x1.ready (fun q hqL => (hq q (List.mem_cons_of_mem _ hqL)).mono x1 g1) (fun q hqL => hN q (List.mem_cons_of_mem _ hqL))
      (fun q hqL => ht q (List.mem_cons_of_mem _ hqL)) (fun a q hqL => hγ a q (List.mem_cons_of_mem _ hqL)) fun acc1 t2 Γ2 x2 g2 hacc => ?_
    refine h acc1 t2 Γ2 (x1.trans x2) (g1.trans g2) fun pf hpf => ?_
    rw [hacc pf hpf, (hpf.back x2).claim m1 n1]
    have hb : bc.numVars = e.1.nv := hq0.nvc
    have hN0 : e.1.nv ≤ N := hN _ List.mem_cons_self
    have ht0 : e.1.nv ≤ top := ht _ List.mem_cons_self
    have e1 : (2 : F) ^ N = 2 ^ (N - e.1.nv) * 2 ^ e.1.nv := by rw [← pow_add, Nat.sub_add_cancel hN0]
    have e2 : (2 : F) ^ top = 2 ^ (top - e.1.nv) * 2 ^ e.1.nv := by rw [← pow_add, Nat.sub_add_cancel ht0]
    have p1 : (2 : F) ^ (top - e.1.nv) ≠ 0 := pow_ne_zero _ h2
    have p2 : (2 : F) ^ e.1.nv ≠ 0 := pow_ne_zero _ h2
    simp only [List.map_cons, List.sum_cons]
    rw [e1, e2, hb]
    field_simp
    ring

/-- The claimed sums depend only on the totals. -/
theorem tfrac_sum (γ : F) (L : Side F) {S : Finset F} (hS : ∀ e ∈ L, ∀ i < 2 ^ e.1.nv, e.1.val i ∈ S) :
    (L.map (tfrac γ)).sum = ∑ z ∈ S, L.total z * (z - γ)⁻¹ := by
  induction L with
  | nil => simp [Side.total]
  | cons e L ih =>
    have := ih fun e' he' => hS e' (List.mem_cons_of_mem _ he')
    rw [List.map_cons, List.sum_cons, this]
    unfold tfrac
    rw [collect (hS e List.mem_cons_self) γ, ← Finset.sum_add_distrib]
    refine Finset.sum_congr rfl fun z _ => ?_
    rw [← add_mul]
    rfl

theorem mem_valsOf {L : Side F} {e : BagTab F × (Nat → F)} (he : e ∈ L) {i : Nat} (hi : i < 2 ^ e.1.nv) : e.1.val i ∈ Side.values L := by
  induction L with
  | nil => cases he
  | cons a L ih =>
    unfold Side.values
    rw [List.foldr_cons, Finset.mem_union]
    rcases List.mem_cons.1 he with rfl | h
    · exact .inl (Finset.mem_image_of_mem _ (Finset.mem_range.2 hi))
    · exact .inr (ih h)

theorem card_valsOf (L : Side F) : (Side.values L).card ≤ (L.map fun e => 2 ^ e.1.nv).sum := by
  induction L with
  | nil => simp [Side.values]
  | cons a L ih =>
    unfold Side.values
    rw [List.foldr_cons, List.map_cons, List.sum_cons]
    refine (Finset.card_union_le _ _).trans (Nat.add_le_add ?_ ih)
    exact Finset.card_image_le.trans (by simp)

theorem multitool_split {Lf Lg : List (Joint F)} (hr : Ready E.commit t) (hf : ∀ q ∈ Lf, EOk Γ t q) (hg : ∀ q ∈ Lg, EOk Γ t q) (hfn : Lf ≠ [])
    (hgn : Lg ≠ []) (hN : ∀ q ∈ Lf ++ Lg, q.2.2.1.nv ≤ N) (h2 : (2 : F) ≠ 0) (hC : CanCommit E.commit N)
    (hΦ : Φ → ∀ z, Side.total (Lf.map (·.2.2)) z = Side.total (Lg.map (·.2.2)) z) {D : Nat}
    (hD : ((Lf ++ Lg).map fun q => 2 ^ q.2.2.1.nv).sum ≤ D)
    {α β : Type} {f : Unit → Oracle F C → Act (PTracker F C) α} {g : Unit → CompiledProof F C B → Oracle F C → Act (VSt F C B) β} {b2 : List Nat}
    (h : ∀ t1 Γ1, Ext E t t1 → Γ ≤ Γ1 → GF E P N Sz (f ()) (g ()) Γ1 t1 b2 Φ) :
    (Side.values ((Lf ++ Lg).map (·.2.2))).card ≤ D ∧
    ∃ (f' : F → Oracle F C → Act (PTracker F C) α) (g' : F → CompiledProof F C B → Oracle F C → Act (VSt F C B) β),
      (fun H => Multitool.prove (E.withH H) (Lf.map (·.1.1)) (Lg.map (·.1.1)) (Lf.map (·.1.2)) (Lg.map (·.1.2)) >>= fun a => f a H) =
        (fun H => PTracker.challenge H "gamma" >>= fun c => f' c H) ∧
      (fun (pf : CompiledProof F C B) (H : Oracle F C) => Multitool.verify (E.withH H) (Lf.map (·.2.1.1)) (Lg.map (·.2.1.1)) (Lf.map (·.2.1.2)) (Lg.map (·.2.1.2)) >>= fun b => g b pf H) =
        (fun pf H => VSt.challenge H "gamma" >>= fun c => g' c pf H) ∧
      ∀ c t1, Ext E t t1 → GF E P N Sz (f' c) (g' c) Γ t1 b2 (Φ ∧ c ∉ Side.values ((Lf ++ Lg).map (·.2.2))) := by
  have sh : ∀ L : List (Joint F), L ≠ [] → (∀ q ∈ L, EOk Γ t q) → Multitool.shapeOk (L.map (·.1.1)) (L.map (·.1.2)) = true := by
    intro L hn hL
    unfold Multitool.shapeOk
    simp only [List.zip_map', List.all_map, Bool.and_eq_true, List.all_eq_true, Function.comp, List.length_map, beq_iff_eq]
    refine ⟨⟨by simpa using hn, trivial⟩, fun q hq => ?_⟩
    have := hL q hq
    unfold Bag.numVars
    rw [this.nvp, this.nvm]
  unfold Multitool.prove Multitool.verify
  rw [sh Lf hfn hf, sh Lg hgn hg]
  have en : ∀ L : List (Joint F), L ≠ [] → (((L.map (·.2.1.1)).isEmpty || (L.map (·.2.1.1)).length != (L.map (·.2.1.2)).length) = true) = False := by
    intro L hn
    simp [hn]
  simp only [en Lf hfn, en Lg hgn, if_false, Bool.not_true, Bool.false_eq_true, List.zip_map', Act.bind_assoc]
  have hcard : (Side.values (((Lf ++ Lg)).map (·.2.2))).card ≤ D := by
    refine (card_valsOf _).trans (le_trans (le_of_eq ?_) hD)
    rw [List.map_map]
    rfl
  refine ⟨hcard, fun γ H => _, fun γ pf H => _, rfl, rfl, fun γ t1 x1 => ?_⟩
  have ltop : ∀ q ∈ Lf ++ Lg, q.2.2.1.nv ≤ max (Multitool.maxNv (Lf.map (·.2.1.1))) (Multitool.maxNv (Lg.map (·.2.1.1))) := by
    intro q hq
    have hq' : EOk Γ t q := by
      rcases List.mem_append.1 hq with h | h
      · exact hf q h
      · exact hg q h
    rw [← hq'.nvc]
    rcases List.mem_append.1 hq with h | h
    · exact le_trans ((foldl_max_le _ 0).2 _ (by rw [List.map_map]; exact List.mem_map_of_mem h)) (le_max_left _ _)
    · exact le_trans ((foldl_max_le _ 0).2 _ (by rw [List.map_map]; exact List.mem_map_of_mem h)) (le_max_right _ _)
  have hγ : (Φ ∧ γ ∉ Side.values ((Lf ++ Lg).map (·.2.2))) → ∀ q ∈ Lf ++ Lg, ∀ i < 2 ^ q.2.2.1.nv, q.2.2.1.val i ≠ γ := by
    rintro ⟨-, hb⟩ q hq i hi e
    exact hb (e ▸ mem_valsOf (List.mem_map_of_mem hq) hi)
  refine c_multSubs hC h2 Lf (acc := fun _ => 0) x1.ready (fun q hq => (hf q hq).mono x1 le_rfl)
    (fun q hq => hN q (List.mem_append_left _ hq)) (fun q hq => ltop q (List.mem_append_left _ hq)) (fun a q hq => hγ a q (List.mem_append_left _ hq))
    fun lhs t2 Γ2 x2 g2 h2' => ?_
  refine c_multSubs hC h2 Lg (acc := fun _ => 0) x2.ready (fun q hq => (hg q hq).mono (x1.trans x2) g2)
    (fun q hq => hN q (List.mem_append_right _ hq)) (fun q hq => ltop q (List.mem_append_right _ hq)) (fun a q hq => hγ a q (List.mem_append_right _ hq))
    fun rhs t3 Γ3 x3 g3 h3' => ?_
  refine c_compare (fun pf hpf hφ => ?_) ((h t3 Γ3 ((x1.trans x2).trans x3) (g2.trans g3)).weaken fun a => a.1)
  rw [h2' pf (hpf.back x3), h3' pf hpf]
  have e := hΦ hφ.1
  have ef := tfrac_sum γ (Lf.map (·.2.2)) (S := Side.values ((Lf ++ Lg).map (·.2.2))) fun e he i hi => mem_valsOf (by
    rw [List.map_append]; exact List.mem_append_left _ he) hi
  have eg := tfrac_sum γ (Lg.map (·.2.2)) (S := Side.values ((Lf ++ Lg).map (·.2.2))) fun e he i hi => mem_valsOf (by
    rw [List.map_append]; exact List.mem_append_right _ he) hi
  rw [List.map_map] at ef eg
  have ef' : (Lf.map fun q => tfrac γ q.2.2).sum = _ := ef
  have eg' : (Lg.map fun q => tfrac γ q.2.2).sum = _ := eg
  rw [ef', eg']
  simp only [e]


theorem multitool_cmp {Lf Lg : List (Joint F)} (hr : Ready E.commit t) (hf : ∀ q ∈ Lf, EOk Γ t q) (hg : ∀ q ∈ Lg, EOk Γ t q) (hfn : Lf ≠ [])
    (hgn : Lg ≠ []) (hN : ∀ q ∈ Lf ++ Lg, q.2.2.1.nv ≤ N) (h2 : (2 : F) ≠ 0) (hC : CanCommit E.commit N)
    (hΦ : Φ → ∀ z, Side.total (Lf.map (·.2.2)) z = Side.total (Lg.map (·.2.2)) z) {D : Nat}
    (hD : ((Lf ++ Lg).map fun q => 2 ^ q.2.2.1.nv).sum ≤ D) :
    Cmp (B := B) E P N Sz (fun H => Multitool.prove (E.withH H) (Lf.map (·.1.1)) (Lg.map (·.1.1)) (Lf.map (·.1.2)) (Lg.map (·.1.2)))
      (fun H => Multitool.verify (E.withH H) (Lf.map (·.2.1.1)) (Lg.map (·.2.1.1)) (Lf.map (·.2.1.2)) (Lg.map (·.2.1.2))) Γ t
      [D] Φ := by
  intro α β f g b2 h
  obtain ⟨hcard, f', g', e1, e2, k⟩ := multitool_split hr hf hg hfn hgn hN h2 hC hΦ hD h
  rw [e1, e2]
  exact c_chal hr _ hcard k

/-- The check alone, with the exceptional challenges. -/
theorem multitool_gfb {Lf Lg : List (Joint F)} (hr : Ready E.commit t) (hf : ∀ q ∈ Lf, EOk Γ t q) (hg : ∀ q ∈ Lg, EOk Γ t q) (hfn : Lf ≠ [])
    (hgn : Lg ≠ []) (hN : ∀ q ∈ Lf ++ Lg, q.2.2.1.nv ≤ N) (h2 : (2 : F) ≠ 0) (hC : CanCommit E.commit N)
    (hΦ : Φ → ∀ z, Side.total (Lf.map (·.2.2)) z = Side.total (Lg.map (·.2.2)) z) {D : Nat}
    (hD : ((Lf ++ Lg).map fun q => 2 ^ q.2.2.1.nv).sum ≤ D) :
    GFB (B := B) (fun _ => Side.values ((Lf ++ Lg).map (·.2.2))) E P N Sz (fun H => Multitool.prove (E.withH H) (Lf.map (·.1.1)) (Lg.map (·.1.1)) (Lf.map (·.1.2)) (Lg.map (·.1.2)))
      (fun _ H => Multitool.verify (E.withH H) (Lf.map (·.2.1.1)) (Lg.map (·.2.1.1)) (Lf.map (·.2.1.2)) (Lg.map (·.2.1.2))) Γ t
      [D] Φ := by
  obtain ⟨hcard, f', g', e1, e2, k⟩ := multitool_split (B := B) (P := P) (f := fun a _ => Pure.pure a) (g := fun b _ _ => Pure.pure b) (b2 := [])
    hr hf hg hfn hgn hN h2 hC hΦ hD fun t1 Γ1 x _ => GF.pure (b := fun _ => ()) x.ready
  simp only [bind_unit] at e1 e2
  rw [e1, e2]
  exact c_chal_last hr _ hcard k

end Zksql
