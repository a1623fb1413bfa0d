import Verif.Lemmas.HonestSort
/-! Honest runs of the support, disjointness, set and join-reduction checks. -/
set_option linter.unusedSectionVars false
namespace Zksql
open Spec
variable {F C B : Type} [Field F] [DecidableEq F]
variable {E : Env F C} {P : C → List F → F} {N : Nat} {Sz : Prop} {t t1 t2 t' : PTracker F C} {s s1 s' : VSt F C B}
variable {α β α0 β0 : Type} {Γ Γ1 : Facts F} {bounds b1 b2 : List Nat} {Φ Φ' : Prop}
variable {bf bg b0 br : Bag} {cf cg c0 cr : BagComm} {Tf Tg T0 Tr : BagTab F}

/-! ### Support -/

theorem suppAdvice_cmp {r : Nat} {ρ : Nat → F} {m : TPoly} {i : Nat} {M : Nat → F} (hr : Ready E.commit t) (hf : BOk Γ t bf cf Tf) (hg : BOk Γ t bg cg Tg)
    (hm : COk Γ t m i Tg.nv M) (hR : COk Γ t br.poly cr.poly r ρ) (hcr : cr.numVars = r)
    (hNf : Tf.nv ≤ N) (hNg : Tg.nv ≤ N) (hNr : r ≤ N) (h2 : (2 : F) ≠ 0) (hC : CanCommit E.commit N)
    (hSz : Sz → N = Tg.nv)
    (hΦ : Φ → (∀ z, Tf.weight (fun _ => 1) z = Tg.weight M z) ∧ (∀ i < 2 ^ Tg.nv, Tg.sel i ≠ 0 → M i ≠ 0) ∧
      SortedIn Tg.nv r Tg.val Tg.sel ρ) :
    Cmp (B := B) E P N Sz (fun H => Supp.proveWithAdvice (E.withH H) bf bg m br) (fun H => Supp.verifyWithAdvice (E.withH H) cf cg i cr) Γ t
      ([2 ^ Tf.nv + 2 ^ Tg.nv] ++ hSort Tg.nv r) Φ := by
  intro α β k1 k2 b2 h
  unfold Supp.proveWithAdvice Supp.verifyWithAdvice
  simp only [Act.bind_assoc, withH_debug, List.append_assoc]
  have := inclusionAdvice_cmp (B := B) (E := E) (P := P) (Sz := Sz) hr hf hg hm hNf hNg h2 hC fun hφ => (hΦ hφ).1
  rw [hf.nvc, hg.nvc] at this
  refine this.bind fun t1 Γ1 x1 g1 => ?_
  have hm1 := hm.mono x1 g1
  have hs1 := hg.cs.mono x1 g1
  refine k_bagNew x1.ready (hm1.size.trans hs1.size.symm) ?_
  rw [hg.nvc]
  refine (noZeros_cmp (B := B) (E := E) (P := P) (N := N) (Sz := Sz) (Φ := Φ) x1.ready (hm1.bok hs1) hNg hC fun hφ => (hΦ hφ).2.1).bind (b1 := []) fun t2 Γ2 x2 g2 => ?_
  have y2 := x1.trans x2
  have h2' := g1.trans g2
  refine (strictSort_cmp (B := B) (E := E) (P := P) (N := N) (Sz := Sz) (Φ := Φ) x2.ready (hg.mono y2 h2') (hR.mono y2 h2') hcr hNg hNr h2 hC hSz fun hφ => (hΦ hφ).2.2).bind fun t3 Γ3 x3 g3 => ?_
  exact h t3 Γ3 (y2.trans x3) (h2'.trans g3)

theorem supp_cmp {r : Nat} {ρ : Nat → F} (hr : Ready E.commit t) (hf : BOk Γ t bf cf Tf) (hg : BOk Γ t bg cg Tg)
    (hR : COk Γ t br.poly cr.poly r ρ) (hcr : cr.numVars = r)
    (hNf : Tf.nv ≤ N) (hNg : Tg.nv ≤ N) (hNr : r ≤ N) (h2 : (2 : F) ≠ 0) (hC : CanCommit E.commit N)
    (hSz : Sz → N = Tg.nv)
    (hΦ : Φ → Tf.Boolean ∧ Tg.Boolean ∧ NatsNonzero F (2 ^ Tf.nv) ∧ Tg.Nodup ∧ (∀ z, Tf.Active z ↔ Tg.Active z) ∧
      SortedIn Tg.nv r Tg.val Tg.sel ρ) :
    Cmp (B := B) E P N Sz (fun H => Supp.prove (E.withH H) bf bg br) (fun H => Supp.verify (E.withH H) cf cg cr) Γ t
      ([2 ^ Tf.nv + 2 ^ Tg.nv] ++ hSort Tg.nv r) Φ := by
  intro α β k1 k2 b2 h
  unfold Supp.prove Supp.verify
  simp only [Act.bind_assoc, withH_debug]
  refine c_incAdvice hr hf hg fun t1 x1 => ?_
  refine k_commit x1.ready rfl hNg hC fun m t2 Γ2 x2 g2 k2 => ?_
  have y2 := x1.trans x2
  refine (suppAdvice_cmp (B := B) (E := E) (P := P) (N := N) (Sz := Sz) (Φ := Φ) x2.ready (hf.mono y2 g2) (hg.mono y2 g2) k2 (hR.mono y2 g2) hcr hNf hNg hNr h2 hC hSz fun hφ => ?_).bind fun t3 Γ3 x3 g3 =>
    h t3 Γ3 (y2.trans x3) (g2.trans g3)
  obtain ⟨c1, c2, c3, c4, c5, c7⟩ := hΦ hφ
  refine ⟨incMult_total c1 c2 fun z => (c5 z).1, fun i hi hs => ?_, c7⟩
  unfold incMult
  rw [if_pos ⟨hs, fun j hj hs2 e => absurd (c4 j (by omega) i hi hs2 hs e) (by omega)⟩]
  exact c3 _ (count_pos.2 ((c5 _).2 ⟨i, hi, hs, rfl⟩)) (count_le _ _)

/-! ### Tables from lists -/

theorem fromEvals_list {A : Type} {nv : Nat} (R : List A) (d : A) (h : A → F) (hl : R.length = 2 ^ nv) :
    Mle.fromEvals nv (R.map h) = .ok (tabMle nv fun i => h (R.getD i d)) := by
  unfold Mle.fromEvals tabMle
  rw [if_pos (by simpa using hl)]
  congr 2
  refine List.ext_getElem (by simp [hl]) fun i hi hi' => ?_
  have : i < R.length := by simpa using hi
  simp [this]

theorem sum_getD {A : Type} (R : List A) (d : A) (h : A → F) : ∑ i ∈ Finset.range R.length, h (R.getD i d) = (R.map h).sum := by
  induction R with
  | nil => simp
  | cons a R ih =>
    rw [List.length_cons, Finset.sum_range_succ']
    simp only [List.getD_cons_succ, List.getD_cons_zero, List.map_cons, List.sum_cons]
    rw [ih, add_comm]

/-- Sorted lists are sorted tables. -/
theorem sortedIn_of {A : Type} {rep : F → Nat} (hrep : Canonical rep) {n r M : Nat} {ρ : Nat → F} (hc : Covers r ρ M) (R : List A) (d : A) (v σ : A → F)
    (hl : R.length = 2 ^ n) (hp : R.Pairwise fun x y => rep (v x) ≤ rep (v y) ∧ (σ x ≠ 0 → v x ≠ v y)) (hM : ∀ x ∈ R, rep (v x) < M) :
    SortedIn n r (fun i => v (R.getD i d)) (fun i => σ (R.getD i d)) ρ := by
  intro i hi
  have hi1 : i < R.length := by omega
  have hi2 : i + 1 < R.length := by omega
  dsimp only
  rw [List.getD_eq_getElem _ _ hi1, List.getD_eq_getElem _ _ hi2]
  obtain ⟨h1, h2⟩ := List.pairwise_iff_getElem.1 hp i (i + 1) hi1 hi2 (by omega)
  refine ⟨?_, fun h => sub_ne_zero.2 (h2 h).symm⟩
  obtain ⟨j, hj, e⟩ := hc (rep (v R[i + 1]) - rep (v R[i])) (by have := hM _ (List.getElem_mem hi2); omega)
  refine ⟨j, hj, ?_⟩
  rw [e, Nat.cast_sub h1, hrep.2, hrep.2]

/-! ### Disjointness -/

theorem mem_keys_iff {m : List (F × Nat)} {z : F} : z ∈ Disjoint.keys m ↔ m.lookup z ≠ none := by
  unfold Disjoint.keys
  induction m with
  | nil => simp
  | cons e m ih =>
    rw [List.map_cons, List.mem_cons, ih]
    by_cases h : z = e.1
    · simp [List.lookup, h]
    · have : (z == e.1) = false := by simpa using h
      simp [List.lookup, this, h]

/-- What counting a bag gives. -/
def CountsOf (T : BagTab F) (m : List (F × Nat)) : Prop := ∀ z, m.lookup z = if T.count z = 0 then none else some (T.count z)

theorem CountsOf.mem {T : BagTab F} {m : List (F × Nat)} (h : CountsOf T m) {z : F} : z ∈ Disjoint.keys m ↔ T.Active z := by
  rw [mem_keys_iff, h z, ← count_pos]
  by_cases h0 : T.count z = 0
  · simp [h0]
  · simp [h0]; omega

theorem CountsOf.get {T : BagTab F} {m : List (F × Nat)} (h : CountsOf T m) (z : F) : (m.lookup z).getD 0 = T.count z := by
  rw [h z]
  by_cases h0 : T.count z = 0 <;> simp [h0]

section
variable {Ta Tb : BagTab F} {ma mb : List (F × Nat)}

theorem mem_uniqueVals (ha : CountsOf Ta ma) (hb : CountsOf Tb mb) {z : F} : z ∈ Disjoint.uniqueVals E ma mb ↔ Ta.Active z ∨ Tb.Active z := by
  unfold Disjoint.uniqueVals
  rw [List.mem_insertionSort, List.mem_dedup, List.mem_append, ha.mem, hb.mem]

theorem nodup_uniqueVals : (Disjoint.uniqueVals E ma mb).Nodup := by
  unfold Disjoint.uniqueVals
  exact (List.perm_insertionSort _ _).nodup_iff.2 (List.nodup_dedup _)

theorem length_uniqueVals (ha : CountsOf Ta ma) (hb : CountsOf Tb mb) : (Disjoint.uniqueVals E ma mb).length ≤ 2 ^ (max Ta.nv Tb.nv + 1) := by
  rw [← List.toFinset_card_of_nodup nodup_uniqueVals]
  have hsub : (Disjoint.uniqueVals E ma mb).toFinset ⊆ imgOf Ta.nv Ta.val ∪ imgOf Tb.nv Tb.val := by
    intro z hz
    rw [List.mem_toFinset, mem_uniqueVals ha hb] at hz
    rcases hz with ⟨i, h1, -, h2⟩ | ⟨i, h1, -, h2⟩
    · exact Finset.mem_union_left _ (Finset.mem_image.2 ⟨i, Finset.mem_range.2 h1, h2⟩)
    · exact Finset.mem_union_right _ (Finset.mem_image.2 ⟨i, Finset.mem_range.2 h1, h2⟩)
  refine (Finset.card_le_card hsub).trans ((Finset.card_union_le _ _).trans ?_)
  have a : (imgOf Ta.nv Ta.val).card ≤ 2 ^ Ta.nv := Finset.card_image_le.trans (by simp)
  have b : (imgOf Tb.nv Tb.val).card ≤ 2 ^ Tb.nv := Finset.card_image_le.trans (by simp)
  have c : 2 ^ Ta.nv ≤ 2 ^ max Ta.nv Tb.nv := Nat.pow_le_pow_right (by norm_num) (le_max_left _ _)
  have d : 2 ^ Tb.nv ≤ 2 ^ max Ta.nv Tb.nv := Nat.pow_le_pow_right (by norm_num) (le_max_right _ _)
  rw [pow_succ]
  omega

/-- The rows of the disjointness advice: value, selector, multiplicities. -/
def dRows (E : Env F C) (Ta Tb : BagTab F) (ma mb : List (F × Nat)) : List (F × F × F × F) :=
  List.replicate (2 ^ (max Ta.nv Tb.nv + 1) - (Disjoint.uniqueVals E ma mb).length) (0, 0, 0, 0) ++
    (Disjoint.uniqueVals E ma mb).map fun v => (v, 1, (Ta.count v : F), (Tb.count v : F))

theorem dRows_length (ha : CountsOf Ta ma) (hb : CountsOf Tb mb) : (dRows E Ta Tb ma mb).length = 2 ^ (max Ta.nv Tb.nv + 1) := by
  have := length_uniqueVals (E := E) ha hb
  unfold dRows
  rw [List.length_append, List.length_replicate, List.length_map]
  omega

theorem dRows_advice (ha : CountsOf Ta ma) (hb : CountsOf Tb mb) :
    Disjoint.adviceVecs E (2 ^ (max Ta.nv Tb.nv + 1)) ma mb = .ok ((dRows E Ta Tb ma mb).map (·.1), (dRows E Ta Tb ma mb).map (·.2.1),
      (dRows E Ta Tb ma mb).map (·.2.2.1), (dRows E Ta Tb ma mb).map (·.2.2.2)) := by
  have := length_uniqueVals (E := E) ha hb
  unfold Disjoint.adviceVecs
  simp only
  rw [if_neg (by omega)]
  unfold dRows Disjoint.mults
  simp only [List.map_append, List.map_replicate, List.map_map, Function.comp_def, ha.get, hb.get, List.map_id', List.map_const']

theorem dRows_weight (ha : CountsOf Ta ma) (hb : CountsOf Tb mb) (z : F) :
    ((dRows E Ta Tb ma mb).map fun q => if q.1 = z then q.2.2.1 * q.2.1 else 0).sum = (Ta.count z : F) ∧
    ((dRows E Ta Tb ma mb).map fun q => if q.1 = z then q.2.2.2 * q.2.1 else 0).sum = (Tb.count z : F) := by
  have key : ∀ w : F → F, (z ∉ Disjoint.uniqueVals E ma mb → w z = 0) →
      ((Disjoint.uniqueVals E ma mb).map fun v => if v = z then w v * 1 else 0).sum = w z := by
    intro w hw
    rw [← List.sum_toFinset _ nodup_uniqueVals, Finset.sum_ite_eq' (Disjoint.uniqueVals E ma mb).toFinset z fun v => w v * 1]
    by_cases h : z ∈ Disjoint.uniqueVals E ma mb
    · rw [if_pos (List.mem_toFinset.2 h), mul_one]
    · rw [if_neg (by rwa [List.mem_toFinset]), hw h]
  unfold dRows
  constructor
  · rw [List.map_append, List.sum_append, List.map_replicate, List.map_map]
    have := key (fun v => (Ta.count v : F)) fun h => by
      rw [mem_uniqueVals ha hb] at h
      rw [count_zero_of fun k => h (.inl k), Nat.cast_zero]
    simp only [Function.comp_def]
    rw [this]; simp
  · rw [List.map_append, List.sum_append, List.map_replicate, List.map_map]
    have := key (fun v => (Tb.count v : F)) fun h => by
      rw [mem_uniqueVals ha hb] at h
      rw [count_zero_of fun k => h (.inr k), Nat.cast_zero]
    simp only [Function.comp_def]
    rw [this]; simp

theorem dRows_zero (hd : ∀ z, ¬ (Ta.Active z ∧ Tb.Active z)) : ∀ q ∈ dRows E Ta Tb ma mb, q.2.2.1 * q.2.2.2 = 0 := by
  intro q hq
  unfold dRows at hq
  rcases List.mem_append.1 hq with h | h
  · rw [List.eq_of_mem_replicate h]; simp
  · obtain ⟨v, -, rfl⟩ := List.mem_map.1 h
    by_cases hv : Ta.Active v
    · show (Ta.count v : F) * (Tb.count v : F) = 0
      rw [count_zero_of fun k => hd v ⟨hv, k⟩]; simp
    · show (Ta.count v : F) * (Tb.count v : F) = 0
      rw [count_zero_of hv]; simp

theorem dRows_sorted (ha : CountsOf Ta ma) (hb : CountsOf Tb mb) (hrep : Canonical E.rep) {r M : Nat} {ρ : Nat → F} (hc : Covers r ρ M) (hM : 0 < M)
    (hA : Ta.Below E.rep M) (hB : Tb.Below E.rep M) :
    SortedIn (max Ta.nv Tb.nv + 1) r (fun i => ((dRows E Ta Tb ma mb).getD i (0, 0, 0, 0)).1) (fun i => ((dRows E Ta Tb ma mb).getD i (0, 0, 0, 0)).2.1) ρ := by
  refine sortedIn_of hrep hc _ (0, 0, 0, 0) (fun q => q.1) (fun q => q.2.1) (dRows_length ha hb) ?_ ?_
  · unfold dRows
    rw [List.pairwise_append]
    refine ⟨List.pairwise_replicate.2 ?_, ?_, ?_⟩
    · exact .inr ⟨le_rfl, by simp⟩
    · rw [List.pairwise_map]
      have h1 : (Disjoint.uniqueVals E ma mb).Pairwise fun x y => E.rep x ≤ E.rep y := by
        unfold Disjoint.uniqueVals
        haveI : Std.Total (fun x y : F => E.rep x ≤ E.rep y) := ⟨fun a b => le_total _ _⟩
        haveI : IsTrans F (fun x y : F => E.rep x ≤ E.rep y) := ⟨fun a b c => le_trans⟩
        exact List.pairwise_insertionSort _ _
      have h2 : (Disjoint.uniqueVals E ma mb).Pairwise (· ≠ ·) := nodup_uniqueVals
      exact (h1.and h2).imp fun ⟨a, b⟩ => ⟨a, fun _ => b⟩
    · intro a ha' b _
      rw [List.eq_of_mem_replicate ha']
      exact ⟨by rw [hrep.1]; exact Nat.zero_le _, fun h => absurd rfl h⟩
  · intro q hq
    unfold dRows at hq
    rcases List.mem_append.1 hq with h | h
    · rw [List.eq_of_mem_replicate h, hrep.1]; exact hM
    · obtain ⟨v, hv, rfl⟩ := List.mem_map.1 h
      rcases (mem_uniqueVals ha hb).1 hv with ⟨i, h1, h2, rfl⟩ | ⟨i, h1, h2, rfl⟩
      · exact hA i h1 h2
      · exact hB i h1 h2

end

theorem c_bagCount {f : List (F × Nat) → Oracle F C → Act (PTracker F C) α} {v : CompiledProof F C B → Oracle F C → Act (VSt F C B) β}
    (hr : Ready E.commit t) (hf : BOk Γ t bf cf Tf) (h : ∀ m t1, Ext E t t1 → CountsOf Tf m → GF E P N Sz (f m) v Γ t1 bounds Φ) :
    GF E P N Sz (fun H => Disjoint.bagCount bf >>= fun x => f x H) v Γ t bounds Φ := by
  unfold Disjoint.bagCount
  simp only [Act.bind_assoc]
  refine c_eval hr hf.pv fun t1 x1 => ?_
  refine c_eval x1.ready (x1.ph hf.ps) fun t2 x2 => ?_
  rw [hf.nvp, hf.nvs]
  obtain ⟨m, h1, h2⟩ := multCount_bag Tf
  exact c_lift x2.ready h1 (h m t2 (x1.trans x2) h2)

theorem weight_list {A : Type} {n : Nat} (R : List A) (d : A) (hl : R.length = 2 ^ n) (v σ μ : A → F) (z : F) :
    (⟨n, fun i => v (R.getD i d), fun i => σ (R.getD i d)⟩ : BagTab F).weight (fun i => μ (R.getD i d)) z = (R.map fun q => if v q = z then μ q * σ q else 0).sum := by
  unfold BagTab.weight
  dsimp only
  rw [← hl, ← sum_getD R d fun q => if v q = z then μ q * σ q else 0]

theorem disjoint_cmp {r M : Nat} {ρ : Nat → F} (hr : Ready E.commit t) (hf : BOk Γ t bf cf Tf) (hg : BOk Γ t bg cg Tg)
    (hR : COk Γ t br.poly cr.poly r ρ) (hcr : cr.numVars = r) (hN : max Tf.nv Tg.nv + 1 ≤ N) (hNr : r ≤ N)
    (h2 : (2 : F) ≠ 0) (hC : CanCommit E.commit N)
    (hSz : Sz → N = max Tf.nv Tg.nv + 1)
    (hΦ : Φ → Canonical E.rep ∧ 0 < M ∧ Covers r ρ M ∧ Tf.Below E.rep M ∧ Tg.Below E.rep M ∧ Tf.Boolean ∧ Tg.Boolean ∧
      ∀ z, ¬ (Tf.Active z ∧ Tg.Active z)) :
    Cmp (B := B) E P N Sz (fun H => Disjoint.prove (E.withH H) bf bg br) (fun H => Disjoint.verify (E.withH H) cf cg cr) Γ t
      (hDisjoint Tf.nv Tg.nv r) Φ := by
  intro α β k1 k2 b2 h
  have hNf : Tf.nv ≤ N := by omega
  have hNg : Tg.nv ≤ N := by omega
  unfold Disjoint.prove Disjoint.verify Disjoint.advice Disjoint.proveWithAdvice Disjoint.verifyWithAdvice
  simp only [Act.bind_assoc, withH_debug]
  refine c_bagCount hr hf fun ma t1 x1 hma => ?_
  refine c_bagCount x1.ready (hg.mono x1 le_rfl) fun mb t2 x2 hmb => ?_
  have e1 : bf.numVars = Tf.nv := hf.nvp
  have e2 : bg.numVars = Tg.nv := hg.nvp
  rw [e1, e2, hf.nvc, hg.nvc]
  refine c_lift x2.ready (dRows_advice hma hmb) ?_
  have hl := dRows_length (E := E) hma hmb
  have hW := dRows_weight (E := E) hma hmb
  have hS := @dRows_sorted F C _ _ E Tf Tg ma mb hma hmb
  have hZ := @dRows_zero F C _ _ E Tf Tg ma mb
  generalize dRows E Tf Tg ma mb = R at *
  generalize hn : max Tf.nv Tg.nv + 1 = n at *
  refine c_lift x2.ready (fromEvals_list R (0, 0, 0, 0) (·.1) hl) ?_
  refine c_lift x2.ready (fromEvals_list R (0, 0, 0, 0) (·.2.1) hl) ?_
  refine c_lift x2.ready (fromEvals_list R (0, 0, 0, 0) (·.2.2.1) hl) ?_
  refine c_lift x2.ready (fromEvals_list R (0, 0, 0, 0) (·.2.2.2) hl) ?_
  refine k_commit x2.ready rfl hN hC fun p t3 Γ3 x3 g3 o3 => ?_
  refine k_commit x3.ready rfl hN hC fun q t4 Γ4 x4 g4 o4 => ?_
  have o3' := o3.mono x4 g4
  refine k_bagNew x4.ready (o3'.size.trans o4.size.symm) ?_
  refine k_commit x4.ready rfl hN hC fun mA t5 Γ5 x5 g5 o5 => ?_
  refine k_commit x5.ready rfl hN hC fun mB t6 Γ6 x6 g6 o6 => ?_
  have y6 := ((((x1.trans x2).trans x3).trans x4).trans x5).trans x6
  have h6 := ((g3.trans g4).trans g5).trans g6
  have c6 := ((o3'.bok o4).mono x5 g5).mono x6 g6
  have a6 := o5.mono x6 g6
  have bnd : hDisjoint Tf.nv Tg.nv r ++ b2 = hSort n r ++ ([2 ^ Tf.nv + 2 ^ n] ++ ([2 ^ Tg.nv + 2 ^ n] ++ b2)) := by
    unfold hDisjoint; rw [hn]; simp
  rw [bnd]
  refine (strictSort_cmp (B := B) (E := E) (P := P) (N := N) (Sz := Sz) (Φ := Φ) x6.ready c6 (hR.mono y6 h6) hcr hN hNr h2 hC hSz fun hφ => ?_).bind fun t7 Γ7 x7 g7 => ?_
  · obtain ⟨c2, c3, c4, c5, c6, -⟩ := hΦ hφ
    exact hS c2 c4 c3 c5 c6
  refine k_mul x7.ready (a6.mono x7 g7) (o6.mono x7 g7) fun mm t8 Γ8 x8 g8 o8 => ?_
  refine k_zero x8.ready o8 (fun hφ b hb => ?_) fun t9 x9 => ?_
  · obtain ⟨c2, c3, c4, c5, c6, c7, c8, c9⟩ := hΦ hφ
    have hb' : b < R.length := by omega
    rw [List.getD_eq_getElem _ _ hb']
    exact hZ c9 _ (List.getElem_mem hb')
  have z9 := (x7.trans x8).trans x9
  have w9 := g7.trans g8
  have cmp1 := inclusionAdvice_cmp (B := B) (E := E) (P := P) (N := N) (Sz := Sz) (Φ := Φ) z9.ready (hf.mono (y6.trans z9) (h6.trans w9)) (c6.mono z9 w9) (a6.mono z9 w9) hNf hN h2 hC
    fun hφ z => by
      obtain ⟨c2, c3, c4, c5, c6, c7, c8, c9⟩ := hΦ hφ
      rw [weight_count c7, ← (hW z).1]
      exact (weight_list R (0, 0, 0, 0) hl (·.1) (·.2.1) (·.2.2.1) z).symm
  dsimp only at cmp1
  rw [hf.nvc] at cmp1
  refine cmp1.bind fun t10 Γ10 x10 g10 => ?_
  have z10 := z9.trans x10
  have w10 := w9.trans g10
  have cmp2 := inclusionAdvice_cmp (B := B) (E := E) (P := P) (N := N) (Sz := Sz) (Φ := Φ) z10.ready (hg.mono (y6.trans z10) (h6.trans w10)) (c6.mono z10 w10) (o6.mono z10 w10) hNg hN h2 hC
    fun hφ z => by
      obtain ⟨c2, c3, c4, c5, c6, c7, c8, c9⟩ := hΦ hφ
      rw [weight_count c8, ← (hW z).2]
      exact (weight_list R (0, 0, 0, 0) hl (·.1) (·.2.1) (·.2.2.2) z).symm
  dsimp only at cmp2
  rw [hg.nvc] at cmp2
  refine cmp2.bind fun t11 Γ11 x11 g11 => ?_
  exact h t11 Γ11 (y6.trans (z10.trans x11)) (h6.trans (w10.trans g11))

/-! ### Sums of tables -/

/-- The rows of a bag. -/
def pairsOf (T : BagTab F) : List (F × F) := (List.range (2 ^ T.nv)).map fun i => (T.val i, T.sel i)

/-- The rows of two bags, padded. -/
def rowsOf (Ta Tb : BagTab F) : List (F × F) :=
  pairsOf Ta ++ pairsOf Tb ++ List.replicate (2 ^ (max Ta.nv Tb.nv + 1) - (2 ^ Ta.nv + 2 ^ Tb.nv)) (0, 0)

theorem two_pow_room (a b : Nat) : 2 ^ a + 2 ^ b ≤ 2 ^ (max a b + 1) := by
  have c : 2 ^ a ≤ 2 ^ max a b := Nat.pow_le_pow_right (by norm_num) (le_max_left _ _)
  have d : 2 ^ b ≤ 2 ^ max a b := Nat.pow_le_pow_right (by norm_num) (le_max_right _ _)
  rw [pow_succ]
  omega

section
variable {Ta Tb : BagTab F}

theorem rowsOf_length : (rowsOf Ta Tb).length = 2 ^ (max Ta.nv Tb.nv + 1) := by
  have := two_pow_room Ta.nv Tb.nv
  simp only [rowsOf, pairsOf, List.length_append, List.length_map, List.length_range, List.length_replicate]
  omega

theorem padTo_eq (f g : Nat → F) (a b : Nat) : padTo (2 ^ (max a b + 1)) ((List.range (2 ^ a)).map f ++ (List.range (2 ^ b)).map g) =
    .ok ((List.range (2 ^ a)).map f ++ (List.range (2 ^ b)).map g ++ List.replicate (2 ^ (max a b + 1) - (2 ^ a + 2 ^ b)) 0) := by
  have := two_pow_room a b
  unfold padTo
  rw [if_neg (by simp; omega)]
  simp

theorem rows_fst : (rowsOf Ta Tb).map (·.1) = (List.range (2 ^ Ta.nv)).map Ta.val ++ (List.range (2 ^ Tb.nv)).map Tb.val ++
    List.replicate (2 ^ (max Ta.nv Tb.nv + 1) - (2 ^ Ta.nv + 2 ^ Tb.nv)) 0 := by
  simp [rowsOf, pairsOf, Function.comp_def]

theorem rows_snd : (rowsOf Ta Tb).map (·.2) = (List.range (2 ^ Ta.nv)).map Ta.sel ++ (List.range (2 ^ Tb.nv)).map Tb.sel ++
    List.replicate (2 ^ (max Ta.nv Tb.nv + 1) - (2 ^ Ta.nv + 2 ^ Tb.nv)) 0 := by
  simp [rowsOf, pairsOf, Function.comp_def]

theorem rows_zip : ((rowsOf Ta Tb).map (·.1)).zip ((rowsOf Ta Tb).map (·.2)) = rowsOf Ta Tb := by
  rw [List.zip_map']; simp

/-- The contribution of a row to the weight of a value. -/
def rowW (z : F) (q : F × F) : F := if q.1 = z then 1 * q.2 else 0

theorem pairs_weight (T : BagTab F) (z : F) : ((pairsOf T).map (rowW z)).sum = T.weight (fun _ => 1) z := by
  unfold pairsOf BagTab.weight rowW
  rw [List.map_map, ← sum_getD (d := 0), List.length_range]
  · refine Finset.sum_congr rfl fun i hi => ?_
    have : i < 2 ^ T.nv := Finset.mem_range.1 hi
    rw [List.getD_eq_getElem _ _ (by simpa using this)]
    simp

theorem rows_weight (z : F) : ((rowsOf Ta Tb).map (rowW z)).sum = Ta.weight (fun _ => 1) z + Tb.weight (fun _ => 1) z := by
  unfold rowsOf
  rw [List.map_append, List.sum_append, List.map_append, List.sum_append, pairs_weight, pairs_weight]
  simp [rowW]

theorem mem_pairs {T : BagTab F} {q : F × F} : q ∈ pairsOf T ↔ ∃ i < 2 ^ T.nv, q = (T.val i, T.sel i) := by
  unfold pairsOf
  simp only [List.mem_map, List.mem_range]
  exact ⟨fun ⟨i, a, b⟩ => ⟨i, a, b.symm⟩, fun ⟨i, a, b⟩ => ⟨i, a, b.symm⟩⟩

theorem mem_rows {q : F × F} (h : q ∈ rowsOf Ta Tb) : (∃ i < 2 ^ Ta.nv, q = (Ta.val i, Ta.sel i)) ∨ (∃ i < 2 ^ Tb.nv, q = (Tb.val i, Tb.sel i)) ∨ q = (0, 0) := by
  unfold rowsOf at h
  rcases List.mem_append.1 h with h | h
  · rcases List.mem_append.1 h with h | h
    · exact .inl (mem_pairs.1 h)
    · exact .inr (.inl (mem_pairs.1 h))
  · exact .inr (.inr (List.eq_of_mem_replicate h))

theorem rows_active {z : F} : (∃ q ∈ rowsOf Ta Tb, q.2 ≠ 0 ∧ q.1 = z) ↔ Ta.Active z ∨ Tb.Active z := by
  constructor
  · rintro ⟨q, hq, h1, h2⟩
    rcases mem_rows hq with ⟨i, hi, rfl⟩ | ⟨i, hi, rfl⟩ | rfl
    · exact .inl ⟨i, hi, h1, h2⟩
    · exact .inr ⟨i, hi, h1, h2⟩
    · exact absurd rfl h1
  · rintro (⟨i, hi, h1, h2⟩ | ⟨i, hi, h1, h2⟩)
    · exact ⟨_, List.mem_append_left _ (List.mem_append_left _ (mem_pairs.2 ⟨i, hi, rfl⟩)), h1, h2⟩
    · exact ⟨_, List.mem_append_left _ (List.mem_append_right _ (mem_pairs.2 ⟨i, hi, rfl⟩)), h1, h2⟩

/-- Active rows have different values. -/
def rowNe (x y : F × F) : Prop := x.2 ≠ 0 → y.2 ≠ 0 → x.1 ≠ y.1

theorem pairs_nodup {T : BagTab F} (h : T.Nodup) : (pairsOf T).Pairwise rowNe := by
  unfold pairsOf
  rw [List.pairwise_map]
  refine (List.pairwise_lt_range (n := 2 ^ T.nv)).imp_of_mem fun {i j} hi hj hij h1 h2 e => ?_
  have := h i (List.mem_range.1 hi) j (List.mem_range.1 hj) h1 h2 e
  omega

theorem rows_nodup (ha : Ta.Nodup) (hb : Tb.Nodup) (hd : ∀ z, ¬ (Ta.Active z ∧ Tb.Active z)) : (rowsOf Ta Tb).Pairwise rowNe := by
  unfold rowsOf
  rw [List.pairwise_append, List.pairwise_append]
  refine ⟨⟨pairs_nodup ha, pairs_nodup hb, fun a ha b hb h1 h2 e => ?_⟩, List.pairwise_replicate.2 (.inr fun h => absurd rfl h), fun a _ b hb _ h2 => ?_⟩
  · obtain ⟨i, hi, rfl⟩ := mem_pairs.1 ha
    obtain ⟨j, hj, rfl⟩ := mem_pairs.1 hb
    exact hd _ ⟨⟨i, hi, h1, rfl⟩, ⟨j, hj, h2, e.symm⟩⟩
  · rw [List.eq_of_mem_replicate hb] at h2
    exact absurd rfl h2

/-! ### Sets -/

/-- Rows of the sorted sum. -/
def sRows (E : Env F C) (Ta Tb : BagTab F) : List (F × F) := SetDisjoint.sortedPairs E ((rowsOf Ta Tb).map (·.1)) ((rowsOf Ta Tb).map (·.2))

/-- Inactive rows lose their value. -/
def zeroed (e : F × F) : F × F := if e.2 = 0 then (0, e.2) else e

theorem zeroed_snd (e : F × F) : (zeroed e).2 = e.2 := by unfold zeroed; split <;> rfl

theorem sRows_perm : (sRows E Ta Tb).Perm ((rowsOf Ta Tb).map zeroed) := by
  unfold sRows SetDisjoint.sortedPairs
  rw [rows_zip]
  exact List.perm_insertionSort _ _

theorem sRows_length : (sRows E Ta Tb).length = 2 ^ (max Ta.nv Tb.nv + 1) := by
  rw [sRows_perm.length_eq, List.length_map, rowsOf_length]

theorem sRows_weight (z : F) : ((sRows E Ta Tb).map (rowW z)).sum = Ta.weight (fun _ => 1) z + Tb.weight (fun _ => 1) z := by
  rw [(sRows_perm.map _).sum_eq, List.map_map, ← rows_weight]
  congr 1
  refine List.map_congr_left fun q _ => ?_
  by_cases h : q.2 = 0 <;> simp [rowW, zeroed, h]

theorem sRows_sorted (hrep : Canonical E.rep) {r M : Nat} {ρ : Nat → F} (hc : Covers r ρ M) (hM : 0 < M)
    (hA : Ta.Below E.rep M) (hB : Tb.Below E.rep M) (ha : Ta.Nodup) (hb : Tb.Nodup) (hd : ∀ z, ¬ (Ta.Active z ∧ Tb.Active z)) :
    SortedIn (max Ta.nv Tb.nv + 1) r (fun i => ((sRows E Ta Tb).getD i (0, 0)).1) (fun i => ((sRows E Ta Tb).getD i (0, 0)).2) ρ := by
  have hpos : ∀ x : F, x ≠ 0 → 0 < E.rep x := by
    intro x hx
    rcases Nat.eq_zero_or_pos (E.rep x) with h | h
    · have := hrep.2 x
      rw [h, Nat.cast_zero] at this
      exact absurd this.symm hx
    · exact h
  refine sortedIn_of hrep hc _ (0, 0) (fun q => q.1) (fun q => q.2) sRows_length ?_ ?_
  · have h1 : (sRows E Ta Tb).Pairwise fun x y => SetDisjoint.idxLe E x y = true := by
      unfold sRows SetDisjoint.sortedPairs
      haveI : Std.Total (fun x y : F × F => SetDisjoint.idxLe E x y = true) := ⟨fun a b => by
        simp only [SetDisjoint.idxLe, Bool.or_eq_true, decide_eq_true_eq, Bool.and_eq_true, beq_iff_eq]; omega⟩
      haveI : IsTrans (F × F) (fun x y : F × F => SetDisjoint.idxLe E x y = true) := ⟨fun a b c => by
        simp only [SetDisjoint.idxLe, Bool.or_eq_true, decide_eq_true_eq, Bool.and_eq_true, beq_iff_eq]; omega⟩
      exact List.pairwise_insertionSort _ _
    have h2 : (sRows E Ta Tb).Pairwise rowNe := by
      refine (sRows_perm.pairwise_iff fun {x y} h a b e => h b a e.symm).2 ?_
      rw [List.pairwise_map]
      refine (rows_nodup ha hb hd).imp fun {x y} h a b => ?_
      rw [zeroed_snd] at a b
      unfold zeroed
      rw [if_neg a, if_neg b]
      exact h a b
    refine (h1.and h2).imp fun {x y} ⟨k1, k2⟩ => ?_
    simp only [SetDisjoint.idxLe, Bool.or_eq_true, decide_eq_true_eq, Bool.and_eq_true, beq_iff_eq] at k1
    refine ⟨by omega, fun hx e => ?_⟩
    have hy : y.2 ≠ 0 := by
      intro h0
      rw [h0, hrep.1, e] at k1
      have := hpos _ hx
      omega
    exact k2 hx hy e
  · intro q hq
    obtain ⟨e, he, rfl⟩ := List.mem_map.1 (sRows_perm.mem_iff.1 hq)
    unfold zeroed
    split
    · rw [hrep.1]; exact hM
    · rename_i h0
      rcases mem_rows he with ⟨i, hi, rfl⟩ | ⟨i, hi, rfl⟩ | rfl
      · exact hA i hi h0
      · exact hB i hi h0
      · exact absurd rfl h0

end

theorem setDisjoint_cmp {r M : Nat} {ρ : Nat → F} (hr : Ready E.commit t) (hf : BOk Γ t bf cf Tf) (hg : BOk Γ t bg cg Tg)
    (hR : COk Γ t br.poly cr.poly r ρ) (hcr : cr.numVars = r) (hN : max Tf.nv Tg.nv + 1 ≤ N) (hNr : r ≤ N)
    (h2 : (2 : F) ≠ 0) (hC : CanCommit E.commit N)
    (hSz : Sz → N = max Tf.nv Tg.nv + 1)
    (hΦ : Φ → Canonical E.rep ∧ 0 < M ∧ Covers r ρ M ∧ Tf.Below E.rep M ∧ Tg.Below E.rep M ∧ Tf.Nodup ∧ Tg.Nodup ∧
      ∀ z, ¬ (Tf.Active z ∧ Tg.Active z)) :
    Cmp (B := B) E P N Sz (fun H => SetDisjoint.prove (E.withH H) bf bg br) (fun H => SetDisjoint.verify (E.withH H) cf cg cr) Γ t
      (hSetDisjoint Tf.nv Tg.nv r) Φ := by
  intro α β k1 k2 b2 h
  have hNf : Tf.nv ≤ N := by omega
  have hNg : Tg.nv ≤ N := by omega
  unfold SetDisjoint.prove SetDisjoint.verify
  have e1 : bf.numVars = Tf.nv := hf.nvp
  have e2 : bg.numVars = Tg.nv := hg.nvp
  simp only [Act.bind_assoc, withH_debug, e1, e2, hf.nvc, hg.nvc]
  refine c_eval hr hf.pv fun t1 x1 => ?_
  refine c_eval x1.ready (x1.ph hg.pv) fun t2 x2 => ?_
  have y2 := x1.trans x2
  rw [hf.nvp, hg.nvp]
  refine c_lift x2.ready (padTo_eq _ _ _ _) ?_
  refine c_eval x2.ready (y2.ph hf.ps) fun t3 x3 => ?_
  refine c_eval x3.ready ((y2.trans x3).ph hg.ps) fun t4 x4 => ?_
  have y4 := (y2.trans x3).trans x4
  rw [hf.nvs, hg.nvs]
  refine c_lift x4.ready (padTo_eq _ _ _ _) ?_
  rw [← rows_fst, ← rows_snd]
  refine c_lift x4.ready (fromEvals_list (sRows E Tf Tg) (0, 0) (·.1) sRows_length) ?_
  refine c_lift x4.ready (fromEvals_list (sRows E Tf Tg) (0, 0) (·.2) sRows_length) ?_
  refine k_commit x4.ready rfl hN hC fun p t5 Γ5 x5 g5 o5 => ?_
  refine k_commit x5.ready rfl hN hC fun q t6 Γ6 x6 g6 o6 => ?_
  have o5' := o5.mono x6 g6
  refine k_bagNew x6.ready (o5'.size.trans o6.size.symm) ?_
  have y6 := (y4.trans x5).trans x6
  have h6 := g5.trans g6
  have c6 := o5'.bok o6
  unfold hSetDisjoint
  rw [List.append_assoc]
  have cmp1 := bagSum_cmp (B := B) (E := E) (P := P) (N := N) (Sz := Sz) (Φ := Φ) x6.ready (hf.mono y6 h6) (hg.mono y6 h6) c6 hNf hNg hN h2 hC fun _ z => by
    rw [← sRows_weight (E := E) z]
    exact (weight_list (sRows E Tf Tg) (0, 0) sRows_length (·.1) (·.2) (fun _ => 1) z).symm
  rw [hf.nvc, hg.nvc] at cmp1
  refine cmp1.bind fun t7 Γ7 x7 g7 => ?_
  refine (strictSort_cmp (B := B) (E := E) (P := P) (N := N) (Sz := Sz) (Φ := Φ) x7.ready (c6.mono x7 g7) (hR.mono (y6.trans x7) (h6.trans g7)) hcr hN hNr h2 hC hSz fun hφ => ?_).bind fun t8 Γ8 x8 g8 => ?_
  · obtain ⟨c2, c3, c4, c5, c6, c7, c8, c9⟩ := hΦ hφ
    exact sRows_sorted c2 c4 c3 c5 c6 c7 c8 c9
  exact h t8 Γ8 (y6.trans (x7.trans x8)) (h6.trans (g7.trans g8))

theorem listTab_active {A : Type} {n : Nat} {R : List A} {d : A} (hl : R.length = 2 ^ n) {v σ : A → F} {z : F} :
    (⟨n, fun i => v (R.getD i d), fun i => σ (R.getD i d)⟩ : BagTab F).Active z ↔ ∃ q ∈ R, σ q ≠ 0 ∧ v q = z := by
  unfold BagTab.Active
  dsimp only
  rw [← hl]
  constructor
  · rintro ⟨i, hi, h1, h2⟩
    rw [List.getD_eq_getElem _ _ hi] at h1 h2
    exact ⟨_, List.getElem_mem hi, h1, h2⟩
  · rintro ⟨q, hq, h1, h2⟩
    obtain ⟨i, hi, rfl⟩ := List.getElem_of_mem hq
    exact ⟨i, hi, by rw [List.getD_eq_getElem _ _ hi]; exact h1, by rw [List.getD_eq_getElem _ _ hi]; exact h2⟩

theorem listTab_boolean {A : Type} {n : Nat} {R : List A} {d : A} (hl : R.length = 2 ^ n) {v σ : A → F} (h : ∀ q ∈ R, σ q = 0 ∨ σ q = 1) :
    (⟨n, fun i => v (R.getD i d), fun i => σ (R.getD i d)⟩ : BagTab F).Boolean := by
  intro i hi
  have hi' : i < R.length := by rw [hl]; exact hi
  dsimp only
  rw [List.getD_eq_getElem _ _ hi']
  exact h _ (List.getElem_mem hi')

/-! ### Union, difference, intersection -/

theorem setUnion_cmp {r : Nat} {ρ : Nat → F} {bu : Bag} {cu : BagComm} {Tu : BagTab F} (hr : Ready E.commit t) (hf : BOk Γ t bf cf Tf)
    (hg : BOk Γ t bg cg Tg) (hu : BOk Γ t bu cu Tu)
    (hR : COk Γ t br.poly cr.poly r ρ) (hcr : cr.numVars = r) (hN : max Tf.nv Tg.nv + 1 ≤ N) (hNu : Tu.nv ≤ N) (hNr : r ≤ N)
    (h2 : (2 : F) ≠ 0) (hC : CanCommit E.commit N)
    (hSz : Sz → N = Tu.nv)
    (hΦ : Φ → Tf.Boolean ∧ Tg.Boolean ∧ Tu.Boolean ∧ NatsNonzero F (2 ^ (max Tf.nv Tg.nv + 1)) ∧ Tu.Nodup ∧
      (∀ z, Tf.Active z ∨ Tg.Active z ↔ Tu.Active z) ∧ SortedIn Tu.nv r Tu.val Tu.sel ρ) :
    Cmp (B := B) E P N Sz (fun H => SetUnion.prove (E.withH H) bf bg bu br) (fun H => SetUnion.verify (E.withH H) cf cg cu cr) Γ t
      (hUnion Tf.nv Tg.nv Tu.nv r) Φ := by
  intro α β k1 k2 b2 h
  have hNf : Tf.nv ≤ N := by omega
  have hNg : Tg.nv ≤ N := by omega
  unfold SetUnion.prove SetUnion.verify
  have e1 : bf.numVars = Tf.nv := hf.nvp
  have e2 : bg.numVars = Tg.nv := hg.nvp
  simp only [Act.bind_assoc, withH_debug, e1, e2, hf.nvc, hg.nvc]
  refine c_eval hr hf.pv fun t1 x1 => ?_
  refine c_eval x1.ready (x1.ph hg.pv) fun t2 x2 => ?_
  have y2 := x1.trans x2
  rw [hf.nvp, hg.nvp]
  refine c_lift x2.ready (padTo_eq _ _ _ _) ?_
  refine c_eval x2.ready (y2.ph hf.ps) fun t3 x3 => ?_
  refine c_eval x3.ready ((y2.trans x3).ph hg.ps) fun t4 x4 => ?_
  have y4 := (y2.trans x3).trans x4
  rw [hf.nvs, hg.nvs]
  refine c_lift x4.ready (padTo_eq _ _ _ _) ?_
  rw [← rows_fst, ← rows_snd]
  refine c_lift x4.ready (fromEvals_list (rowsOf Tf Tg) (0, 0) (·.1) rowsOf_length) ?_
  refine c_lift x4.ready (fromEvals_list (rowsOf Tf Tg) (0, 0) (·.2) rowsOf_length) ?_
  refine k_commit x4.ready rfl hN hC fun p t5 Γ5 x5 g5 o5 => ?_
  refine k_commit x5.ready rfl hN hC fun q t6 Γ6 x6 g6 o6 => ?_
  have o5' := o5.mono x6 g6
  refine k_bagNew x6.ready (o5'.size.trans o6.size.symm) ?_
  have y6 := (y4.trans x5).trans x6
  have h6 := g5.trans g6
  have c6 := o5'.bok o6
  unfold hUnion
  rw [List.append_assoc]
  have cmp1 := bagSum_cmp (B := B) (E := E) (P := P) (N := N) (Sz := Sz) (Φ := Φ) x6.ready (hf.mono y6 h6) (hg.mono y6 h6) c6 hNf hNg hN h2 hC fun _ z => by
    rw [← rows_weight z]
    exact (weight_list (rowsOf Tf Tg) (0, 0) rowsOf_length (·.1) (·.2) (fun _ => 1) z).symm
  rw [hf.nvc, hg.nvc] at cmp1
  refine cmp1.bind fun t7 Γ7 x7 g7 => ?_
  have y7 := y6.trans x7
  have h7 := h6.trans g7
  refine (supp_cmp (B := B) (E := E) (P := P) (N := N) (Sz := Sz) (Φ := Φ) x7.ready (c6.mono x7 g7) (hu.mono y7 h7) (hR.mono y7 h7) hcr hN hNu hNr h2 hC hSz fun hφ => ?_).bind fun t8 Γ8 x8 g8 => ?_
  · obtain ⟨c2, c3, c4, c5, c6, c7, c8⟩ := hΦ hφ
    refine ⟨listTab_boolean rowsOf_length fun q hq => ?_, c4, c5, c6, fun z => ?_, c8⟩
    · rcases mem_rows hq with ⟨i, hi, rfl⟩ | ⟨i, hi, rfl⟩ | rfl
      · exact c2 i hi
      · exact c3 i hi
      · exact .inl rfl
    · rw [listTab_active rowsOf_length, rows_active, c7]
  exact h t8 Γ8 (y7.trans x8) (h7.trans g8)

section
variable {ba bb bl bm brr : Bag} {ca cb cl cm crr : BagComm} {Ta Tb Tl Tm Trr : BagTab F}

theorem setDiff_cmp {r M : Nat} {ρ : Nat → F} {mm : TPoly} {i : Nat} {μ : Nat → F} (hr : Ready E.commit t) (ha : BOk Γ t ba ca Ta) (hb : BOk Γ t bb cb Tb)
    (hl : BOk Γ t bl cl Tl) (hm : BOk Γ t bm cm Tm) (hmm : COk Γ t mm i Tb.nv μ)
    (hR : COk Γ t br.poly cr.poly r ρ) (hcr : cr.numVars = r) (hN : max Tl.nv Tb.nv + 1 ≤ N) (hNa : Ta.nv ≤ N) (hNm : Tm.nv ≤ N) (hNr : r ≤ N)
    (h2 : (2 : F) ≠ 0) (hC : CanCommit E.commit N)
    (hSz : Sz → N = max Tl.nv Tb.nv + 1)
    (hΦ : Φ → (Canonical E.rep ∧ 0 < M ∧ Covers r ρ M ∧ Tl.Below E.rep M ∧ Tb.Below E.rep M ∧ Tl.Nodup ∧ Tb.Nodup ∧
      ∀ z, ¬ (Tl.Active z ∧ Tb.Active z)) ∧ (∀ z, Tl.weight (fun _ => 1) z + Tm.weight (fun _ => 1) z = Ta.weight (fun _ => 1) z) ∧
      ∀ z, Tm.weight (fun _ => 1) z = Tb.weight μ z) :
    Cmp (B := B) E P N Sz (fun H => SetDiff.prove (E.withH H) ba bb bl bm mm br) (fun H => SetDiff.verify (E.withH H) ca cb cl cm i cr) Γ t
      (hDiff Ta.nv Tb.nv Tl.nv Tm.nv r) Φ := by
  intro α β k1 k2 b2 h
  unfold SetDiff.prove SetDiff.verify
  simp only [Act.bind_assoc]
  have bnd : hDiff Ta.nv Tb.nv Tl.nv Tm.nv r ++ b2 = hSetDisjoint Tl.nv Tb.nv r ++ ([2 ^ Tl.nv + 2 ^ Tm.nv + 2 ^ Ta.nv] ++ ([2 ^ Tm.nv + 2 ^ Tb.nv] ++ b2)) := by
    unfold hDiff; simp
  rw [bnd]
  refine (setDisjoint_cmp (B := B) (E := E) (P := P) (N := N) (Sz := Sz) (Φ := Φ) hr hl hb hR hcr hN hNr h2 hC hSz fun hφ => (hΦ hφ).1).bind fun t1 Γ1 x1 g1 => ?_
  have cmp1 := bagSum_cmp (B := B) (E := E) (P := P) (N := N) (Sz := Sz) (Φ := Φ) x1.ready (hl.mono x1 g1) (hm.mono x1 g1) (ha.mono x1 g1) (by omega) hNm hNa h2 hC
    fun hφ => (hΦ hφ).2.1
  rw [hl.nvc, hm.nvc, ha.nvc] at cmp1
  refine cmp1.bind fun t2 Γ2 x2 g2 => ?_
  have y2 := x1.trans x2
  have h2' := g1.trans g2
  have cmp2 := inclusionAdvice_cmp (B := B) (E := E) (P := P) (N := N) (Sz := Sz) (Φ := Φ) x2.ready (hm.mono y2 h2') (hb.mono y2 h2') (hmm.mono y2 h2') hNm (by omega) h2 hC
    fun hφ => (hΦ hφ).2.2
  rw [hm.nvc, hb.nvc] at cmp2
  exact cmp2.bind fun t3 Γ3 x3 g3 => h t3 Γ3 (y2.trans x3) (h2'.trans g3)

theorem setIntersect_cmp {r M : Nat} {ρ : Nat → F} (hr : Ready E.commit t) (ha : BOk Γ t ba ca Ta) (hb : BOk Γ t bb cb Tb)
    (hl : BOk Γ t bl cl Tl) (hm : BOk Γ t bm cm Tm) (hrr : BOk Γ t brr crr Trr)
    (hR : COk Γ t br.poly cr.poly r ρ) (hcr : cr.numVars = r) (hN : max Tl.nv Trr.nv + 1 ≤ N) (hNa : Ta.nv ≤ N) (hNb : Tb.nv ≤ N) (hNm : Tm.nv ≤ N) (hNr : r ≤ N)
    (h2 : (2 : F) ≠ 0) (hC : CanCommit E.commit N)
    (hSz : Sz → N = max Tl.nv Trr.nv + 1)
    (hΦ : Φ → (Canonical E.rep ∧ 0 < M ∧ Covers r ρ M ∧ Tl.Below E.rep M ∧ Trr.Below E.rep M ∧ Tl.Nodup ∧ Trr.Nodup ∧
      ∀ z, ¬ (Tl.Active z ∧ Trr.Active z)) ∧ (∀ z, Tl.weight (fun _ => 1) z + Tm.weight (fun _ => 1) z = Ta.weight (fun _ => 1) z) ∧
      ∀ z, Tm.weight (fun _ => 1) z + Trr.weight (fun _ => 1) z = Tb.weight (fun _ => 1) z) :
    Cmp (B := B) E P N Sz (fun H => SetIntersect.prove (E.withH H) ba bb bl bm brr br) (fun H => SetIntersect.verify (E.withH H) ca cb cl cm crr cr) Γ t
      (hIntersect Ta.nv Tb.nv Tl.nv Tm.nv Trr.nv r) Φ := by
  intro α β k1 k2 b2 h
  unfold SetIntersect.prove SetIntersect.verify
  simp only [Act.bind_assoc]
  have bnd : hIntersect Ta.nv Tb.nv Tl.nv Tm.nv Trr.nv r ++ b2 = [2 ^ Tl.nv + 2 ^ Tm.nv + 2 ^ Ta.nv] ++ ([2 ^ Tm.nv + 2 ^ Trr.nv + 2 ^ Tb.nv] ++ (hSetDisjoint Tl.nv Trr.nv r ++ b2)) := by
    unfold hIntersect; simp
  rw [bnd]
  have cmp1 := bagSum_cmp (B := B) (E := E) (P := P) (N := N) (Sz := Sz) (Φ := Φ) hr hl hm ha (by omega) hNm hNa h2 hC fun hφ => (hΦ hφ).2.1
  rw [hl.nvc, hm.nvc, ha.nvc] at cmp1
  refine cmp1.bind fun t1 Γ1 x1 g1 => ?_
  have cmp2 := bagSum_cmp (B := B) (E := E) (P := P) (N := N) (Sz := Sz) (Φ := Φ) x1.ready (hm.mono x1 g1) (hrr.mono x1 g1) (hb.mono x1 g1) hNm (by omega) hNb h2 hC
    fun hφ => (hΦ hφ).2.2
  rw [hm.nvc, hrr.nvc, hb.nvc] at cmp2
  refine cmp2.bind fun t2 Γ2 x2 g2 => ?_
  have y2 := x1.trans x2
  have h2' := g1.trans g2
  refine (setDisjoint_cmp (B := B) (E := E) (P := P) (N := N) (Sz := Sz) (Φ := Φ) x2.ready (hl.mono y2 h2') (hrr.mono y2 h2') (hR.mono y2 h2') hcr hN hNr h2 hC hSz fun hφ => (hΦ hφ).1).bind fun t3 Γ3 x3 g3 =>
    h t3 Γ3 (y2.trans x3) (h2'.trans g3)

/-! ### Join reduction -/

theorem sub_boolean {T : BagTab F} {x : Nat → F} (hT : T.Boolean) (hx : ∀ i < 2 ^ T.nv, x i = 0 ∨ x i = 1) :
    (⟨T.nv, T.val, fun i => T.sel i * x i⟩ : BagTab F).Boolean := by
  intro i hi
  rcases hT i hi with h | h <;> rcases hx i hi with h' | h' <;> simp [h, h']

theorem sub_below {T : BagTab F} {x : Nat → F} {rep : F → Nat} {M : Nat} (hT : T.Below rep M) :
    (⟨T.nv, T.val, fun i => T.sel i * x i⟩ : BagTab F).Below rep M :=
  fun i hi h => hT i hi (left_ne_zero_of_mul h)

theorem sub_active {T : BagTab F} {x : Nat → F} {z : F} :
    (⟨T.nv, T.val, fun i => T.sel i * x i⟩ : BagTab F).Active z ↔ ∃ i < 2 ^ T.nv, T.sel i ≠ 0 ∧ x i ≠ 0 ∧ T.val i = z := by
  constructor
  · rintro ⟨i, hi, h, e⟩
    exact ⟨i, hi, left_ne_zero_of_mul h, right_ne_zero_of_mul h, e⟩
  · rintro ⟨i, hi, h, h', e⟩
    exact ⟨i, hi, mul_ne_zero h h', e⟩

theorem flip_boolean {x : F} (h : x = 0 ∨ x = 1) : -1 * x + 1 = 0 ∨ -1 * x + 1 = 1 := by
  rcases h with rfl | rfl <;> simp

theorem flip_ne {x : F} (h : x = 0 ∨ x = 1) : -1 * x + 1 ≠ 0 ↔ ¬ x ≠ 0 := by
  rcases h with rfl | rfl <;> simp

theorem joinReduction_cmp {r M : Nat} {ρ : Nat → F} {lSel rSel : TPoly} {li ri : Nat} {ll lr : Nat → F} (hr : Ready E.commit t) (ha : BOk Γ t ba ca Ta)
    (hb : BOk Γ t bb cb Tb) (hl : COk Γ t lSel li Ta.nv ll) (hrs : COk Γ t rSel ri Tb.nv lr)
    (hR : COk Γ t br.poly cr.poly r ρ) (hcr : cr.numVars = r) (hN : max Ta.nv Tb.nv + 1 ≤ N) (hNr : r ≤ N)
    (h2 : (2 : F) ≠ 0) (hC : CanCommit E.commit N)
    (hSz : Sz → N = Ta.nv + 1 ∧ N = Tb.nv + 1)
    (hΦ : Φ → Canonical E.rep ∧ 0 < M ∧ Covers r ρ M ∧ Ta.Below E.rep M ∧ Tb.Below E.rep M ∧ Ta.Boolean ∧ Tb.Boolean ∧
      (∀ i < 2 ^ Ta.nv, ll i = 0 ∨ ll i = 1) ∧ (∀ i < 2 ^ Tb.nv, lr i = 0 ∨ lr i = 1) ∧
      (∀ i < 2 ^ Ta.nv, Ta.sel i ≠ 0 → (ll i ≠ 0 ↔ ¬ Tb.Active (Ta.val i))) ∧ (∀ i < 2 ^ Tb.nv, Tb.sel i ≠ 0 → (lr i ≠ 0 ↔ ¬ Ta.Active (Tb.val i)))) :
    Cmp (B := B) E P N Sz (fun H => JoinReduction.prove (E.withH H) ba bb lSel rSel br) (fun H => JoinReduction.verify (E.withH H) ca cb li ri cr) Γ t
      (hJoin Ta.nv Tb.nv r) Φ := by
  intro α β k1 k2 b2 h
  unfold JoinReduction.prove JoinReduction.verify
  simp only [Act.bind_assoc, withH_debug, ha.nvc, hb.nvc]
  have hNa : Ta.nv ≤ N := by omega
  have hNb : Tb.nv ≤ N := by omega
  refine k_mulScalar hr hl fun nl t1 Γ1 x1 g1 o1 => ?_
  refine k_addScalar x1.ready o1 fun mas t2 Γ2 x2 g2 o2 => ?_
  have y2 := x1.trans x2
  have j2 := g1.trans g2
  refine k_mulScalar x2.ready (hrs.mono y2 j2) fun nr t3 Γ3 x3 g3 o3 => ?_
  refine k_addScalar x3.ready o3 fun mbs t4 Γ4 x4 g4 o4 => ?_
  have y4 := (y2.trans x3).trans x4
  have j4 := (j2.trans g3).trans g4
  have as4 := ha.cs.mono y4 j4
  have ap4 := ha.cp.mono y4 j4
  have bs4 := hb.cs.mono y4 j4
  have bp4 := hb.cp.mono y4 j4
  have l4 := hl.mono y4 j4
  have r4 := hrs.mono y4 j4
  have ma4 := (o2.mono x3 g3).mono x4 g4
  refine k_mul x4.ready as4 l4 fun s1 t5 Γ5 x5 g5 o5 => ?_
  refine k_bagNew x5.ready (ha.nvp.trans o5.size.symm) ?_
  refine k_mul x5.ready (bs4.mono x5 g5) (r4.mono x5 g5) fun s2 t6 Γ6 x6 g6 o6 => ?_
  refine k_bagNew x6.ready (hb.nvp.trans o6.size.symm) ?_
  have z6 := x5.trans x6
  have w6 := g5.trans g6
  refine k_mul x6.ready (as4.mono z6 w6) (ma4.mono z6 w6) fun s3 t7 Γ7 x7 g7 o7 => ?_
  refine k_bagNew x7.ready (ha.nvp.trans o7.size.symm) ?_
  have z7 := z6.trans x7
  have w7 := w6.trans g7
  refine k_mul x7.ready (bs4.mono z7 w7) (o4.mono z7 w7) fun s4 t8 Γ8 x8 g8 o8 => ?_
  refine k_bagNew x8.ready (hb.nvp.trans o8.size.symm) ?_
  have z8 := z7.trans x8
  have w8 := w7.trans g8
  have L8 := (ap4.mono z8 w8).bok (((o5.mono x6 g6).mono x7 g7).mono x8 g8)
  have R8 := (bp4.mono z8 w8).bok ((o6.mono x7 g7).mono x8 g8)
  have A8 := (ap4.mono z8 w8).bok (o7.mono x8 g8)
  have B8 := (bp4.mono z8 w8).bok o8
  have y8 := y4.trans z8
  have j8 := j4.trans w8
  obtain ⟨X, hX⟩ : ∃ X, X = hDisjoint Ta.nv Tb.nv r ++ (hDisjoint Ta.nv Ta.nv r ++ (hDisjoint Tb.nv Tb.nv r ++
    ([2 ^ Ta.nv + 2 ^ Tb.nv] ++ ([2 ^ Tb.nv + 2 ^ Ta.nv] ++ b2)))) := ⟨_, rfl⟩
  have hX' : hJoin Ta.nv Tb.nv r ++ b2 = X := by rw [hX]; unfold hJoin; simp
  rw [hX']
  refine (selectorValid_cmp (B := B) (E := E) (P := P) (N := N) (Sz := Sz) (Φ := Φ) x8.ready (l4.mono z8 w8) fun hφ => ?_).bind (b1 := []) fun t9 Γ9 x9 g9 => ?_
  · obtain ⟨-, -, -, -, -, -, -, c, -⟩ := hΦ hφ; exact c
  refine (selectorValid_cmp (B := B) (E := E) (P := P) (N := N) (Sz := Sz) (Φ := Φ) x9.ready ((r4.mono z8 w8).mono x9 g9) fun hφ => ?_).bind (b1 := []) fun t10 Γ10 x10 g10 => ?_
  · obtain ⟨-, -, -, -, -, -, -, -, c, -⟩ := hΦ hφ; exact c
  have x10' := x9.trans x10
  have g10' := g9.trans g10
  have L10 := L8.mono x10' g10'
  have R10 := R8.mono x10' g10'
  have A10 := A8.mono x10' g10'
  have B10 := B8.mono x10' g10'
  have y10 := y8.trans x10'
  have j10 := j8.trans g10'
  rw [hX]
  have cmp1 := disjoint_cmp (B := B) (E := E) (P := P) (N := N) (Sz := Sz) (Φ := Φ) (M := M) x10.ready L10 R10 (hR.mono y10 j10) hcr hN hNr h2 hC (fun hs => by have := hSz hs; show N = max Ta.nv Tb.nv + 1; omega) fun hφ => ?_
  refine cmp1.bind fun t11 Γ11 x11 g11 => ?_
  rotate_left
  · obtain ⟨c2, c3, c4, c5, c6, c7, c8, c9, c10, c11, c12⟩ := hΦ hφ
    refine ⟨c2, c3, c4, sub_below c5, sub_below c6, sub_boolean c7 c9, sub_boolean c8 c10, fun z ⟨hz1, hz2⟩ => ?_⟩
    obtain ⟨i, hi, e1, e2, rfl⟩ := sub_active.1 hz1
    obtain ⟨j, hj, e3, e4, e5⟩ := sub_active.1 hz2
    exact (c11 i hi e1).1 e2 ⟨j, hj, e3, e5⟩
  have cmp2 := disjoint_cmp (B := B) (E := E) (P := P) (N := N) (Sz := Sz) (Φ := Φ) (M := M) x11.ready (L10.mono x11 g11) (A10.mono x11 g11) (hR.mono (y10.trans x11) (j10.trans g11)) hcr
    (by simp only [max_self]; omega) hNr h2 hC (fun hs => by have := hSz hs; show N = max Ta.nv Ta.nv + 1; omega) fun hφ => ?_
  refine cmp2.bind fun t12 Γ12 x12 g12 => ?_
  rotate_left
  · obtain ⟨c2, c3, c4, c5, c6, c7, c8, c9, c10, c11, c12⟩ := hΦ hφ
    refine ⟨c2, c3, c4, sub_below c5, sub_below c5, sub_boolean c7 c9,
      sub_boolean c7 fun i hi => flip_boolean (c9 i hi), fun z ⟨hz1, hz2⟩ => ?_⟩
    obtain ⟨i, hi, e1, e2, rfl⟩ := sub_active.1 hz1
    obtain ⟨j, hj, e3, e4, e5⟩ := sub_active.1 hz2
    have q1 := (c11 i hi e1).1 e2
    rw [← e5] at q1
    exact (flip_ne (c9 j hj)).1 e4 ((c11 j hj e3).2 q1)
  have x12' := x11.trans x12
  have g12' := g11.trans g12
  have cmp3 := disjoint_cmp (B := B) (E := E) (P := P) (N := N) (Sz := Sz) (Φ := Φ) (M := M) x12.ready (R10.mono x12' g12') (B10.mono x12' g12') (hR.mono (y10.trans x12') (j10.trans g12')) hcr
    (by simp only [max_self]; omega) hNr h2 hC (fun hs => by have := hSz hs; show N = max Tb.nv Tb.nv + 1; omega) fun hφ => ?_
  refine cmp3.bind fun t13 Γ13 x13 g13 => ?_
  rotate_left
  · obtain ⟨c2, c3, c4, c5, c6, c7, c8, c9, c10, c11, c12⟩ := hΦ hφ
    refine ⟨c2, c3, c4, sub_below c6, sub_below c6, sub_boolean c8 c10,
      sub_boolean c8 fun i hi => flip_boolean (c10 i hi), fun z ⟨hz1, hz2⟩ => ?_⟩
    obtain ⟨i, hi, e1, e2, rfl⟩ := sub_active.1 hz1
    obtain ⟨j, hj, e3, e4, e5⟩ := sub_active.1 hz2
    have q1 := (c12 i hi e1).1 e2
    rw [← e5] at q1
    exact (flip_ne (c10 j hj)).1 e4 ((c12 j hj e3).2 q1)
  have x13' := x12'.trans x13
  have g13' := g12'.trans g13
  have cmp4 := inclusion_cmp (B := B) (E := E) (P := P) (N := N) (Sz := Sz) (Φ := Φ) x13.ready (A10.mono x13' g13') (B10.mono x13' g13') hNa hNb h2 hC fun hφ => ?_
  refine cmp4.bind fun t14 Γ14 x14 g14 => ?_
  rotate_left
  · obtain ⟨c2, c3, c4, c5, c6, c7, c8, c9, c10, c11, c12⟩ := hΦ hφ
    refine ⟨sub_boolean c7 fun i hi => flip_boolean (c9 i hi), sub_boolean c8 fun i hi => flip_boolean (c10 i hi), fun z hz => ?_⟩
    obtain ⟨i, hi, e1, e2, rfl⟩ := sub_active.1 hz
    have q : Tb.Active (Ta.val i) := by
      by_contra q
      exact (flip_ne (c9 i hi)).1 e2 ((c11 i hi e1).2 q)
    obtain ⟨j, hj, e3, e4⟩ := q
    refine sub_active.2 ⟨j, hj, e3, (flip_ne (c10 j hj)).2 fun h0 => (c12 j hj e3).1 h0 ?_, e4⟩
    rw [e4]
    exact ⟨i, hi, e1, rfl⟩
  have x14' := x13'.trans x14
  have g14' := g13'.trans g14
  have cmp5 := inclusion_cmp (B := B) (E := E) (P := P) (N := N) (Sz := Sz) (Φ := Φ) x14.ready (B10.mono x14' g14') (A10.mono x14' g14') hNb hNa h2 hC fun hφ => ?_
  · exact cmp5.bind fun t15 Γ15 x15 g15 => h t15 Γ15 (y10.trans (x14'.trans x15)) (j10.trans (g14'.trans g15))
  · obtain ⟨c2, c3, c4, c5, c6, c7, c8, c9, c10, c11, c12⟩ := hΦ hφ
    refine ⟨sub_boolean c8 fun i hi => flip_boolean (c10 i hi), sub_boolean c7 fun i hi => flip_boolean (c9 i hi), fun z hz => ?_⟩
    obtain ⟨i, hi, e1, e2, rfl⟩ := sub_active.1 hz
    have q : Ta.Active (Tb.val i) := by
      by_contra q
      exact (flip_ne (c10 i hi)).1 e2 ((c12 i hi e1).2 q)
    obtain ⟨j, hj, e3, e4⟩ := q
    refine sub_active.2 ⟨j, hj, e3, (flip_ne (c9 j hj)).2 fun h0 => (c11 j hj e3).1 h0 ?_, e4⟩
    rw [e4]
    exact ⟨i, hi, e1, rfl⟩

end

end Zksql
