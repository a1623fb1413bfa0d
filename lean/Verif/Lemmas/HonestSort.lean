import Verif.Lemmas.HonestOps
import Verif.Lemmas.SetTabs
/-! Honest runs of the permutation, sort, support and disjointness checks. -/
set_option linter.unusedSectionVars false
namespace Zksql
open Spec
variable {F C B : Type} [Field F] [DecidableEq F]
variable {E : Env F C} {P : C → List F → F} {N : Nat} {Sz : Prop} {t t1 t2 t' : PTracker F C} {s s1 s' : VSt F C B}
variable {α β α0 β0 : Type} {Γ Γ1 : Facts F} {bounds b1 b2 : List Nat} {Φ Φ' : Prop}
variable {bf bg b0 br : Bag} {cf cg c0 cr : BagComm} {Tf Tg T0 Tr : BagTab F}

/-! ### Permutation -/

theorem Spec.Permutes.weight {n : Nat} {f g p : Nat → F} (h : Permutes n f g p) (γ z : F) (o : Nat → F) (ho : ∀ i, o i = 1) :
    (⟨n, fun i => (i : F) + γ * f i, o⟩ : BagTab F).weight (fun _ => 1) z = (⟨n, fun i => p i + γ * g i, o⟩ : BagTab F).weight (fun _ => 1) z := by
  obtain ⟨σ, h1, h2, h3⟩ := h
  unfold BagTab.weight
  simp only [ho]
  have him : (Finset.range (2 ^ n)).image σ = Finset.range (2 ^ n) := by
    apply Finset.eq_of_subset_of_card_le
    · intro x hx
      obtain ⟨i, hi, rfl⟩ := Finset.mem_image.1 hx
      exact Finset.mem_range.2 (h1 i (Finset.mem_range.1 hi))
    · rw [Finset.card_image_of_injOn]
      intro i hi j hj e
      exact h2 i (by simpa using hi) j (by simpa using hj) e
  conv_lhs => rw [← him]
  rw [Finset.sum_image fun i hi j hj e => h2 i (by simpa using hi) j (by simpa using hj) e]
  refine Finset.sum_congr rfl fun i hi => ?_
  obtain ⟨e1, e2⟩ := h3 i (Finset.mem_range.1 hi)
  rw [e1, e2]

theorem hatLoop_ok (n : Nat) (γ : F) (A V : Nat → F) : ∀ l : List Nat, (∀ i ∈ l, i < n) →
    PrescPerm.hatLoop γ ((List.range n).map A) ((List.range n).map V) l = .ok (l.map fun i => A i + γ * V i)
  | [], _ => rfl
  | i :: l, h => by
    unfold PrescPerm.hatLoop
    rw [idx_mapRange A (h i (by simp)), idx_mapRange V (h i (by simp))]
    show (do let r ← PrescPerm.hatLoop γ _ _ l; Except.ok _ : Res (List F)) = _
    rw [hatLoop_ok n γ A V l fun j hj => h j (by simp [hj])]
    rfl

theorem orderedFn_at {b : Nat} (hb : b < 2 ^ N) : (Except.ok (PrescPerm.orderedFn.go F 0 0 (boolPt N b)) : Res F) = .ok (b : F) := by
  rw [orderedGo N b 0 0 hb]; simp

theorem prescPerm_cmp {perm : TPoly} {i n : Nat} {f g p : Nat → F} (hr : Ready E.commit t) (hf : COk Γ t bf.poly cf.poly n f)
    (hg : COk Γ t bg.poly cg.poly n g) (hcf : cf.numVars = n) (hcg : cg.numVars = n) (hp : COk Γ t perm i n p)
    (hN : n ≤ N) (h2 : (2 : F) ≠ 0) (hC : CanCommit E.commit N) (hS : Sz → N = n) (hΦ : Φ → Permutes n f g p) :
    Cmp (B := B) E P N Sz (fun H => PrescPerm.prove (E.withH H) bf bg perm) (fun H => PrescPerm.verify (E.withH H) cf cg i) Γ t
      [0, 2 ^ n + 2 ^ n] Φ := by
  intro α β k1 k2 b2 h
  unfold PrescPerm.prove PrescPerm.verify
  have e0 : (bf.numVars ≠ bg.numVars) = False := by simp [Bag.numVars, hf.size, hg.size]
  have e1 : (bf.numVars ≠ perm.numVars) = False := by simp [Bag.numVars, hf.size, hp.size]
  have e2 : bf.numVars = n := hf.size
  have e3 : bg.numVars = n := hg.size
  simp only [e0, e1, if_false, Act.bind_assoc, withH_debug]
  refine c_chal hr ∅ (by simp) fun γ t1 x1 => ?_
  refine c_eval x1.ready (x1.ph hf.p) fun t2 x2 => ?_
  have y2 := x1.trans x2
  refine c_eval x2.ready (y2.ph hg.p) fun t3 x3 => ?_
  have y3 := y2.trans x3
  refine c_eval x3.ready (y3.ph hp.p) fun t4 x4 => ?_
  have y4 := y3.trans x4
  rw [hf.size, hg.size, hp.size, e2, e3, show (PrescPerm.orderedMle F n).evals = (List.range (2 ^ n)).map fun i : Nat => (i : F) from rfl]
  refine c_lift x4.ready (hatLoop_ok (2 ^ n) γ (fun i => (i : F)) f (List.range (2 ^ n)) fun i hi => List.mem_range.1 hi) ?_
  refine c_lift x4.ready (hatLoop_ok (2 ^ n) γ p g (List.range (2 ^ n)) fun i hi => List.mem_range.1 hi) ?_
  refine c_lift x4.ready (fromEvals_map rfl _) ?_
  refine c_lift x4.ready (fromEvals_map rfl _) ?_
  refine k_ones x4.ready hN fun one t5 Γ5 x5 g5 o5 => ?_
  refine k_pub (nv := n) (T := fun i => (i : F)) x5.ready rfl hN (fun hs b hb => ?_) fun od t6 Γ6 x6 g6 o6 => ?_
  · have e := hS hs
    rw [orderedFn_at hb, Nat.mod_eq_of_lt (e ▸ hb)]
  refine k_commit x6.ready rfl hN hC fun fh t7 Γ7 x7 g7 o7 => ?_
  refine k_commit x7.ready rfl hN hC fun gh t8 Γ8 x8 g8 o8 => ?_
  have y8 := (((y4.trans x5).trans x6).trans x7).trans x8
  have h8 := ((g5.trans g6).trans g7).trans g8
  have one8 := ((o5.mono x6 g6).mono x7 g7).mono x8 g8
  have fh8 := o7.mono x8 g8
  refine k_bagNew x8.ready (fh8.size.trans one8.size.symm) ?_
  refine k_bagNew x8.ready (o8.size.trans one8.size.symm) ?_
  refine k_mulScalar x8.ready (hf.mono y8 h8) fun a t9 Γ9 x9 g9 o9 => ?_
  refine k_add x9.ready (((o6.mono x7 g7).mono x8 g8).mono x9 g9) o9 fun b t10 Γ10 x10 g10 o10 => ?_
  refine k_sub x10.ready o10 ((fh8.mono x9 g9).mono x10 g10) fun fc t11 Γ11 x11 g11 o11 => ?_
  have y11 := ((y8.trans x9).trans x10).trans x11
  have h11 := ((h8.trans g9).trans g10).trans g11
  refine k_mulScalar x11.ready (hg.mono y11 h11) fun c t12 Γ12 x12 g12 o12 => ?_
  refine k_add x12.ready (hp.mono (y11.trans x12) (h11.trans g12)) o12 fun d t13 Γ13 x13 g13 o13 => ?_
  have z13 := ((x9.trans x10).trans x11).trans (x12.trans x13)
  have w13 := ((g9.trans g10).trans g11).trans (g12.trans g13)
  refine k_sub x13.ready o13 (o8.mono z13 w13) fun gc t14 Γ14 x14 g14 o14 => ?_
  have z14 := z13.trans x14
  have w14 := w13.trans g14
  have B1 := (fh8.mono z14 w14).bok (one8.mono z14 w14)
  have B2 := (o8.mono z14 w14).bok (one8.mono z14 w14)
  have bnd : [2 ^ n + 2 ^ n] ++ b2 = [2 ^ cf.numVars + 2 ^ cg.numVars] ++ b2 := by rw [hcf, hcg]
  show GF E P N Sz _ _ Γ14 t14 ([2 ^ n + 2 ^ n] ++ b2) _
  rw [hcf, hcg]
  refine (bagEq_cmp (E := E) x14.ready B1 B2 rfl hN h2 hC (fun hφ z => (hΦ hφ.1).weight γ z _ fun _ => rfl)).bind fun t15 Γ15 x15 g15 => ?_
  have fc15 := ((((o11.mono x12 g12).mono x13 g13).mono x14 g14).mono x15 g15)
  refine k_zero x15.ready fc15 (fun _ b _ => by ring) fun t16 x16 => ?_
  refine k_zero x16.ready ((o14.mono x15 g15).mono x16 le_rfl) (fun _ b _ => by ring) fun t17 x17 => ?_
  exact (h t17 Γ15 (y8.trans (z14.trans (x15.trans (x16.trans x17)))) (h8.trans (w14.trans g15))).weaken fun hφ => hφ.1

/-! ### Sort -/

theorem shiftMle_eq (n : Nat) : (⟨n, StrictSort.shiftEvals F (2 ^ n)⟩ : Mle F) = tabMle n fun b => (((b + 1) % 2 ^ n : Nat) : F) := by
  unfold tabMle
  congr 1
  refine List.ext_getElem (by rw [shift_length]; simp) fun i hi hi' => ?_
  have hi2 : i < 2 ^ n := by simpa using hi'
  have := shift_get (F := F) n i hi2
  rw [List.getD_eq_getElem _ _ hi] at this
  simpa using this

theorem diffSelMle_eq (n : Nat) : (⟨n, StrictSort.diffSelEvals F (2 ^ n)⟩ : Mle F) = tabMle n fun b => if b + 1 < 2 ^ n then 1 else 0 := by
  unfold tabMle
  congr 1
  refine List.ext_getElem (by rw [diffSel_length]; simp) fun i hi hi' => ?_
  have hi2 : i < 2 ^ n := by simpa using hi'
  have := diffSel_get (F := F) n i hi2
  rw [List.getD_eq_getElem _ _ hi] at this
  simpa using this

theorem rotated_eq (n : Nat) (T : Nat → F) : StrictSort.rotated ((List.range (2 ^ n)).map T) = .ok ((List.range (2 ^ n)).map fun b => T ((b + 1) % 2 ^ n)) := by
  have h1 : 2 ^ n = (2 ^ n - 1) + 1 := by have := Nat.one_le_two_pow (n := n); omega
  have e : (List.range (2 ^ n)).map T = T 0 :: (List.range (2 ^ n - 1)).map fun i => T (i + 1) := by
    conv_lhs => rw [h1, List.range_succ_eq_map]
    rw [List.map_cons, List.map_map]; rfl
  rw [e]
  show Except.ok (((List.range (2 ^ n - 1)).map fun i => T (i + 1)) ++ [T 0]) = _
  congr 1
  refine List.ext_getElem (by simp only [List.length_append, List.length_map, List.length_range, List.length_singleton]; omega) fun i hi hi' => ?_
  have hi2 : i < 2 ^ n := by simpa using hi'
  rw [List.getElem_append]
  split
  · rename_i h
    have : i < 2 ^ n - 1 := by simpa using h
    simp only [List.getElem_map, List.getElem_range]
    rw [Nat.mod_eq_of_lt (by omega)]
  · rename_i h
    have h : ¬ i < 2 ^ n - 1 := by simpa using h
    simp only [List.getElem_map, List.getElem_range]
    rw [show i + 1 = 2 ^ n by omega, Nat.mod_self]
    simp

theorem mleFn_at {p : Mle F} {n : Nat} {T : Nat → F} (hp : p = tabMle n T) {b : Nat} (hb : b < 2 ^ n) :
    unwrap (p.evaluate (boolPt n b)) = .ok (T b) := by
  subst hp
  rw [evaluate_eq _ (tabMle_wf n T) _ (by simp [tabMle]), unwrap_some, mle_boolPt _ _ _ hb, tabMle_tbl n T hb]

theorem permutes_shift (n : Nat) (T : Nat → F) : Permutes n T (fun b => T ((b + 1) % 2 ^ n)) fun b => (((b + 1) % 2 ^ n : Nat) : F) := by
  refine ⟨fun b => (b + 1) % 2 ^ n, fun i _ => Nat.mod_lt _ (Nat.two_pow_pos n), fun i hi j hj e => ?_, fun i _ => ⟨rfl, rfl⟩⟩
  dsimp only at e
  rcases Nat.lt_or_ge (i + 1) (2 ^ n) with h1 | h1 <;> rcases Nat.lt_or_ge (j + 1) (2 ^ n) with h2 | h2
  · rw [Nat.mod_eq_of_lt h1, Nat.mod_eq_of_lt h2] at e; omega
  · rw [Nat.mod_eq_of_lt h1, show j + 1 = 2 ^ n by omega, Nat.mod_self] at e; omega
  · rw [Nat.mod_eq_of_lt h2, show i + 1 = 2 ^ n by omega, Nat.mod_self] at e; omega
  · omega

theorem debugDiff_cmp {d : Bool} {a : TPoly} {T : Nat → F} {l : List F} {f : Unit → Oracle F C → Act (PTracker F C) α}
    {v : CompiledProof F C B → Oracle F C → Act (VSt F C B) β} (hr : Ready E.commit t) (ha : PH t a T) (hl : (List.range (2 ^ a.numVars)).map T = l)
    (h : ∀ t1, Ext E t t1 → GF E P N Sz (f ()) v Γ t1 bounds Φ) : GF E P N Sz (fun H => StrictSort.debugDiff d a l >>= fun x => f x H) v Γ t bounds Φ := by
  cases d with
  | false => exact h t hr.ext
  | true =>
    unfold StrictSort.debugDiff
    simp only [if_true, Act.bind_assoc]
    exact c_eval hr ha fun t1 x1 => c_assert x1.ready hl (h t1 x1)

theorem strictSort_cmp {r : Nat} {ρ : Nat → F} (hr : Ready E.commit t) (hf : BOk Γ t bf cf Tf) (hR : COk Γ t br.poly cr.poly r ρ) (hcr : cr.numVars = r)
    (hN : Tf.nv ≤ N) (hNr : r ≤ N) (h2 : (2 : F) ≠ 0) (hC : CanCommit E.commit N)
    (hS : Sz → N = Tf.nv) (hΦ : Φ → SortedIn Tf.nv r Tf.val Tf.sel ρ) :
    Cmp (B := B) E P N Sz (fun H => StrictSort.prove (E.withH H) bf br) (fun H => StrictSort.verify (E.withH H) cf cr) Γ t (hSort Tf.nv r) Φ := by
  intro α β k1 k2 b2 h
  unfold StrictSort.prove StrictSort.verify
  have e1 : bf.numVars = Tf.nv := hf.nvp
  simp only [Act.bind_assoc, withH_debug]
  refine c_eval hr hf.pv fun t1 x1 => ?_
  rw [hf.nvp, e1, hf.nvc]
  simp only [List.length_map, List.length_range]
  refine c_lift x1.ready (rotated_eq Tf.nv Tf.val) ?_
  refine c_lift x1.ready (x := tabMle Tf.nv fun b => if b + 1 < 2 ^ Tf.nv then 1 else 0) ?_ ?_
  · unfold Mle.fromEvals; rw [if_pos (diffSel_length _), diffSelMle_eq]
  refine c_lift x1.ready (x := onesMle F Tf.nv) ?_ ?_
  · unfold Mle.fromEvals; rw [if_pos (by simp)]; rfl
  refine c_lift x1.ready (x := tabMle Tf.nv fun b => (((b + 1) % 2 ^ Tf.nv : Nat) : F)) ?_ ?_
  · unfold Mle.fromEvals; rw [if_pos (shift_length _), shiftMle_eq]
  refine c_lift x1.ready (fromEvals_map rfl _) ?_
  refine k_ones x1.ready hN fun one t2 Γ2 x2 g2 o2 => ?_
  refine k_pub x2.ready rfl hN (fun hs b hb => ?_) fun sh t3 Γ3 x3 g3 o3 => ?_
  · have e := hS hs
    have hb' : b < 2 ^ Tf.nv := e ▸ hb
    rw [Nat.mod_eq_of_lt hb']
    rw [e]; exact mleFn_at (shiftMle_eq _) hb'
  refine k_commit x3.ready rfl hN hC fun q t4 Γ4 x4 g4 o4 => ?_
  have y4 := ((x1.trans x2).trans x3).trans x4
  have h4 := (g2.trans g3).trans g4
  have one4 := (o2.mono x3 g3).mono x4 g4
  refine k_bagNew x4.ready (o4.size.trans one4.size.symm) ?_
  unfold hSort
  show GF E P N Sz _ _ Γ4 t4 ([0, 2 ^ Tf.nv + 2 ^ Tf.nv] ++ ([2 ^ Tf.nv + 2 ^ r] ++ b2)) _
  refine (prescPerm_cmp (bg := ⟨q, one⟩) (cg := ⟨q.id, one.id, Tf.nv⟩) x4.ready (hf.cp.mono y4 h4) o4 hf.nvc rfl (o3.mono x4 g4) hN h2 hC hS fun _ => permutes_shift _ _).bind
    fun t5 Γ5 x5 g5 => ?_
  refine k_pub x5.ready rfl hN (fun hs b hb => ?_) fun ds t6 Γ6 x6 g6 o6 => ?_
  · have e := hS hs
    have hb' : b < 2 ^ Tf.nv := e ▸ hb
    rw [Nat.mod_eq_of_lt hb']
    rw [e]; exact mleFn_at (diffSelMle_eq _) hb'
  have y6 := (y4.trans x5).trans x6
  have h6 := (h4.trans g5).trans g6
  refine k_sub x6.ready ((o4.mono x5 g5).mono x6 g6) (hf.cp.mono y6 h6) fun qp t7 Γ7 x7 g7 o7 => ?_
  refine k_mul x7.ready (o6.mono x7 g7) o7 fun a t8 Γ8 x8 g8 o8 => ?_
  refine k_addScalar x8.ready o8 fun b t9 Γ9 x9 g9 o9 => ?_
  have x79 := (x7.trans x8).trans x9
  have g79 := (g7.trans g8).trans g9
  refine k_sub x9.ready o9 (o6.mono x79 g79) fun diff t10 Γ10 x10 g10 o10 => ?_
  refine debugDiff_cmp x10.ready o10.p ?_ fun t11 x11 => ?_
  · rw [o10.size]
    unfold StrictSort.diffEvals
    have e2 : StrictSort.diffSelEvals F (2 ^ Tf.nv) = (List.range (2 ^ Tf.nv)).map fun b => if b + 1 < 2 ^ Tf.nv then 1 else 0 :=
      congrArg Mle.evals (diffSelMle_eq (F := F) Tf.nv)
    rw [e2]
    refine List.ext_getElem (by simp) fun i hi hi' => ?_
    simp only [List.getElem_map, List.getElem_range, List.getElem_zip]
    ring
  have ds11 := ((o6.mono x79 g79).mono x10 g10).mono x11 le_rfl
  have df11 := o10.mono x11 le_rfl
  have y11 := ((y6.trans x79).trans x10).trans x11
  have h11 := (h6.trans g79).trans g10
  refine k_bagNew x11.ready (df11.size.trans ds11.size.symm) ?_
  have hR' := hR.mono y11 h11
  rw [hR.size]
  refine k_ones x11.ready hNr fun rs t12 Γ12 x12 g12 o12 => ?_
  have hR12 := hR'.mono x12 g12
  refine k_bagNew x12.ready (hR12.size.trans o12.size.symm) ?_
  have B1 := (df11.mono x12 g12).bok (ds11.mono x12 g12)
  have B2 := hR12.bok o12
  rw [hcr]
  refine (inclusion_cmp (E := E) x12.ready B1 B2 hN hNr h2 hC fun hφ => ?_).bind fun t13 Γ13 x13 g13 => ?_
  · have hs := hΦ hφ
    refine ⟨fun i _ => ?_, fun i _ => .inr rfl, ?_⟩
    · by_cases hi : i + 1 < 2 ^ Tf.nv <;> simp [hi]
    · rintro z ⟨i, hi, hs1, hz⟩
      dsimp only at hi hs1 hz
      by_cases hi2 : i + 1 < 2 ^ Tf.nv
      · obtain ⟨⟨j, hj, hj2⟩, -⟩ := hs i hi2
        refine ⟨j, hj, one_ne_zero, ?_⟩
        dsimp only
        rw [← hj2, ← hz, if_pos hi2, Nat.mod_eq_of_lt hi2]
        ring
      · simp [hi2] at hs1
  have y13 := (y11.trans x12).trans x13
  have h13 := (h11.trans g12).trans g13
  have fs13 := hf.cs.mono y13 h13
  have df13 := (df11.mono x12 g12).mono x13 g13
  refine k_bagNew x13.ready (df13.size.trans fs13.size.symm) ?_
  refine (noZeros_cmp (E := E) (Φ := Φ) (P := P) (N := N) (Sz := Sz) x13.ready (df13.bok fs13) hN hC fun hφ i hi hs1 => ?_).bind fun t14 Γ14 x14 g14 => ?_
  · have hs := hΦ hφ
    dsimp only at hi hs1 ⊢
    by_cases hi2 : i + 1 < 2 ^ Tf.nv
    · have := (hs i hi2).2 hs1
      rw [if_pos hi2, Nat.mod_eq_of_lt hi2]
      intro h0
      apply this
      linear_combination h0
    · rw [if_neg hi2]; simp
  · exact h t14 Γ14 (y13.trans x14) (h13.trans g14)

end Zksql
