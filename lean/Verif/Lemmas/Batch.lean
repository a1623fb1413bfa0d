import Verif.Lemmas.Kzg
/-! Helper lemmas about batch opening. -/
set_option linter.unusedSectionVars false
namespace Zksql
open Spec
variable {F : Type} [Field F] [DecidableEq F] {E : Curve F}

theorem list_sum_range_gen {G : Type*} [AddCommMonoid G] (n : Nat) (f : Nat → G) :
    ((List.range n).map f).sum = ∑ i ∈ Finset.range n, f i := by
  rw [← List.sum_toFinset _ List.nodup_range]
  apply Finset.sum_congr
  · ext; simp
  · simp

/-- A running sum: still the constant zero, or a polynomial in `n` variables. -/
def Okg (n : Nat) (g : Mle F) : Prop := g = Mle.zero ∨ (g.WF ∧ g.numVars = n)

theorem Mle.zero_tbl (i : Nat) : (Mle.zero : Mle F).tbl i = 0 := by
  cases i <;> simp [Mle.zero, Mle.tbl]

theorem getD_map_mul (c : F) (l : List F) (i : Nat) : (l.map (c * ·)).getD i 0 = c * l.getD i 0 := by
  by_cases h : i < l.length
  · simp [List.getD_eq_getElem?_getD, h]
  · simp [List.getD_eq_getElem?_getD, h]

theorem addScaled_spec (n : Nat) (hn : 0 < n) (g : Mle F) (hg : Okg n g) (c : F) (q : Mle F) (hq : q.WF) (hqn : q.numVars = n) :
    ∃ g', g.addScaled c q = .ok g' ∧ g'.WF ∧ g'.numVars = n ∧ ∀ i < 2 ^ n, g'.tbl i = g.tbl i + c * q.tbl i := by
  have hql : q.evals.length = 2 ^ n := by rw [← hqn]; exact hq
  have hz : (⟨q.numVars, q.evals.map (c * ·)⟩ : Mle F).isZero = false := by
    simp [Mle.isZero, hqn]; omega
  unfold Mle.addScaled Mle.addM
  rw [hz]
  simp only [Bool.false_eq_true, if_false]
  rcases hg with rfl | ⟨hw, hgn⟩
  · rw [if_pos (by simp [Mle.isZero, Mle.zero])]
    refine ⟨_, rfl, by simpa [Mle.WF] using hq, hqn, ?_⟩
    intro i hi
    rw [Mle.zero_tbl, zero_add]
    exact getD_map_mul c q.evals i
  · have hgl : g.evals.length = 2 ^ n := by rw [← hgn]; exact hw
    have hz' : g.isZero = false := by simp [Mle.isZero, hgn]; omega
    rw [hz']
    simp only [Bool.false_eq_true, if_false]
    rw [if_neg (by simp [hgn, hqn]), Mle.fromEvals, if_pos (by simp [hgl, hql, hgn])]
    refine ⟨_, rfl, ?_, hgn, ?_⟩
    · simp [Mle.WF, hgl, hql, hgn]
    · intro i hi
      simp only [Mle.tbl]
      have h1 : i < g.evals.length := by omega
      have h2 : i < q.evals.length := by omega
      simp [List.getD_eq_getElem?_getD, h1, h2]

theorem dedupPoints_mem (ps acc : List (List F)) (x : List F) : x ∈ dedupPoints acc ps ↔ x ∈ acc ∨ x ∈ ps := by
  induction ps generalizing acc with
  | nil => simp [dedupPoints]
  | cons p ps ih =>
    unfold dedupPoints
    split
    · next h =>
      rw [ih]
      constructor
      · rintro (h1 | h1)
        · exact Or.inl h1
        · exact Or.inr (List.mem_cons_of_mem _ h1)
      · rintro (h1 | h1)
        · exact Or.inl h1
        · rcases List.mem_cons.1 h1 with rfl | h1
          · exact Or.inl h
          · exact Or.inr h1
    · rw [ih]
      simp only [List.mem_append, List.mem_cons]
      tauto

/-- Weighted sum over the distinct points. -/
def ddSum (dd : List (List F)) (gs : List (Mle F)) (φ : List F → F) (i : Nat) : F :=
  ∑ j ∈ Finset.range dd.length, (gs.getD j Mle.zero).tbl i * φ (dd.getD j [])

theorem mergeLoop_spec (n : Nat) (hn : 0 < n) (dd : List (List F)) (items : List ((Mle F × List F) × F)) (gs : List (Mle F))
    (hgs : gs.length = dd.length) (hok : ∀ j < dd.length, Okg n (gs.getD j Mle.zero))
    (hit : ∀ it ∈ items, it.1.1.WF ∧ it.1.1.numVars = n ∧ it.1.2 ∈ dd) :
    ∃ gs', mergeLoop dd items gs = .ok gs' ∧ gs'.length = dd.length ∧ (∀ j < dd.length, Okg n (gs'.getD j Mle.zero)) ∧
      (∀ j < dd.length, gs.getD j Mle.zero ≠ Mle.zero → gs'.getD j Mle.zero ≠ Mle.zero) ∧
      (∀ it ∈ items, gs'.getD (dd.idxOf it.1.2) Mle.zero ≠ Mle.zero) ∧
      ∀ φ, ∀ i < 2 ^ n, ddSum dd gs' φ i = ddSum dd gs φ i + (items.map fun it => it.2 * it.1.1.tbl i * φ it.1.2).sum := by
  induction items generalizing gs with
  | nil => exact ⟨gs, rfl, hgs, hok, fun _ _ h => h, by simp, by simp⟩
  | cons it items ih =>
    obtain ⟨⟨poly, point⟩, coeff⟩ := it
    obtain ⟨hw, hnv, hmem⟩ := hit _ (List.mem_cons_self)
    simp only at hw hnv hmem
    have ha : dd.idxOf point < dd.length := List.idxOf_lt_length_iff.2 hmem
    set a := dd.idxOf point with hadef
    obtain ⟨g', hg', hgw, hgn, hgt⟩ := addScaled_spec n hn _ (hok a ha) coeff poly hw hnv
    have hne : g' ≠ Mle.zero := by
      rintro rfl
      simp [Mle.zero] at hgn; omega
    have hset : ∀ j < dd.length, (gs.set a g').getD j Mle.zero = if a = j then g' else gs.getD j Mle.zero := by
      intro j hj
      have hj' : j < gs.length := by omega
      simp only [List.getD_eq_getElem?_getD, List.getElem?_set]
      split <;> simp_all
    obtain ⟨gs', h1, h2, h3, h4, h5, h6⟩ := ih (gs.set a g') (by simpa using hgs)
      (by
        intro j hj
        rw [hset j hj]
        split
        · exact Or.inr ⟨hgw, hgn⟩
        · exact hok j hj)
      (fun it hit' => hit it (List.mem_cons_of_mem _ hit'))
    refine ⟨gs', ?_, h2, h3, ?_, ?_, ?_⟩
    · rw [mergeLoop, ← hadef, idx_ok (a := gs.getD a Mle.zero) (by
        have : a < gs.length := by omega
        simp [List.getD_eq_getElem?_getD, this]), ok_bind, hg', ok_bind, h1]
    · intro j hj hz
      apply h4 j hj
      rw [hset j hj]
      split
      · exact hne
      · exact hz
    · intro it hit'
      rcases List.mem_cons.1 hit' with rfl | hit'
      · apply h4 a ha
        rw [hset a ha, if_pos rfl]
        exact hne
      · exact h5 it hit'
    · intro φ i hi
      rw [h6 φ i hi, List.map_cons, List.sum_cons]
      have : ddSum dd (gs.set a g') φ i = ddSum dd gs φ i + coeff * poly.tbl i * φ point := by
        unfold ddSum
        have hsum : ∀ j ∈ Finset.range dd.length, ((gs.set a g').getD j Mle.zero).tbl i * φ (dd.getD j []) =
            (gs.getD j Mle.zero).tbl i * φ (dd.getD j []) + if a = j then coeff * poly.tbl i * φ point else 0 := by
          intro j hj
          rw [Finset.mem_range] at hj
          rw [hset j hj]
          split
          · next h =>
            subst h
            have hp : dd.getD a [] = point := by
              rw [List.getD_eq_getElem?_getD, List.getElem?_eq_getElem ha]
              simp [hadef]
            rw [hgt i hi, hp]; ring
          · ring
        rw [Finset.sum_congr rfl hsum, Finset.sum_add_distrib, Finset.sum_ite_eq, if_pos (Finset.mem_range.2 ha)]
      rw [this]; ring

/-- The virtual polynomial of the batch sumcheck. -/
theorem buildBatchPoly_spec (n : Nat) (pairs : List (Mle F × Mle F))
    (hp : ∀ x ∈ pairs, x.1.WF ∧ x.1.numVars = n ∧ x.2.WF ∧ x.2.numVars = n) (hne : pairs ≠ []) :
    ∃ vp heap, buildBatchPoly n pairs = .ok vp ∧ VirtPoly.Inv heap vp ∧ vp.numVariables = n ∧ vp.maxDegree = 2 ∧
      ∀ pt, vp.polyVal pt = (pairs.map fun x => mle x.1.tbl pt * mle x.2.tbl pt).sum := by
  let heap : Nat → Mle F := fun a => if a % 2 = 0 then (pairs.getD (a / 2) (Mle.zero, Mle.zero)).1
    else (pairs.getD (a / 2) (Mle.zero, Mle.zero)).2
  have gen : ∀ (l : List (Mle F × Mle F)) (k : Nat) (vp : VirtPoly F), VirtPoly.Inv heap vp → vp.numVariables = n →
      vp.maxDegree ≤ 2 → (∀ j, l[j]? = pairs[k + j]?) →
      ∃ vp', (l.zipIdx k).foldlM (init := vp) (fun vp pj =>
          tryState (vp.addMleList [⟨2 * pj.2, pj.1.1⟩, ⟨2 * pj.2 + 1, pj.1.2⟩] 1)) = .ok vp' ∧ VirtPoly.Inv heap vp' ∧
        vp'.numVariables = n ∧ vp'.maxDegree = (if l = [] then vp.maxDegree else 2) ∧
        ∀ pt, vp'.polyVal pt = vp.polyVal pt + (l.map fun x => mle x.1.tbl pt * mle x.2.tbl pt).sum := by
    intro l
    induction l with
    | nil => intro k vp h1 h2 h3 _; exact ⟨vp, rfl, h1, h2, by simp, by simp⟩
    | cons x l ih =>
      intro k vp h1 h2 h3 hl
      have hx : pairs[k]? = some x := by have := hl 0; simpa using this.symm
      have hxm : x ∈ pairs := List.mem_of_getElem? hx
      obtain ⟨w1, w2, w3, w4⟩ := hp x hxm
      have hg : pairs.getD k (Mle.zero, Mle.zero) = x := by simp [List.getD_eq_getElem?_getD, hx]
      have hh1 : heap (2 * k) = x.1 := by
        simp only [heap]
        rw [if_pos (by omega), show 2 * k / 2 = k by omega, hg]
      have hh2 : heap (2 * k + 1) = x.2 := by
        simp only [heap]
        rw [if_neg (by omega), show (2 * k + 1) / 2 = k by omega, hg]
      obtain ⟨s1, s2, s3, _⟩ := VirtPoly.addMleList_spec [⟨2 * k, x.1⟩, ⟨2 * k + 1, x.2⟩] vp 1 h1 (by
        intro a ha
        simp only [List.mem_cons, List.not_mem_nil, or_false] at ha
        rcases ha with rfl | rfl
        · exact ⟨hh1.symm, w1⟩
        · exact ⟨hh2.symm, w3⟩)
      obtain ⟨t1, t2, t3⟩ := s3 ⟨by simp, by
        intro a ha
        simp only [List.mem_cons, List.not_mem_nil, or_false] at ha
        rcases ha with rfl | rfl
        · exact w2.trans h2.symm
        · exact w4.trans h2.symm⟩
      have hd : (vp.addMleList [⟨2 * k, x.1⟩, ⟨2 * k + 1, x.2⟩] 1).2.maxDegree = 2 := by
        rw [t2]; simp; omega
      obtain ⟨vp', u1, u2, u3, u4, u5⟩ := ih (k + 1) (vp.addMleList [⟨2 * k, x.1⟩, ⟨2 * k + 1, x.2⟩] 1).2 s1 (s2.trans h2)
        hd.le (by
          intro j
          have := hl (j + 1)
          simp only [List.getElem?_cons_succ] at this
          rw [this]; congr 1; omega)
      refine ⟨vp', ?_, u2, u3, ?_, ?_⟩
      · rw [List.zipIdx_cons, List.foldlM_cons]
        have : tryState (vp.addMleList [⟨2 * k, x.1⟩, ⟨2 * k + 1, x.2⟩] 1) =
            .ok (vp.addMleList [⟨2 * k, x.1⟩, ⟨2 * k + 1, x.2⟩] 1).2 := by
          rcases hh : vp.addMleList [⟨2 * k, x.1⟩, ⟨2 * k + 1, x.2⟩] 1 with ⟨r, w⟩
          rw [hh] at t1
          simp only at t1
          subst t1
          rfl
        simp only
        rw [this, ok_bind, u1]
      · rw [u4, hd]; simp
      · intro pt
        rw [u5, t3]
        simp [add_assoc]
  obtain ⟨vp, h1, h2, h3, h4, h5⟩ := gen pairs 0 (VirtPoly.new n) (VirtPoly.inv_new heap n) rfl (by simp [VirtPoly.new]) (by simp)
  refine ⟨vp, heap, h1, h2, h3, ?_, ?_⟩
  · rw [h4, if_neg hne]
  · intro pt
    rw [h5]
    simp [VirtPoly.polyVal, VirtPoly.prodsVal, VirtPoly.new]

theorem gPrimeLoop_spec (n : Nat) (hn : 0 < n) (a2 : List F) (ha2 : a2.length = n) (l : List (Mle F × List F))
    (hl : ∀ x ∈ l, x.1.WF ∧ x.1.numVars = n ∧ x.2.length = n) (g : Mle F) (hg : Okg n g) :
    ∃ g', gPrimeLoop a2 l g = .ok g' ∧ Okg n g' ∧ (l ≠ [] ∨ (g.WF ∧ g.numVars = n) → g'.WF ∧ g'.numVars = n) ∧
      ∀ i < 2 ^ n, g'.tbl i = g.tbl i + (l.map fun x => eqPoly a2 x.2 * x.1.tbl i).sum := by
  induction l generalizing g with
  | nil => exact ⟨g, rfl, hg, by simp, by simp⟩
  | cons x l ih =>
    obtain ⟨w1, w2, w3⟩ := hl x (by simp)
    obtain ⟨g1, e1, e2, e3, e4⟩ := addScaled_spec n hn g hg (eqPoly a2 x.2) x.1 w1 w2
    obtain ⟨g', u1, u2, u3, u4⟩ := ih (fun y hy => hl y (List.mem_cons_of_mem _ hy)) g1 (Or.inr ⟨e2, e3⟩)
    refine ⟨g', ?_, u2, fun _ => u3 (Or.inr ⟨e2, e3⟩), ?_⟩
    · rw [gPrimeLoop]
      rw [eqEval_eq _ _ (by omega), ok_bind, e1, ok_bind, u1]
    · intro i hi
      rw [u4 i hi, e4 i hi, List.map_cons, List.sum_cons]; ring

theorem log2Ceil_pos {k : Nat} (hk : 2 ≤ k) : 0 < log2Ceil k := by
  by_contra h
  have h0 : log2Ceil k = 0 := by omega
  have := le_two_pow_log2Ceil k
  rw [h0] at this
  omega

theorem zip_range {α β : Type} (a : List α) (b : List β) (k : Nat) (ha : a.length = k) (hb : k ≤ b.length) (da : α) (db : β) :
    a.zip b = (List.range k).map fun i => (a.getD i da, b.getD i db) := by
  apply List.ext_getElem
  · simp; omega
  · intro i h1 h2
    have h3 : i < a.length := by simp at h1; omega
    have h4 : i < b.length := by simp at h1; omega
    simp [List.getD_eq_getElem?_getD, h3, h4]

theorem zipIdx_range {α : Type} (a : List α) (da : α) : a.zipIdx = (List.range a.length).map fun i => (a.getD i da, i) := by
  apply List.ext_getElem
  · simp
  · intro i h1 h2
    have h3 : i < a.length := by simpa using h1
    simp [List.getD_eq_getElem?_getD, h3]

theorem zip_sum_range {α β : Type} (a : List α) (b : List β) (k : Nat) (ha : a.length = k) (hb : b.length = k) (da : α) (db : β)
    (f : α × β → F) : ((a.zip b).map f).sum = ∑ j ∈ Finset.range k, f (a.getD j da, b.getD j db) := by
  rw [zip_range a b k ha hb.ge da db, List.map_map, list_sum_range_gen]
  rfl

theorem roundChals_isEmpty (H : Oracle F E.G1) (ms : List (List F)) (tr : Transcript F E.G1) (h : tr.isEmpty = false) :
    (roundChals H ms tr).2.isEmpty = false := by
  induction ms generalizing tr with
  | nil => exact h
  | cons m ms ih =>
    simp only [roundChals]
    exact ih _ rfl

/-- Completeness of batch opening for at least two polynomials. -/
theorem batch_complete (H : Oracle F E.G1) (g : E.G1) (h : E.G2) (T : List F) (n : Nat) (hn : 0 < n) (hnT : n ≤ T.length)
    (polys : List (Mle F)) (hpolys : ∀ p ∈ polys, p.WF ∧ p.numVars = n) (hk : 2 ≤ polys.length) (points : List (List F))
    (hpl : points.length = polys.length) (hpts : ∀ x ∈ points, x.length = n) (hchar : NatsNonzero F 2)
    (tr : Transcript F E.G1) (htr : tr.isEmpty = false) (evals : List F) (hevl : evals.length = polys.length)
    (hev : ∀ i < polys.length, evals.getD i 0 = mle (polys.getD i Mle.zero).tbl (points.getD i []))
    (comms : List E.G1) (hcl : comms.length = polys.length)
    (hcomm : ∀ i < polys.length, kzgCommit (proverParamOf g h T) (polys.getD i Mle.zero) = .ok (comms.getD i 0)) :
    ∃ pf tr', multiOpen H (proverParamOf g h T) polys points evals tr = .ok (pf, tr') ∧ pf.sumCheckProof.point.length = n ∧
      pf.evals = evals ∧ pf.gPrimeProof.length = n ∧ tr'.isEmpty = false ∧
      ((∀ c ∈ pf.sumCheckProof.point, ∀ i : Nat, i ≤ 2 → c ≠ (i : F)) →
        batchVerify H (verifierParamOf g h T) comms points pf tr = .ok (true, tr')) := by
  set k := polys.length with hkdef
  obtain ⟨t, tr1, ht, htl, htr1⟩ := challenges_ok H "t" (log2Ceil k) tr htr
  have htne : t ≠ [] := by
    rintro rfl
    have := log2Ceil_pos hk
    simp at htl; omega
  have heqT : buildEqVec t = .ok ((List.range (2 ^ t.length)).map (eqWeight t)) := buildEqHelper_spec t htne
  set eqT := (List.range (2 ^ t.length)).map (eqWeight t) with heqTdef
  have hkT : k ≤ eqT.length := by
    rw [heqTdef]; simp only [List.length_map, List.length_range]; rw [htl]; exact le_two_pow_log2Ceil k
  have hw : ∀ i < k, eqT.getD i 0 = eqWeight t i := by
    intro i hi
    rw [heqTdef, getD_map_range]
    rw [heqTdef] at hkT
    simp at hkT; omega
  let P : Nat → Mle F := fun i => polys.getD i Mle.zero
  let X : Nat → List F := fun i => points.getD i []
  let w : Nat → F := eqWeight t
  have hP : ∀ i < k, (P i).WF ∧ (P i).numVars = n := by
    intro i hi
    have : P i ∈ polys := by
      simp only [P, List.getD_eq_getElem?_getD, List.getElem?_eq_getElem hi, Option.getD_some]
      exact List.getElem_mem _
    exact hpolys _ this
  have hXm : ∀ i < k, X i ∈ points := by
    intro i hi
    have hi' : i < points.length := by omega
    simp only [X, List.getD_eq_getElem?_getD, List.getElem?_eq_getElem hi', Option.getD_some]
    exact List.getElem_mem _
  have hX : ∀ i < k, (X i).length = n := fun i hi => hpts _ (hXm i hi)
  have hitems : (polys.zip points).zip eqT = (List.range k).map fun i => ((P i, X i), w i) := by
    have hzl : (polys.zip points).length = k := by simp [hpl, hkdef]
    rw [zip_range (polys.zip points) eqT k hzl hkT (Mle.zero, []) 0]
    apply List.map_congr_left
    intro i hi
    rw [List.mem_range] at hi
    rw [hw i hi, zip_range polys points k rfl (by omega) Mle.zero [], getD_map_range _ _ _ _ hi]
  set dd := dedupPoints [] points with hdd
  have hddm : ∀ x, x ∈ dd ↔ x ∈ points := by
    intro x; rw [hdd, dedupPoints_mem]; simp
  have hddl : ∀ j < dd.length, (dd.getD j []).length = n := by
    intro j hj
    apply hpts
    rw [← hddm]
    simp only [List.getD_eq_getElem?_getD, List.getElem?_eq_getElem hj, Option.getD_some]
    exact List.getElem_mem _
  have hzeros : ∀ j, (List.replicate dd.length (Mle.zero : Mle F)).getD j Mle.zero = Mle.zero := by
    intro j
    simp only [List.getD_eq_getElem?_getD, List.getElem?_replicate]
    split <;> rfl
  obtain ⟨merged, hm1, hm2, hm3, _, hm5, hm6⟩ := mergeLoop_spec n hn dd ((polys.zip points).zip eqT)
    (List.replicate dd.length Mle.zero) (by simp) (fun j _ => Or.inl (hzeros j)) (by
      rw [hitems]
      intro it hit
      obtain ⟨i, hi, rfl⟩ := List.mem_map.1 hit
      rw [List.mem_range] at hi
      exact ⟨(hP i hi).1, (hP i hi).2, (hddm _).2 (hXm i hi)⟩)
  have hmsum : ∀ φ, ∀ i < 2 ^ n, ddSum dd merged φ i = ∑ j ∈ Finset.range k, w j * (P j).tbl i * φ (X j) := by
    intro φ i hi
    rw [hm6 φ i hi, hitems, List.map_map, list_sum_range_gen]
    have : ddSum dd (List.replicate dd.length Mle.zero) φ i = 0 := by
      unfold ddSum
      apply Finset.sum_eq_zero
      intro j _
      rw [hzeros, Mle.zero_tbl, zero_mul]
    rw [this, zero_add]
    rfl
  have hddnd : dd.Nodup := by
    have gen : ∀ (ps acc : List (List F)), acc.Nodup → (dedupPoints acc ps).Nodup := by
      intro ps
      induction ps with
      | nil => intro acc h; exact h
      | cons p ps ih =>
        intro acc h
        unfold dedupPoints
        split
        · exact ih acc h
        · next hnot =>
          apply ih
          rw [List.nodup_append]
          refine ⟨h, by simp, ?_⟩
          intro a ha b hb
          rw [List.mem_singleton] at hb
          subst hb
          intro heq; subst heq; exact hnot ha
    exact gen points [] List.nodup_nil
  have hmok : ∀ j < dd.length, (merged.getD j Mle.zero).WF ∧ (merged.getD j Mle.zero).numVars = n := by
    intro j hj
    rcases hm3 j hj with h0 | h0
    · exfalso
      have hmem : dd.getD j [] ∈ points := by
        rw [← hddm]
        simp only [List.getD_eq_getElem?_getD, List.getElem?_eq_getElem hj, Option.getD_some]
        exact List.getElem_mem _
      obtain ⟨i, hi, hie⟩ := List.getElem_of_mem hmem
      have hik : i < k := by omega
      have := hm5 ((P i, X i), w i) (by
        rw [hitems]
        exact List.mem_map.2 ⟨i, List.mem_range.2 hik, rfl⟩)
      simp only at this
      have hxi : X i = dd.getD j [] := by
        rw [← hie]
        simp only [X, List.getD_eq_getElem?_getD, List.getElem?_eq_getElem hi, Option.getD_some]
      have hix : dd.idxOf (X i) = j := by
        rw [hxi, List.getD_eq_getElem?_getD, List.getElem?_eq_getElem hj, Option.getD_some]
        exact hddnd.idxOf_getElem j hj
      rw [hix] at this
      exact this h0
    · exact h0
  have hddne : dd ≠ [] := by
    intro h0
    have := (hddm (X 0)).2 (hXm 0 (by omega))
    rw [h0] at this
    simp at this
  have hteq : dd.mapM (fun point => (do
      let e ← unwrap (buildEqVec point).toOption
      Mle.fromEvals n e : Res (Mle F))) = .ok (dd.map eqMle) := by
    apply mapM_ok
    intro x hx
    have hxl := hpts x ((hddm x).1 hx)
    have hxne : x ≠ [] := by rintro rfl; simp at hxl; omega
    rw [show buildEqVec x = .ok ((List.range (2 ^ x.length)).map (eqWeight x)) from buildEqHelper_spec x hxne]
    show Mle.fromEvals n _ = _
    rw [Mle.fromEvals, if_pos (by simp [hxl]), eqMle, hxl]
  have hpairs : ∀ x ∈ merged.zip (dd.map eqMle), x.1.WF ∧ x.1.numVars = n ∧ x.2.WF ∧ x.2.numVars = n := by
    rw [zip_range merged (dd.map eqMle) dd.length hm2 (by simp) Mle.zero Mle.zero]
    intro x hx
    obtain ⟨j, hj, rfl⟩ := List.mem_map.1 hx
    rw [List.mem_range] at hj
    have : (dd.map eqMle).getD j Mle.zero = eqMle (dd.getD j []) := by
      simp [List.getD_eq_getElem?_getD, hj]
    simp only
    rw [this]
    exact ⟨(hmok j hj).1, (hmok j hj).2, eqMle_wf _, hddl j hj⟩
  obtain ⟨vp, heap, hv1, hinv, hvn, hvd, hvval⟩ := buildBatchPoly_spec n _ hpairs (by
    intro h0
    have := congrArg List.length h0
    simp [hm2] at this
    exact hddne this)
  have hval : ∀ pt : List F, pt.length = n → vp.polyVal pt =
      ∑ j ∈ Finset.range dd.length, mle (merged.getD j Mle.zero).tbl pt * eqPoly pt (dd.getD j []) := by
    intro pt hpt
    rw [hvval, zip_sum_range merged (dd.map eqMle) dd.length hm2 (by simp) Mle.zero Mle.zero]
    apply Finset.sum_congr rfl
    intro j hj
    rw [Finset.mem_range] at hj
    have : (dd.map eqMle).getD j Mle.zero = eqMle (dd.getD j []) := by
      simp [List.getD_eq_getElem?_getD, hj]
    simp only
    rw [this]
    congr 1
    rw [← mle_eqWeight _ _ (by rw [hpt, hddl j hj])]
    exact mle_congr pt (fun i hi => eqMle_tbl _ i (by rw [hddl j hj, ← hpt]; exact hi))
  have hsum : partialSum vp.polyVal vp.numVariables [] = ∑ j ∈ Finset.range k, w j * mle (P j).tbl (X j) := by
    unfold partialSum
    simp only [List.length_nil, Nat.sub_zero, List.nil_append]
    rw [hvn]
    unfold cubeSum
    have h1 : ∀ b ∈ Finset.range (2 ^ n), vp.polyVal (boolPt n b) =
        ∑ j ∈ Finset.range k, w j * ((P j).tbl b * eqWeight (X j) b) := by
      intro b hb
      rw [Finset.mem_range] at hb
      rw [hval _ (by simp)]
      have h2 : ∑ j ∈ Finset.range dd.length, mle (merged.getD j Mle.zero).tbl (boolPt n b) * eqPoly (boolPt n b) (dd.getD j []) =
          ddSum dd merged (fun x => eqPoly (boolPt n b) x) b := by
        unfold ddSum
        apply Finset.sum_congr rfl
        intro j _
        rw [mle_boolPt _ _ _ hb]
      rw [h2, hmsum _ b hb]
      apply Finset.sum_congr rfl
      intro j hj
      rw [Finset.mem_range] at hj
      rw [← mle_eqWeight (X j) _ (by simp [hX j hj]), mle_boolPt _ _ _ hb, mul_assoc]
    rw [Finset.sum_congr rfl h1, Finset.sum_comm]
    apply Finset.sum_congr rfl
    intro j hj
    rw [Finset.mem_range] at hj
    rw [← Finset.mul_sum, mle, hX j hj]
  have hp := sumcheckProve_ok hinv (by rw [hvd]; exact hchar) (by omega) H tr1
  simp only at hp
  set ms := honestMsgs H vp.polyVal vp.numVariables vp.maxDegree vp.numVariables []
    (tr1.append "aux info" (.aux vp.maxDegree vp.numVariables)) with hms
  set rc := roundChals H ms (tr1.append "aux info" (.aux vp.maxDegree vp.numVariables)) with hrc
  have hlen : ms.length = n := by rw [hms, honestMsgs_length, hvn]
  have hrcl : rc.1.length = n := by rw [hrc, roundChals_length, hlen]
  have hrce : rc.2.isEmpty = false := by
    rw [hrc]
    exact roundChals_isEmpty H ms _ rfl
  have hzip2 : ∀ x ∈ merged.zip dd, x.1.WF ∧ x.1.numVars = n ∧ x.2.length = n := by
    rw [zip_range merged dd dd.length hm2 le_rfl Mle.zero []]
    intro x hx
    obtain ⟨j, hj, rfl⟩ := List.mem_map.1 hx
    rw [List.mem_range] at hj
    exact ⟨(hmok j hj).1, (hmok j hj).2, hddl j hj⟩
  obtain ⟨g', hg1, _, hg3, hg4⟩ := gPrimeLoop_spec n hn rc.1 hrcl (merged.zip dd) hzip2 Mle.zero (Or.inl rfl)
  obtain ⟨hgw, hgn⟩ := hg3 (Or.inl (by
    intro h0
    have := congrArg List.length h0
    simp [hm2] at this
    exact hddne this))
  have hgt1 : ∀ i < 2 ^ n, g'.tbl i = ∑ j ∈ Finset.range dd.length, eqPoly rc.1 (dd.getD j []) * (merged.getD j Mle.zero).tbl i := by
    intro i hi
    rw [hg4 i hi, Mle.zero_tbl, zero_add, zip_sum_range merged dd dd.length hm2 rfl Mle.zero []]
  have hgt2 : ∀ i < 2 ^ n, g'.tbl i = ∑ j ∈ Finset.range k, (eqPoly rc.1 (X j) * w j) * (P j).tbl i := by
    intro i hi
    rw [hgt1 i hi]
    have h2 := hmsum (fun x => eqPoly rc.1 x) i hi
    unfold ddSum at h2
    simp only [mul_comm (eqPoly rc.1 _)]
    rw [h2]
    apply Finset.sum_congr rfl
    intro j _
    ring
  have hgmle : ∀ pt : List F, pt.length = n → mle g'.tbl pt = ∑ j ∈ Finset.range k, (eqPoly rc.1 (X j) * w j) * mle (P j).tbl pt := by
    intro pt hpt
    rw [mle_congr (g := fun i => ∑ j ∈ Finset.range k, (eqPoly rc.1 (X j) * w j) * (P j).tbl i) pt
      (fun i hi => hgt2 i (by rw [← hpt]; exact hi))]
    unfold mle
    simp only [Finset.sum_mul, Finset.mul_sum]
    rw [Finset.sum_comm]
    apply Finset.sum_congr rfl
    intro j _
    apply Finset.sum_congr rfl
    intro i _
    ring
  have hga2 : mle g'.tbl rc.1 = vp.polyVal rc.1 := by
    rw [hval _ hrcl, mle_congr (g := fun i => ∑ j ∈ Finset.range dd.length, eqPoly rc.1 (dd.getD j []) * (merged.getD j Mle.zero).tbl i)
      rc.1 (fun i hi => hgt1 i (by rw [← hrcl]; exact hi))]
    unfold mle
    simp only [Finset.sum_mul]
    rw [Finset.sum_comm]
    apply Finset.sum_congr rfl
    intro j _
    apply Finset.sum_congr rfl
    intro i _
    ring
  have hopen := kzgOpen_spec g h T g' hgw (by omega) rc.1 (by omega)
  have hp0 : idx polys 0 = .ok (P 0) := by
    apply idx_ok
    have : 0 < polys.length := by omega
    simp [P, List.getD_eq_getElem?_getD, this]
  refine ⟨⟨⟨rc.1, ms⟩, evals, (quotVals g'.tbl (T.drop (T.length - g'.numVars)) rc.1).map fun a => a • g⟩, rc.2, ?_, hrcl, rfl,
    ?_, hrce, ?_⟩
  · unfold multiOpen
    simp only [hp0, ok_bind, ← hkdef, ht, heqT, ← hdd, hm1, (hP 0 (by omega)).2, hteq, hv1, hp, wrapSumcheck]
    rw [if_neg (by simp; omega), List.take_of_length_le hrcl.le, hg1, ok_bind, hopen]
    rfl
  · rw [List.length_map]
    have gen : ∀ (T' pt : List F) (f : Nat → F), T'.length = pt.length → (quotVals f T' pt).length = pt.length := by
      intro T'
      induction T' with
      | nil => intro pt f hl; obtain rfl : pt = [] := by simpa using hl.symm
               rfl
      | cons a T' ih =>
        intro pt f hl
        cases pt with
        | nil => simp at hl
        | cons x pt => simp [quotVals, ih pt _ (by simpa using hl)]
    rw [gen _ _ _ (by simp; omega), hrcl]
  · intro havoid
    simp only at havoid
    have hv := sumcheck_complete_inv hinv (by rw [hvd]; exact hchar) (by omega) (by omega) H tr1 rc.2 ⟨rc.1, ms⟩ hp
      (by rw [hvd]; exact havoid)
    rw [hsum, hvd, hvn] at hv
    have hgc : gPrimeCommit rc.1 eqT comms points = .ok (mle g'.tbl (T.drop (T.length - n)) • g) := by
      unfold gPrimeCommit
      rw [zipIdx_range points [], hpl, mapM_ok (g := fun pi => (eqPoly rc.1 pi.1 * w pi.2) • comms.getD pi.2 0), ok_bind]
      · rw [List.map_map, list_sum_range_gen, hgmle _ (by simp; omega), Finset.sum_smul]
        congr 1
        apply Finset.sum_congr rfl
        intro j hj
        rw [Finset.mem_range] at hj
        have := hcomm j hj
        rw [kzgCommit_spec g h T _ (hP j hj).1 (by rw [(hP j hj).2]; exact hnT)] at this
        injection this with this
        simp only [Function.comp]
        rw [← this, smul_smul, show (polys.getD j Mle.zero).numVars = n from (hP j hj).2]
      · intro pi hpi
        obtain ⟨j, hj, rfl⟩ := List.mem_map.1 hpi
        rw [List.mem_range] at hj
        simp only
        rw [eqEval_eq _ _ (by rw [hrcl]; exact (hX j hj).symm), ok_bind, idx_getD (by omega), ok_bind, hw j hj,
          idx_ok (a := comms.getD j 0) (by
            have : j < comms.length := by omega
            simp [List.getD_eq_getElem?_getD, this]), ok_bind]
    have hterms : ((eqT.take k).zipIdx.mapM fun ei => (do
        let v ← idx evals ei.2
        .ok (ei.1 * v) : Res F)) = .ok ((List.range k).map fun i => w i * mle (P i).tbl (X i)) := by
      have hl : (eqT.take k).length = k := by simp; omega
      rw [zipIdx_range (eqT.take k) 0, hl, mapM_ok (g := fun ei => ei.1 * evals.getD ei.2 0)]
      · rw [List.map_map]
        congr 1
        apply List.map_congr_left
        intro i hi
        rw [List.mem_range] at hi
        simp only [Function.comp]
        rw [hev i hi]
        congr 1
        have : (eqT.take k).getD i 0 = eqT.getD i 0 := by
          simp [List.getD_eq_getElem?_getD, hi]
        rw [this, hw i hi]
      · intro ei hei
        obtain ⟨j, hj, rfl⟩ := List.mem_map.1 hei
        rw [List.mem_range] at hj
        simp only
        rw [idx_getD (by omega), ok_bind]
    unfold batchVerify
    simp only [hcl, ht, ok_bind, heqT, hgc, hterms, list_sum_range_gen, hrcl, hv, wrapSumcheck]
    rw [kzgVerify_spec g h T _ _ _ _ (by omega), ok_bind, hrcl, hgn]
    congr 2
    rw [decide_eq_true_iff]
    have hTl : (T.drop (T.length - n)).length = rc.1.length := by simp; omega
    have hq := quot_identity g'.tbl (T.drop (T.length - n)) rc.1 hTl
    have key : ∀ (as ds : List F), (List.zipWith (fun x d => d • E.e x h) (as.map fun a => a • g) ds).sum =
        (List.zipWith (fun a d => d * a) as ds).sum • E.e g h := by
      intro as
      induction as with
      | nil => simp
      | cons a as ih =>
        intro ds
        cases ds with
        | nil => simp
        | cons d ds => simp [ih, add_smul, mul_smul]
    rw [key, ← hq, ← sub_smul, map_smul, LinearMap.smul_apply, ← add_smul, ← hga2]
    simp

end Zksql
