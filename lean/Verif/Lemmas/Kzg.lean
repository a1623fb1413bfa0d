import Verif.Spec.Kzg
import Verif.Lemmas.ZeroCheck
/-! Helper lemmas about the commitment scheme. -/
set_option linter.unusedSectionVars false
namespace Zksql
open Spec
variable {F : Type} [Field F] {E : Curve F}

theorem idx_ok {α : Type} {l : List α} {i : Nat} {a : α} (h : l[i]? = some a) : idx l i = .ok a := by
  simp [idx, h]

theorem idx_getD {l : List F} {i : Nat} (h : i < l.length) : idx l i = .ok (l.getD i 0) := by
  apply idx_ok
  simp [List.getD_eq_getElem?_getD, h]

theorem idx_map_range {α : Type} (n : Nat) (f : Nat → α) (i : Nat) (h : i < n) : idx ((List.range n).map f) i = .ok (f i) := by
  apply idx_ok
  simp [h]

theorem evaluateOpt_eq (p : Mle F) (hp : p.WF) (pt : List F) (h : pt.length = p.numVars) :
    evaluateOpt p pt = .ok (mle p.tbl pt) := by
  have h1 := fixVariables_ok p hp pt h.le
  have h2 := evaluate_eq p hp pt h
  rw [Mle.evaluate, if_pos h.symm] at h2
  simp [evaluateOpt, h, h1, bind, Except.bind, h2]

theorem log2Ceil_two_pow (n : Nat) : log2Ceil (2 ^ n) = n := by
  simp [log2Ceil]

/-! ### Generation -/

/-- The product of the coordinate factors from `i` on. -/
def tailProd (t : List F) (i x : Nat) : F :=
  ∏ j ∈ Finset.range (t.length - i), if x.testBit (i + j) then t.getD (i + j) 0 else 1 - t.getD (i + j) 0

theorem tailProd_shift (t : List F) (i x : Nat) : tailProd t i (x * 2 ^ i) = eqWeight (t.drop i) x := by
  unfold tailProd eqWeight
  rw [List.length_drop]
  apply Finset.prod_congr rfl
  intro j _
  have h1 : (x * 2 ^ i).testBit (i + j) = x.testBit j := by
    rw [Nat.mul_comm, Nat.testBit_two_pow_mul]
    simp
  have h2 : (t.drop i).getD j 0 = t.getD (i + j) 0 := by
    simp [List.getD_eq_getElem?_getD]
  rw [h1, h2]

theorem tailProd_succ (t : List F) (i x : Nat) (hi : i < t.length) :
    tailProd t i x = (if x.testBit i then t.getD i 0 else 1 - t.getD i 0) * tailProd t (i + 1) x := by
  unfold tailProd
  rw [show t.length - i = (t.length - (i + 1)) + 1 by omega, Finset.prod_range_succ', mul_comm]
  congr 1
  apply Finset.prod_congr rfl
  intro j _
  rw [show i + (j + 1) = i + 1 + j by omega]

theorem removeDummy_spec (t : List F) (i : Nat) (hi : i ≤ t.length) :
    removeDummyVariable ((List.range (2 ^ t.length)).map (tailProd t i)) i =
      .ok ((List.range (2 ^ (t.length - i))).map (eqWeight (t.drop i))) := by
  unfold removeDummyVariable
  split
  · next h =>
    subst h
    congr 1
    rw [Nat.sub_zero]
    apply List.map_congr_left
    intro x _
    have := tailProd_shift t 0 x
    simpa using this
  · have hl : ((List.range (2 ^ t.length)).map (tailProd t i)).length = 2 ^ t.length := by simp
    rw [hl, if_neg (by simp [Nat.log2_two_pow]), show log2Ceil (2 ^ t.length) = t.length from log2Ceil_two_pow _,
      if_neg (by omega)]
    apply mapM_ok
    intro x hx
    rw [List.mem_range] at hx
    have : x * 2 ^ i < 2 ^ t.length := by
      calc x * 2 ^ i < 2 ^ (t.length - i) * 2 ^ i := Nat.mul_lt_mul_of_pos_right hx (by positivity)
        _ = 2 ^ t.length := by rw [← pow_add]; congr 1; omega
    rw [idx_map_range _ _ _ this, tailProd_shift]

/-- The `j`-th table of `eq_extension`. -/
def extTbl (t : List F) (i : Nat) : Mle F :=
  ⟨t.length, (List.range (2 ^ t.length)).map fun x => if x.testBit i then t.getD i 0 else 1 - t.getD i 0⟩

theorem eqExtension_ok (t : List F) : eqExtension t = .ok ((List.range t.length).map (extTbl t)) := by
  unfold eqExtension
  apply mapM_ok
  intro i _
  rw [Mle.fromEvals, if_pos (by simp)]
  congr 1
  unfold extTbl
  congr 1
  apply List.map_congr_left
  intro x _
  by_cases hb : x.testBit i
  · simp [hb]; ring
  · simp [hb]; ring

theorem eqArrLoop_spec (t : List F) (i : Nat) (hi : i ≤ t.length) (acc : List (List F)) :
    eqArrLoop i ((List.range (i - 1)).map (extTbl t)) ((List.range (2 ^ t.length)).map (tailProd t (i - 1))) acc =
      .ok ((List.range i).map (fun k => (List.range (2 ^ (t.length - k))).map (eqWeight (t.drop k))) ++ acc) := by
  induction i generalizing acc with
  | zero => simp [eqArrLoop]
  | succ i ih =>
    rw [eqArrLoop]
    simp only [Nat.add_sub_cancel]
    rw [removeDummy_spec t i (by omega), ok_bind]
    rw [List.range_succ, List.map_append, List.append_assoc]
    simp only [List.map_cons, List.map_nil, List.singleton_append]
    rw [← ih (by omega)]
    split
    · next h0 =>
      obtain ⟨k, rfl⟩ : ∃ k, i = k + 1 := ⟨i - 1, by omega⟩
      rw [List.range_succ, List.map_append]
      simp only [List.map_cons, List.map_nil, List.getLast?_append, List.getLast?_singleton, Option.some_or, unwrap_some, ok_bind,
        List.dropLast_concat, Nat.add_sub_cancel]
      congr 1
      apply List.ext_getElem
      · simp [extTbl]
      · intro x h1 h2
        simp only [extTbl, List.getElem_zipWith, List.getElem_map, List.getElem_range]
        rw [tailProd_succ t k x (by omega), mul_comm]
    · next h0 =>
      obtain rfl : i = 0 := by omega
      rfl

theorem eqWeight_zero (t : List F) : eqWeight t 0 = eqPoly (List.replicate t.length 0) t := by
  rw [← mle_eqWeight t _ (by simp)]
  have : (List.replicate t.length (0 : F)) = boolPt t.length 0 := by
    apply List.ext_getElem <;> simp [boolPt]
  rw [this, mle_boolPt _ _ _ (by positivity)]

theorem genSrs_spec [DecidableEq E.G1] (g : E.G1) (h : E.G2) (t : List F) (ht : t ≠ []) :
    genSrs E g h t = .ok (universalParamOf g h t) := by
  have hn : t.length ≠ 0 := by simpa using ht
  unfold genSrs
  simp only
  rw [if_neg hn, eqExtension_ok, ok_bind]
  obtain ⟨k, hk⟩ : ∃ k, t.length = k + 1 := ⟨t.length - 1, by omega⟩
  have hlast : ((List.range t.length).map (extTbl t)).getLast? = some (extTbl t (t.length - 1)) := by
    rw [hk, List.range_succ]; simp
  have hdrop : ((List.range t.length).map (extTbl t)).dropLast = (List.range (t.length - 1)).map (extTbl t) := by
    rw [hk, List.range_succ]; simp
  have hbase : (extTbl t (t.length - 1)).evals = (List.range (2 ^ t.length)).map (tailProd t (t.length - 1)) := by
    unfold extTbl
    apply List.map_congr_left
    intro x _
    rw [tailProd_succ t _ x (by omega)]
    have : tailProd t (t.length - 1 + 1) x = 1 := by
      unfold tailProd
      rw [show t.length - (t.length - 1 + 1) = 0 by omega]; simp
    rw [this, mul_one]
  rw [hlast, unwrap_some, ok_bind, hdrop, hbase, eqArrLoop_spec t t.length le_rfl, ok_bind, List.append_nil]
  rw [mapM_ok (g := fun i => eqPowers g (t.drop i))]
  · rw [ok_bind]
    unfold universalParamOf proverParamOf
    rw [List.range_succ, List.map_append]
    simp [eqPowers, eqWeight_nil]
  · intro i hi
    rw [List.mem_range] at hi
    unfold srsLevel
    rw [idx_map_range _ _ _ hi, ok_bind, mapM_ok (g := eqWeight (t.drop i)), ok_bind]
    · simp only
      rw [eqEval_eq _ _ (by simp), ok_bind]
      have e1 : idx (((List.range (2 ^ (t.length - i))).map (eqWeight (t.drop i))).map fun s => s • g) 0 =
          .ok (eqWeight (t.drop i) 0 • g) := by
        apply idx_ok
        simp
      rw [e1, ok_bind, if_pos]
      · unfold eqPowers
        simp [Function.comp_def]
      · rw [eqWeight_zero]; simp
    · intro x hx
      rw [List.mem_range] at hx
      rw [idx_map_range _ _ _ hx]

theorem trim_spec (g : E.G1) (h : E.G2) (t : List F) (k : Nat) (hk : k ≤ t.length) :
    trim (universalParamOf g h t) k =
      .ok (proverParamOf g h (t.drop (t.length - k)), verifierParamOf g h (t.drop (t.length - k))) := by
  have hl : (t.drop (t.length - k)).length = k := by simp; omega
  have hnv : (universalParamOf g h t).proverParam.numVars = t.length := rfl
  have hpl : (universalParamOf g h t).proverParam.powersOfG.length = t.length + 1 := by simp [universalParamOf, proverParamOf]
  have hml : (universalParamOf g h t).hMask.length = t.length := by simp [universalParamOf]
  unfold trim extractProverParam extractVerifierParam
  rw [if_neg (by omega), if_neg (by omega), if_neg (by omega), ok_bind, ok_bind]
  congr 1
  unfold proverParamOf verifierParamOf
  rw [hl]
  congr 2
  · apply List.ext_getElem
    · simp; omega
    · intro i h1 h2
      simp [List.drop_drop, universalParamOf, proverParamOf]
  · simp [List.map_drop, universalParamOf, proverParamOf]

/-! ### Commit, open, verify -/

theorem msm_zip (g : E.G1) (t : List F) (s : List F) (hs : s.length = 2 ^ t.length) :
    msm (eqPowers g t) s = mle (fun i => s.getD i 0) t • g := by
  unfold msm eqPowers mle
  have : List.zipWith (fun (b : E.G1) (c : F) => c • b) ((List.range (2 ^ t.length)).map fun i => eqWeight t i • g) s =
      (List.range (2 ^ t.length)).map fun i => (s.getD i 0 * eqWeight t i) • g := by
    apply List.ext_getElem
    · simp [hs]
    · intro i h1 h2
      have : i < s.length := by simp at h1; omega
      simp [mul_smul, List.getD_eq_getElem?_getD, this]
  rw [this, Finset.sum_smul, ← List.sum_toFinset _ List.nodup_range]
  apply Finset.sum_congr
  · ext; simp
  · simp

theorem kzgCommit_spec (g : E.G1) (h : E.G2) (t : List F) (p : Mle F) (hp : p.WF) (hn : p.numVars ≤ t.length) :
    kzgCommit (proverParamOf g h t) p = .ok (mle p.tbl (t.drop (t.length - p.numVars)) • g) := by
  have h1 : ¬ (proverParamOf g h t).numVars < p.numVars := by show ¬ t.length < _; omega
  unfold kzgCommit
  rw [if_neg h1]
  simp only [proverParamOf]
  rw [idx_map_range _ _ _ (by omega), ok_bind, msm_zip]
  · rfl
  · have : p.evals.length = 2 ^ p.numVars := hp
    rw [this]; congr 1; simp; omega

/-- The quotient table of one step. -/
def quotTbl (f : Nat → F) (i : Nat) : F := f (2 * i + 1) - f (2 * i)

/-- Exponents of the proof elements. -/
def quotVals : (Nat → F) → List F → List F → List F
  | f, _ :: ts, p :: ps => mle (quotTbl f) ts :: quotVals (foldTbl p f) ts ps
  | _, _, _ => []

theorem quotVals_congr (f f' : Nat → F) (t pt : List F) (hl : t.length = pt.length) (h : ∀ i < 2 ^ pt.length, f i = f' i) :
    quotVals f t pt = quotVals f' t pt := by
  induction t generalizing f f' pt with
  | nil => cases pt <;> simp [quotVals]
  | cons a t ih =>
    cases pt with
    | nil => simp at hl
    | cons p pt =>
      have hl' : t.length = pt.length := by simpa using hl
      rw [List.length_cons, pow_succ] at h
      simp only [quotVals]
      rw [ih (foldTbl p f) (foldTbl p f') pt hl']
      · rw [mle_congr (f := quotTbl f) (g := quotTbl f')]
        intro i hi
        rw [hl'] at hi
        simp only [quotTbl]
        rw [h _ (by omega), h _ (by omega)]
      · intro i hi
        simp only [foldTbl]
        rw [h _ (by omega), h _ (by omega)]

theorem openLoop_spec (g : E.G1) (t pt : List F) (hl : t.length = pt.length) (f : List F) (hf : f.length = 2 ^ pt.length) :
    openLoop pt ((List.range t.length).map fun i => eqPowers g (t.drop (i + 1))) f =
      .ok ((quotVals (fun i => f.getD i 0) t pt).map fun a => a • g) := by
  induction t generalizing pt f with
  | nil =>
    obtain rfl : pt = [] := by simpa using hl.symm
    simp [openLoop, quotVals]
  | cons a t ih =>
    cases pt with
    | nil => simp at hl
    | cons p ps =>
      have hl' : t.length = ps.length := by simpa using hl
      rw [List.length_cons, List.range_succ_eq_map, List.map_cons, List.map_map]
      simp only [Function.comp_def, List.drop_succ_cons, Nat.succ_eq_add_one]
      rw [openLoop, mapM_ok (g := fun b => (quotTbl (fun i => f.getD i 0) b, foldTbl p (fun i => f.getD i 0) b)), ok_bind]
      · rw [ih ps hl' _ (by simp), ok_bind]
        simp only [quotVals, List.map_cons, List.map_map, Function.comp_def, List.drop_zero]
        congr 2
        · rw [msm_zip g t _ (by simp [hl'])]
          congr 1
          apply mle_congr
          intro i hi
          rw [getD_map_range _ _ _ _ (by rw [← hl']; exact hi)]
        · congr 1
          apply quotVals_congr _ _ _ _ hl'
          intro i hi
          rw [getD_map_range _ _ _ _ hi]
      · intro b hb
        rw [List.mem_range] at hb
        rw [List.length_cons, pow_succ] at hf
        rw [idx_getD (by omega), ok_bind, idx_getD (by omega), ok_bind]
        rfl

theorem kzgOpen_spec (g : E.G1) (h : E.G2) (t : List F) (p : Mle F) (hp : p.WF) (hn : p.numVars ≤ t.length) (pt : List F)
    (hpt : pt.length = p.numVars) :
    kzgOpen (proverParamOf g h t) p pt =
      .ok ((quotVals p.tbl (t.drop (t.length - p.numVars)) pt).map (fun a => a • g), mle p.tbl pt) := by
  unfold kzgOpen
  have hev : p.evals.length = 2 ^ p.numVars := hp
  have h1 : ¬ p.numVars > (proverParamOf g h t).numVars := by show ¬ _ > t.length; omega
  have h2 : ¬ (proverParamOf g h t).powersOfG.length < (proverParamOf g h t).numVars - p.numVars + 1 + p.numVars := by
    simp [proverParamOf]; omega
  rw [if_neg h1, if_neg (by simp [hpt])]
  simp only
  rw [if_neg h2]
  simp only [proverParamOf]
  have : (((List.range (t.length + 1)).map fun i => eqPowers (E := E) g (t.drop i)).drop (t.length - p.numVars + 1)).take p.numVars =
      (List.range (t.drop (t.length - p.numVars)).length).map fun i => eqPowers g ((t.drop (t.length - p.numVars)).drop (i + 1)) := by
    apply List.ext_getElem
    · simp; omega
    · intro i h1 h2
      simp [List.drop_drop]
      congr 2; omega
  rw [this, openLoop_spec g _ pt (by simp; omega) p.evals (by rw [hev, hpt]), ok_bind]
  rw [evaluateOpt_eq p hp pt hpt, ok_bind]
  rfl

theorem quot_identity (f : Nat → F) (t pt : List F) (hl : t.length = pt.length) :
    mle f t - mle f pt = (List.zipWith (fun a d => d * a) (quotVals f t pt) (List.zipWith (· - ·) t pt)).sum := by
  induction t generalizing f pt with
  | nil =>
    obtain rfl : pt = [] := by simpa using hl.symm
    simp [quotVals]
  | cons a t ih =>
    cases pt with
    | nil => simp at hl
    | cons p ps =>
      have hl' : t.length = ps.length := by simpa using hl
      simp only [quotVals, List.zipWith_cons_cons, List.sum_cons]
      rw [← ih (foldTbl p f) ps hl', mle_cons, mle_cons]
      have : mle (foldTbl a f) t = mle (foldTbl p f) t + (a - p) * mle (quotTbl f) t := by
        rw [← mle_smul, ← mle_add]
        apply mle_congr
        intro i _
        simp only [foldTbl, quotTbl]; ring
      rw [this]; ring

/-- What the verifier checks, when the parameters come from the trapdoor `t`. -/
theorem kzgVerify_spec (g : E.G1) (h : E.G2) (t : List F) (comm : E.G1) (pt : List F) (v : F) (proof : List E.G1)
    (hpt : pt.length ≤ t.length) :
    kzgVerify (verifierParamOf g h t) comm pt v proof =
      .ok (decide ((List.zipWith (fun x d => d • E.e x h) proof
        (List.zipWith (· - ·) (t.drop (t.length - pt.length)) pt)).sum + E.e (v • g - comm) h = 0)) := by
  have h1 : ¬ (verifierParamOf g h t).numVars < pt.length := by show ¬ t.length < _; omega
  unfold kzgVerify
  rw [if_neg h1]
  simp only [verifierParamOf]
  rw [mapM_ok (g := fun i => (t.getD (t.length - pt.length + i) 0 - pt.getD i 0) • h), ok_bind]
  · congr 2
    have : (List.range pt.length).map (fun i => (t.getD (t.length - pt.length + i) 0 - pt.getD i 0) • h) =
        (List.zipWith (· - ·) (t.drop (t.length - pt.length)) pt).map fun d => d • h := by
      apply List.ext_getElem
      · simp; omega
      · intro i h1 h2
        simp only [List.length_map, List.length_range] at h1
        have : t.length - pt.length + i < t.length := by omega
        simp [List.getD_eq_getElem?_getD, h1, this]
    rw [this, List.zipWith_map_right]
    simp
  · intro i hi
    rw [List.mem_range] at hi
    have : t.length - pt.length + i < t.length := by omega
    rw [idx_ok (a := t.getD (t.length - pt.length + i) 0 • h), ok_bind, idx_getD hi, ok_bind, sub_smul]
    simp [List.getD_eq_getElem?_getD, this]

/-- What the verifier checks on commitments and proofs with known exponents. -/
theorem kzgVerify_exp [DecidableEq F] (g : E.G1) (h : E.G2) (hgh : E.e g h ≠ 0) (t : List F) (c : F) (pt : List F) (v : F) (as : List F)
    (hpt : pt.length ≤ t.length) :
    kzgVerify (verifierParamOf g h t) (c • g) pt v (as.map fun a => a • g) =
      .ok (decide ((List.zipWith (fun a d => d * a) as (List.zipWith (· - ·) (t.drop (t.length - pt.length)) pt)).sum + (v - c) = 0)) := by
  rw [kzgVerify_spec g h t _ pt v _ hpt]
  congr 2
  generalize List.zipWith (· - ·) (t.drop (t.length - pt.length)) pt = ds
  have : (List.zipWith (fun x d => d • E.e x h) (as.map fun a => a • g) ds).sum =
      (List.zipWith (fun a d => d * a) as ds).sum • E.e g h := by
    induction as generalizing ds with
    | nil => simp
    | cons a as ih =>
      cases ds with
      | nil => simp
      | cons d ds => simp [ih, add_smul, mul_smul]
  rw [this, ← sub_smul, map_smul, LinearMap.smul_apply, ← add_smul, smul_eq_zero]
  simp [hgh]

/-- Schwartz-Zippel for functions of bounded degree in each variable. -/
theorem indiv_zero_count [Fintype F] [DecidableEq F] (n d : Nat) (f : List F → F) (hf : IndivDegree f n d) (p : List F)
    (hp : p.length = n) (hne : f p ≠ 0) :
    (Finset.univ.filter fun r : Fin n → F => f (List.ofFn r) = 0).card ≤ n * d * Fintype.card F ^ (n - 1) := by
  induction n generalizing f p with
  | zero =>
    obtain rfl : p = [] := by simpa using hp
    rw [Nat.zero_mul, Nat.zero_mul, Nat.le_zero, Finset.card_eq_zero, Finset.filter_eq_empty_iff]
    intro r _
    simpa using hne
  | succ m ih =>
    cases p with
    | nil => simp at hp
    | cons c0 ps =>
      have hps : ps.length = m := by simpa using hp
      obtain ⟨q, hq, hqe⟩ := hf [] ps (by simp; omega)
      simp only [List.nil_append] at hqe
      have hq0 : q ≠ 0 := by
        rintro rfl
        apply hne
        rw [hqe]; simp
      have hbad : ((Finset.univ : Finset F).filter fun c => f (c :: ps) = 0).card ≤ d := by
        refine le_trans (Finset.card_le_card (t := q.roots.toFinset) ?_) ((Multiset.toFinset_card_le _).trans
          ((Polynomial.card_roots' q).trans hq))
        intro c hc
        rw [Multiset.mem_toFinset, Polynomial.mem_roots hq0, Polynomial.IsRoot, ← hqe]
        exact (Finset.mem_filter.1 hc).2
      rw [card_filter_cons]
      have hterm : ∀ c : F, (Finset.univ.filter fun r : Fin m → F => f (List.ofFn (Fin.cons c r : Fin (m + 1) → F)) = 0).card ≤
          (if f (c :: ps) = 0 then Fintype.card F ^ m else 0) + m * d * Fintype.card F ^ (m - 1) := by
        intro c
        split
        · refine le_trans ?_ (Nat.le_add_right _ _)
          refine (Finset.card_filter_le _ _).trans ?_
          rw [Finset.card_univ, Fintype.card_fun, Fintype.card_fin]
        · next hc =>
          rw [Nat.zero_add]
          have hfc : IndivDegree (fun l => f (c :: l)) m d := by
            intro a b hab
            exact hf (c :: a) b (by simp; omega)
          have := ih (fun l => f (c :: l)) hfc ps hps hc
          simpa only [List.ofFn_cons] using this
      refine (Finset.sum_le_sum fun c _ => hterm c).trans ?_
      rw [Finset.sum_add_distrib, Finset.sum_const, Finset.card_univ, ← Finset.sum_filter, Finset.sum_const, smul_eq_mul,
        smul_eq_mul]
      have e1 := Nat.mul_le_mul_right (Fintype.card F ^ m) hbad
      have e2 : Fintype.card F * (m * d * Fintype.card F ^ (m - 1)) = m * d * Fintype.card F ^ m := by
        cases m with
        | zero => simp
        | succ m => rw [Nat.add_sub_cancel, pow_succ]; ring
      rw [e2, Nat.add_sub_cancel]
      calc _ ≤ d * Fintype.card F ^ m + m * d * Fintype.card F ^ m := Nat.add_le_add_right e1 _
        _ = _ := by ring

/-! ### Elements known as combinations of the parameters -/

theorem msm_general (g : E.G1) (t : List F) (s : List F) :
    msm (eqPowers g t) s =
      ((List.range (min (2 ^ t.length) s.length)).map fun x => s.getD x 0 * eqWeight t x).sum • g := by
  unfold msm eqPowers
  have : List.zipWith (fun (b : E.G1) (c : F) => c • b) ((List.range (2 ^ t.length)).map fun i => eqWeight t i • g) s =
      (List.range (min (2 ^ t.length) s.length)).map fun i => (s.getD i 0 * eqWeight t i) • g := by
    apply List.ext_getElem
    · simp
    · intro i h1 h2
      have : i < s.length := by simp at h1; omega
      simp [mul_smul, List.getD_eq_getElem?_getD, this]
  rw [this]
  generalize List.range (min (2 ^ t.length) s.length) = l
  induction l with
  | nil => simp
  | cons a l ih => rw [List.map_cons, List.sum_cons, ih, List.map_cons, List.sum_cons, add_smul]

theorem algElem_eq (g : E.G1) (h : E.G2) (t : List F) (a : List (List F)) :
    algElem (proverParamOf g h t) a = algExp a t • g := by
  unfold algElem algExp proverParamOf
  simp only
  have : List.zipWith msm ((List.range (t.length + 1)).map fun i => eqPowers (E := E) g (t.drop i)) a =
      (List.range (min (t.length + 1) a.length)).map fun l =>
        ((List.range (min (2 ^ (t.length - l)) (a.getD l []).length)).map fun x =>
          (a.getD l []).getD x 0 * eqWeight (t.drop l) x).sum • g := by
    apply List.ext_getElem
    · simp
    · intro i h1 h2
      have hi : i < a.length := by simp at h1; omega
      simp only [List.getElem_zipWith, List.getElem_map, List.getElem_range]
      rw [msm_general]
      simp [List.getD_eq_getElem?_getD, hi]
  rw [this]
  generalize List.range (min (t.length + 1) a.length) = l
  induction l with
  | nil => simp
  | cons b l ih => rw [List.map_cons, List.sum_cons, ih, List.map_cons, List.sum_cons, add_smul]

theorem indivDegree_list_sum {α : Type} (l : List α) (f : α → List F → F) (n d : Nat) (h : ∀ a ∈ l, IndivDegree (f a) n d) :
    IndivDegree (fun t => (l.map fun a => f a t).sum) n d := by
  intro a b hab
  induction l with
  | nil => exact ⟨0, by simp, by simp⟩
  | cons x l ih =>
    obtain ⟨q, hq, hqe⟩ := ih (fun y hy => h y (List.mem_cons_of_mem _ hy))
    obtain ⟨r, hr, hre⟩ := h x (by simp) a b hab
    refine ⟨r + q, (Polynomial.natDegree_add_le _ _).trans (max_le hr hq), ?_⟩
    intro y
    have h1 := hqe y
    beta_reduce at h1 ⊢
    rw [List.map_cons, List.sum_cons, h1, hre, Polynomial.eval_add]

theorem indivDegree_mono {f : List F → F} {n d d' : Nat} (h : IndivDegree f n d) (hd : d ≤ d') : IndivDegree f n d' := by
  intro a b hab
  obtain ⟨q, hq, hqe⟩ := h a b hab
  exact ⟨q, hq.trans hd, hqe⟩

theorem indivDegree_mul {f g : List F → F} {n d e : Nat} (hf : IndivDegree f n d) (hg : IndivDegree g n e) :
    IndivDegree (fun t => f t * g t) n (d + e) := by
  intro a b hab
  obtain ⟨q, hq, hqe⟩ := hf a b hab
  obtain ⟨r, hr, hre⟩ := hg a b hab
  exact ⟨q * r, Polynomial.natDegree_mul_le.trans (Nat.add_le_add hq hr), fun x => by beta_reduce; rw [hqe, hre, Polynomial.eval_mul]⟩

theorem indivDegree_add {f g : List F → F} {n d : Nat} (hf : IndivDegree f n d) (hg : IndivDegree g n d) :
    IndivDegree (fun t => f t + g t) n d := by
  intro a b hab
  obtain ⟨q, hq, hqe⟩ := hf a b hab
  obtain ⟨r, hr, hre⟩ := hg a b hab
  exact ⟨q + r, (Polynomial.natDegree_add_le _ _).trans (max_le hq hr), fun x => by beta_reduce; rw [hqe, hre, Polynomial.eval_add]⟩

theorem indivDegree_const (c : F) (n d : Nat) : IndivDegree (fun _ => c) n d :=
  fun _ _ _ => ⟨Polynomial.C c, by simp, by simp⟩

theorem indivDegree_getD (i n : Nat) : IndivDegree (fun t : List F => t.getD i 0) n 1 := by
  intro a b _
  rcases Nat.lt_trichotomy i a.length with h | h | h
  · exact ⟨Polynomial.C (a.getD i 0), by simp, fun x => by simp [List.getD_eq_getElem?_getD, List.getElem?_append_left h]⟩
  · exact ⟨Polynomial.X, by simp, fun x => by simp [List.getD_eq_getElem?_getD, h]⟩
  · refine ⟨Polynomial.C (b.getD (i - a.length - 1) 0), by simp, fun x => ?_⟩
    obtain ⟨k, hk⟩ : ∃ k, i - a.length = k + 1 := ⟨i - a.length - 1, by omega⟩
    simp [List.getD_eq_getElem?_getD, List.getElem?_append_right h.le, hk]

theorem eqWeight_affine (a b : List F) (x : Nat) : ∃ u v : F, ∀ y, eqWeight (a ++ y :: b) x = u + v * y := by
  induction a generalizing x with
  | nil =>
    rcases Nat.mod_two_eq_zero_or_one x with h | h
    · exact ⟨eqWeight b (x / 2), - eqWeight b (x / 2), fun y => by rw [List.nil_append, eqWeight_cons, if_neg (by omega)]; ring⟩
    · exact ⟨0, eqWeight b (x / 2), fun y => by rw [List.nil_append, eqWeight_cons, if_pos h]; ring⟩
  | cons c a ih =>
    obtain ⟨u, v, huv⟩ := ih (x / 2)
    refine ⟨(if x % 2 = 1 then c else 1 - c) * u, (if x % 2 = 1 then c else 1 - c) * v, fun y => ?_⟩
    rw [List.cons_append, eqWeight_cons, huv]; ring

theorem indivDegree_eqWeight_drop (l x n : Nat) : IndivDegree (fun t : List F => eqWeight (t.drop l) x) n 1 := by
  intro a b _
  by_cases h : a.length < l
  · refine ⟨Polynomial.C (eqWeight ((a ++ 0 :: b).drop l) x), by simp, fun y => ?_⟩
    rw [Polynomial.eval_C]
    have e : ∀ y : F, (a ++ y :: b).drop l = b.drop (l - a.length - 1) := by
      intro y
      obtain ⟨k, hk⟩ : ∃ k, l - a.length = k + 1 := ⟨l - a.length - 1, by omega⟩
      rw [List.drop_append, List.drop_of_length_le (by omega), hk]
      simp
    beta_reduce
    rw [e, e]
  · have hl : l ≤ a.length := by omega
    obtain ⟨u, v, huv⟩ := eqWeight_affine (a.drop l) b x
    refine ⟨Polynomial.C v * Polynomial.X + Polynomial.C u, Polynomial.natDegree_linear_le, fun y => ?_⟩
    beta_reduce
    rw [List.drop_append_of_le_length hl, huv]
    simp; ring

theorem indivDegree_congr {f g : List F → F} {n d : Nat} (h : ∀ t, t.length = n → f t = g t) (hg : IndivDegree g n d) :
    IndivDegree f n d := by
  intro a b hab
  obtain ⟨q, hq, hqe⟩ := hg a b hab
  exact ⟨q, hq, fun x => by rw [h _ (by simp; omega), hqe]⟩

theorem indivDegree_algExp (a : List (List F)) (n : Nat) : IndivDegree (algExp a) n 1 := by
  apply indivDegree_congr (g := fun t => ((List.range (min (n + 1) a.length)).map fun l =>
    ((List.range (min (2 ^ (n - l)) (a.getD l []).length)).map fun x => (a.getD l []).getD x 0 * eqWeight (t.drop l) x).sum).sum)
  · intro t ht
    unfold algExp
    rw [ht]
  · apply indivDegree_list_sum
    intro l _
    apply indivDegree_list_sum
    intro x _
    have := indivDegree_mul (indivDegree_const ((a.getD l []).getD x 0) n 0) (indivDegree_eqWeight_drop (F := F) l x n)
    simpa using this

theorem indivDegree_mle_drop (f : Nat → F) (l n : Nat) : IndivDegree (fun t => mle f (t.drop l)) n 1 := by
  apply indivDegree_congr (g := fun t => ((List.range (2 ^ (n - l))).map fun x => f x * eqWeight (t.drop l) x).sum)
  · intro t ht
    unfold mle
    rw [List.length_drop, ht, ← List.sum_toFinset _ List.nodup_range]
    apply Finset.sum_congr
    · ext; simp
    · simp
  · apply indivDegree_list_sum
    intro x _
    have := indivDegree_mul (indivDegree_const (f x) n 0) (indivDegree_eqWeight_drop (F := F) l x n)
    simpa using this

theorem zipWith_sum_eq (as ds : List F) :
    (List.zipWith (fun a d => d * a) as ds).sum =
      ((List.range (min as.length ds.length)).map fun i => ds.getD i 0 * as.getD i 0).sum := by
  congr 1
  apply List.ext_getElem
  · simp
  · intro i h1 h2
    have h3 : i < as.length := by simp at h1; omega
    have h4 : i < ds.length := by simp at h1; omega
    simp [List.getD_eq_getElem?_getD, h3, h4]

/-- Core of soundness for provers whose group elements are known combinations of the parameters. -/
theorem alg_core [Fintype F] [DecidableEq F] (n : Nat) (pt : List F) (hpt : pt.length ≤ n) (cexp : List F → F)
    (hc : IndivDegree cexp n 1) (as : List (List (List F))) (v : F) (t' : List F) (ht' : t'.length + pt.length = n)
    (hv : cexp (t' ++ pt) ≠ v) (bad : Finset (Fin n → F))
    (hbad : ∀ r ∈ bad, (List.zipWith (fun a d => d * a) (as.map fun a => algExp a (List.ofFn r))
      (List.zipWith (· - ·) ((List.ofFn r).drop (n - pt.length)) pt)).sum + (v - cexp (List.ofFn r)) = 0) :
    bad.card ≤ n * 2 * Fintype.card F ^ (n - 1) := by
  let f : List F → F := fun t => ((List.range (min as.length pt.length)).map fun i =>
    (t.getD (n - pt.length + i) 0 + -pt.getD i 0) * algExp (as.getD i []) t).sum + (v + -1 * cexp t)
  have hfe : ∀ t : List F, t.length = n → (List.zipWith (fun a d => d * a) (as.map fun a => algExp a t)
      (List.zipWith (· - ·) (t.drop (n - pt.length)) pt)).sum + (v - cexp t) = f t := by
    intro t ht
    simp only [f]
    rw [zipWith_sum_eq, neg_one_mul, ← sub_eq_add_neg]
    congr 2
    have : min (as.map fun a => algExp a t).length (List.zipWith (· - ·) (t.drop (n - pt.length)) pt).length =
        min as.length pt.length := by simp; omega
    rw [this]
    apply List.map_congr_left
    intro i hi
    rw [List.mem_range] at hi
    have h1 : i < as.length := by omega
    have h2 : i < pt.length := by omega
    have h3 : n - pt.length + i < t.length := by omega
    simp [List.getD_eq_getElem?_getD, List.getElem?_zipWith, h1, h2, h3, sub_eq_add_neg]
  have hf : IndivDegree f n 2 := by
    apply indivDegree_add
    · apply indivDegree_list_sum
      intro i _
      exact indivDegree_mul (indivDegree_add (indivDegree_getD _ n) (indivDegree_const _ n 1)) (indivDegree_algExp _ n)
    · apply indivDegree_add (indivDegree_const _ _ _)
      exact indivDegree_mono (indivDegree_mul (indivDegree_const (-1) n 0) hc) (by omega)
  have hne : f (t' ++ pt) ≠ 0 := by
    rw [← hfe _ (by simp; omega)]
    have hd : (t' ++ pt).drop (n - pt.length) = pt := by
      rw [List.drop_append_of_le_length (by omega), List.drop_of_length_le (by omega)]
      simp
    rw [hd]
    have h0 : (List.zipWith (fun a d => d * a) (as.map fun a => algExp a (t' ++ pt)) (List.zipWith (· - ·) pt pt)).sum = 0 := by
      generalize as.map (fun a => algExp a (t' ++ pt)) = es
      clear hd hfe hf hbad hv ht' hpt
      induction pt generalizing es with
      | nil => simp
      | cons p pt ih =>
        cases es with
        | nil => simp
        | cons e es =>
          rw [List.zipWith_cons_cons, List.zipWith_cons_cons, List.sum_cons, ih es]; simp
    rw [h0, zero_add, sub_ne_zero]
    exact hv.symm
  refine le_trans (Finset.card_le_card (t := Finset.univ.filter fun r : Fin n → F => f (List.ofFn r) = 0) ?_)
    (indiv_zero_count n 2 f hf (t' ++ pt) (by simp; omega) hne)
  intro r hr
  rw [Finset.mem_filter]
  exact ⟨Finset.mem_univ _, by rw [← hfe _ (by simp)]; exact hbad r hr⟩

end Zksql
