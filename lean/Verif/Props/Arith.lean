import Verif.Lemmas.Mle3
import Mathlib.Data.ZMod.Basic
import Mathlib.Algebra.Field.ZMod
import Mathlib.Tactic.NormNum.Prime
/-!
# Properties C01-C09, C38: bit utilities and dense multilinear extensions

The specification vocabulary (`Spec.mle`, `Spec.cubeSum`, `Spec.boolPt`) is in `Verif/Spec/Mle.lean`.
-/
namespace Zksql
open Spec
variable {F : Type} [Field F]

instance : Fact (Nat.Prime 7) := ⟨by norm_num⟩

/-! ## C01 -/

/-- C01: projecting the `n`-bit decomposition gives the integer modulo `2^n`. -/
theorem C01_project_bit_decompose (i n : Nat) : project (bitDecompose i n) = i % 2 ^ n :=
  project_bitDecompose i n

/-- C01: decomposing a projection with the vector's length gives the vector back. -/
theorem C01_bit_decompose_project (bs : List Bool) : bitDecompose (project bs) bs.length = bs :=
  bitDecompose_project bs

/-- C01: bit `k` of the decomposition is bit `k` of the integer, and there are `n` of them. -/
theorem C01_bit_decompose_bits (i n : Nat) :
    (bitDecompose i n).length = n ∧ ∀ k < n, (bitDecompose i n)[k]? = some (i.testBit k) :=
  ⟨bitDecompose_length i n, fun k hk => bitDecompose_getElem? i n k hk⟩

/-- C01: for a 64-bit word nothing is lost. -/
theorem C01_u64_round_trip (i : Nat) (h : i < 2 ^ 64) : project (bitDecompose i 64) = i := by
  rw [C01_project_bit_decompose, Nat.mod_eq_of_lt h]

/-- C01: the field version lists the coordinates of the Boolean point of that index. -/
theorem C01_binary_decompose (i n : Nat) : binaryDecompose (F := F) i n = boolPt n i :=
  binaryDecompose_eq_boolPt i n

example : bitDecompose 10 5 = [false, true, false, true, false] ∧ project [false, true, false, true] = 10 := by
  decide

/-! ## C02 -/

/-- C02: `get_index` shifts the index left inside `n` bits, with 0 or 1 entering at the bottom, and reports the bit that fell
out. -/
theorem C02_get_index (i n : Nat) (hn : 0 < n) (hi : i < 2 ^ n) :
    getIndex i n = .ok (2 * i % 2 ^ n, 2 * i % 2 ^ n + 1, i.testBit (n - 1)) := by
  obtain ⟨m, rfl⟩ : ∃ m, n = m + 1 := ⟨n - 1, by omega⟩
  have h0 : m + 1 ≠ 0 := by omega
  simp only [getIndex, if_neg h0, Nat.add_sub_cancel]
  rw [bitDecompose_getElem? _ _ _ (Nat.lt_succ_self m), bitDecompose_take _ _ _ (by omega)]
  simp only [List.cons_append, List.nil_append, project_cons, project_bitDecompose]
  have e : 2 * i % 2 ^ (m + 1) = 2 * (i % 2 ^ m) := by
    rw [pow_succ, Nat.mul_comm (2 ^ m) 2, Nat.mul_mod_mul_left]
  rw [e]
  simp; omega

/-- C02: with no variables the call panics. -/
theorem C02_get_index_zero (i : Nat) : getIndex i 0 = .error .panic := rfl

example : getIndex 0b1010 4 = .ok (0b0100, 0b0101, true) := by decide

/-! ## C03 -/

/-- C03: `evaluate_opt` is the eq-weighted sum of the table. -/
theorem C03_evaluate_opt (p : Mle F) (hp : p.WF) (pt : List F) (h : pt.length = p.numVars) :
    evaluateOpt p pt = .ok (mle p.tbl pt) := by
  have h1 := fixVariables_ok p hp pt h.le
  have h2 := evaluate_eq p hp pt h
  rw [Mle.evaluate, if_pos h.symm] at h2
  simp [evaluateOpt, h, h1, bind, Except.bind, h2]

/-- C03: the library evaluation is the eq-weighted sum of the table. -/
theorem C03_evaluate (p : Mle F) (hp : p.WF) (pt : List F) (h : pt.length = p.numVars) :
    p.evaluate pt = some (mle p.tbl pt) := evaluate_eq p hp pt h

/-- C03: the serial evaluator (in-place loop) computes the same value. -/
theorem C03_evaluate_no_par (p : Mle F) (hp : p.WF) (pt : List F) :
    evaluateNoPar p pt = evaluateOpt p pt := by
  unfold evaluateNoPar evaluateOpt
  rw [fixVariablesNoPar_eq p hp pt]

/-- C03: at the Boolean point of index `i` the value is table entry `i`. -/
theorem C03_evaluate_boolean (p : Mle F) (hp : p.WF) (i : Nat) (hi : i < 2 ^ p.numVars) :
    p.evaluate (boolPt p.numVars i) = some (p.tbl i) := by
  rw [evaluate_eq p hp _ (by simp), mle_boolPt _ _ _ hi]

/-- C03: wrong point lengths are rejected. -/
theorem C03_evaluate_wrong_length (p : Mle F) (pt : List F) (h : pt.length ≠ p.numVars) :
    p.evaluate pt = none ∧ evaluateOpt p pt = .error .panic ∧ evaluateNoPar p pt = .error .panic := by
  refine ⟨evaluate_none p pt h, ?_, ?_⟩
  · rw [evaluateOpt, if_neg (Ne.symm h)]
  · rw [evaluateNoPar, if_neg (Ne.symm h)]

example : (⟨2, [1, 2, 3, 5]⟩ : Mle (ZMod 7)).WF ∧ evaluateOpt (⟨2, [1, 2, 3, 5]⟩ : Mle (ZMod 7)) [3, 4] = .ok 3 := by
  decide

/-! ## C04 -/

/-- C04: fixing leading variables is partial evaluation. -/
theorem C04_fix_variables (p : Mle F) (hp : p.WF) (r : List F) (h : r.length ≤ p.numVars) :
    ∃ q, fixVariables p r = .ok q ∧ q.WF ∧ q.numVars = p.numVars - r.length ∧
      ∀ x, x.length = q.numVars → q.evaluate x = p.evaluate (r ++ x) := by
  obtain ⟨q, h1, h2, h3, h4⟩ := fixVariables_tbl p hp r h
  refine ⟨q, h1, h2, h3, ?_⟩
  intro x hx
  rw [evaluate_eq q h2 x hx, evaluate_eq p hp _ (by rw [List.length_append, hx, h3]; omega), mle_append]
  congr 1
  apply mle_congr
  intro i hi
  exact h4 i (by rw [← hx]; exact hi)

/-- C04: the serial variant is the same function. -/
theorem C04_fix_variables_no_par (p : Mle F) (hp : p.WF) (r : List F) :
    fixVariablesNoPar p r = fixVariables p r := fixVariablesNoPar_eq p hp r

/-- C04: an over-long partial point panics. -/
theorem C04_fix_variables_too_long (p : Mle F) (r : List F) (h : p.numVars < r.length) :
    fixVariables p r = .error .panic ∧ fixVariablesNoPar p r = .error .panic := by
  constructor
  · rw [fixVariables, if_neg (by omega)]
  · rw [fixVariablesNoPar, if_neg (by omega)]

example : fixVariables (⟨2, [1, 2, 3, 5]⟩ : Mle (ZMod 7)) [3] = .ok ⟨1, [4, 2]⟩ := by decide

/-! ## C05 -/

/-- C05: fixing trailing variables is partial evaluation at the end of the point. -/
theorem C05_fix_last_variables (p : Mle F) (hp : p.WF) (r : List F) (h : r.length ≤ p.numVars) :
    ∃ q, fixLastVariables p r = .ok q ∧ q.WF ∧ q.numVars = p.numVars - r.length ∧
      ∀ x, x.length = q.numVars → q.evaluate x = p.evaluate (x ++ r) := by
  obtain ⟨h1, h2⟩ := fixLastLoop_spec p.evals p.numVars r.reverse hp (by simpa using h)
  rw [List.length_reverse] at h1 h2
  refine ⟨⟨p.numVars - r.length, fixLastLoop p.evals p.numVars r.reverse⟩, ?_, h1, rfl, ?_⟩
  · rw [fixLastVariables, if_pos h, Mle.fromEvals, List.take_of_length_le h1.le, if_pos h1]
  · intro x hx
    rw [evaluate_eq ⟨p.numVars - r.length, fixLastLoop p.evals p.numVars r.reverse⟩ h1 x hx,
      evaluate_eq p hp _ (by rw [List.length_append, hx]; simp only; omega)]
    have := h2 x hx
    rw [List.reverse_reverse] at this
    exact congrArg some this

/-- C05: the serial variant agrees on non-empty points and panics on an empty one. -/
theorem C05_fix_last_variables_no_par (p : Mle F) (hp : p.WF) (r : List F) (h : r.length ≤ p.numVars) :
    fixLastVariablesNoPar p r = if r = [] then .error .panic else fixLastVariables p r := by
  have h1 := (fixLastLoop_spec p.evals p.numVars r.reverse hp (by simpa using h)).1
  rw [List.length_reverse] at h1
  unfold fixLastVariablesNoPar
  split
  · rfl
  · rw [fixLastNoParLoop_eq _ _ (by simpa using h), fixLastVariables, if_pos h, Mle.fromEvals,
      List.take_of_length_le h1.le, if_pos h1, List.length_reverse]

example : fixLastVariables (⟨2, [1, 2, 3, 5]⟩ : Mle (ZMod 7)) [3] = .ok ⟨1, [0, 4]⟩ := by decide

/-! ## C06 -/

/-- C06 as stated: both builds fix a variable identically. -/
def C06_statement (F : Type) [Field F] : Prop :=
  ∀ (nv : Nat) (data : List F) (r : F), 0 < nv → data.length = 2 ^ nv → fixOneSer data nv r = fixOnePar data nv r

/-- C06 is false in every field: the build without `parallel` reads `data[i]` instead of `data[2i]`. -/
theorem C06_violated : ¬ C06_statement F := by
  intro h
  have := h 2 [0, 0, 1, 1] 0 (by omega) rfl
  simp [fixOneSer, fixOnePar, List.range_succ] at this

/-- C06, what holds: the builds agree on one-variable tables and always on entry 0.  Missing: entries above 0, where the
serial build is wrong. -/
theorem C06_serial_parallel_partial (data : List F) (nv : Nat) (r : F) :
    (fixOneSer data nv r).getD 0 0 = (fixOnePar data nv r).getD 0 0 ∧
      (nv ≤ 1 → fixOneSer data nv r = fixOnePar data nv r) := by
  constructor
  · rw [fixOneSer, fixOnePar, getD_map_range _ _ _ _ (by positivity), getD_map_range _ _ _ _ (by positivity)]
  · intro h
    have : nv - 1 = 0 := by omega
    simp [fixOneSer, fixOnePar, this]

example : fixOneSer ([0, 0, 1, 1] : List (ZMod 7)) 2 3 = [0, 0] ∧
    fixOnePar ([0, 0, 1, 1] : List (ZMod 7)) 2 3 = [0, 1] := by decide

/-! ## C07 -/

/-- C07: merging puts the `i`-th table at the `i`-th merged point, on `n + ceil(log2 k)` variables. -/
theorem C07_merge_polynomials (ps : List (Mle F)) (n : Nat) (hne : ps ≠ [])
    (hn : ∀ p ∈ ps, p.numVars = n) (hw : ∀ p ∈ ps, p.WF) :
    ∃ q, mergePolynomials ps = .ok q ∧ q.WF ∧ q.numVars = n + log2Ceil ps.length ∧
      (∀ i (hi : i < ps.length) (pt : List F), pt.length = n →
        q.evaluate (genEvalPoint i (log2Ceil ps.length) pt) = (ps[i]).evaluate pt) ∧
      (∀ k, ps.length * 2 ^ n ≤ k → k < 2 ^ q.numVars → q.tbl k = 0) := by
  obtain ⟨p0, rest, rfl⟩ := List.exists_cons_of_ne_nil hne
  set ps := p0 :: rest with hps
  have h0 : p0.numVars = n := hn p0 (List.mem_cons_self)
  have hall : ps.all (fun p => p0.numVars == p.numVars) = true := by
    simp only [List.all_eq_true, beq_iff_eq]
    intro p hp; rw [h0, hn p hp]
  have hc : ∀ l ∈ ps.map Mle.evals, l.length = 2 ^ n := by
    intro l hl
    obtain ⟨p, hp, rfl⟩ := List.mem_map.1 hl
    rw [hw p hp, hn p hp]
  have hlen := flatten_length_const _ _ hc
  rw [List.length_map] at hlen
  have hle : (ps.map Mle.evals).flatten.length ≤ 2 ^ (n + log2Ceil ps.length) := by
    rw [hlen, pow_add, Nat.mul_comm]
    exact Nat.mul_le_mul_left _ (le_two_pow_log2Ceil _)
  have hlen2 : ((ps.map Mle.evals).flatten ++ List.replicate
      (2 ^ (n + log2Ceil ps.length) - (ps.map Mle.evals).flatten.length) (0 : F)).length
      = 2 ^ (n + log2Ceil ps.length) := by
    rw [List.length_append, List.length_replicate]; omega
  have hwf : Mle.WF (⟨n + log2Ceil ps.length, (ps.map Mle.evals).flatten ++ List.replicate
      (2 ^ (n + log2Ceil ps.length) - (ps.map Mle.evals).flatten.length) (0 : F)⟩ : Mle F) := hlen2
  refine ⟨_, ?_, hwf, rfl, ?_, ?_⟩
  · have : mergePolynomials ps = if ps.all (fun p => p0.numVars == p.numVars) then
        (if (ps.map Mle.evals).flatten.length ≤ 2 ^ getBatchedNv p0.numVars ps.length then
          Mle.fromEvals (getBatchedNv p0.numVars ps.length) ((ps.map Mle.evals).flatten ++ List.replicate
            (2 ^ getBatchedNv p0.numVars ps.length - (ps.map Mle.evals).flatten.length) 0)
          else .error .panic) else .error (.err .invalidParameters) := rfl
    rw [this, if_pos hall, getBatchedNv, h0, if_pos hle, Mle.fromEvals, if_pos hlen2]
  · intro i hi pt hpt
    have hmem : ps[i] ∈ ps := List.getElem_mem hi
    rw [evaluate_eq _ hwf _ (by simp [genEvalPoint, bitDecompose_length, hpt]),
      evaluate_eq _ (hw _ hmem) _ (by rw [hpt, hn _ hmem]), genEvalPoint]
    have hb : (bitDecompose i (log2Ceil ps.length)).map boolF = boolPt (F := F) (log2Ceil ps.length) i :=
      binaryDecompose_eq_boolPt i _
    rw [hb, mle_append, mle_boolPt _ _ _ (lt_of_lt_of_le hi (le_two_pow_log2Ceil _))]
    congr 1
    apply mle_congr
    intro j hj
    rw [hpt] at hj ⊢
    have hlt : i * 2 ^ n + j < ps.length * 2 ^ n := by
      calc i * 2 ^ n + j < i * 2 ^ n + 2 ^ n := by omega
        _ = (i + 1) * 2 ^ n := by ring
        _ ≤ ps.length * 2 ^ n := Nat.mul_le_mul_right _ hi
    simp only [Mle.tbl]
    rw [List.getD_append _ _ _ _ (by rw [hlen]; exact hlt),
      flatten_getD _ _ hc i j (by simpa using hi) hj]
    simp
  · intro k hk1 hk2
    simp only [Mle.tbl]
    rw [List.getD_append_right _ _ _ _ (by rw [hlen]; exact hk1)]
    rw [List.getD_eq_getElem?_getD, List.getElem?_replicate]
    split <;> rfl

/-- C07: lists of unequal sizes are rejected with an error, the empty list panics. -/
theorem C07_merge_rejects (p0 : Mle F) (rest : List (Mle F)) (h : ∃ p ∈ rest, p.numVars ≠ p0.numVars) :
    mergePolynomials (p0 :: rest) = .error (.err .invalidParameters) ∧
      mergePolynomials ([] : List (Mle F)) = .error .panic := by
  refine ⟨?_, rfl⟩
  have : ¬ ((p0 :: rest).all (fun p => p0.numVars == p.numVars) = true) := by
    obtain ⟨p, hp, hne⟩ := h
    intro hall
    simp only [List.all_eq_true, beq_iff_eq] at hall
    exact hne (hall p (List.mem_cons_of_mem _ hp)).symm
  unfold mergePolynomials
  simp only
  rw [if_neg this]

example : mergePolynomials ([⟨1, [1, 2]⟩, ⟨1, [3, 4]⟩, ⟨1, [5, 6]⟩] : List (Mle (ZMod 7)))
    = .ok ⟨3, [1, 2, 3, 4, 5, 6, 0, 0]⟩ := by decide

/-! ## C08 -/

/-- C08: whatever is drawn, the reported sum is the hypercube sum of the product of the returned tables. -/
theorem C08_random_mle_list (nv degree : Nat) (tape : Nat → F) :
    ∃ list sum, randomMleList nv degree tape = .ok (list, sum) ∧ list.length = degree ∧
      (∀ p ∈ list, p.WF ∧ p.numVars = nv) ∧
      sum = cubeSum nv (fun i => (list.map (fun p => p.tbl i)).prod) := by
  have hm : (List.range degree).mapM (fun j =>
      Mle.fromEvals nv ((List.range (2 ^ nv)).map fun i => tape (i * degree + j)))
      = .ok ((List.range degree).map fun j =>
        ⟨nv, (List.range (2 ^ nv)).map fun i => tape (i * degree + j)⟩) := by
    apply mapM_ok
    intro j _
    rw [Mle.fromEvals, if_pos (by simp)]
  refine ⟨_, _, by rw [randomMleList, hm]; rfl, by simp, ?_, ?_⟩
  · intro p hp
    obtain ⟨j, _, rfl⟩ := List.mem_map.1 hp
    exact ⟨by simp [Mle.WF], rfl⟩
  · rw [foldl_add_eq_sum, zero_add, cubeSum]
    apply Finset.sum_congr rfl
    intro i hi
    rw [foldl_mul_eq_prod, one_mul, List.map_map, list_prod_range]
    apply Finset.prod_congr rfl
    intro j _
    simp only [Function.comp, Mle.tbl]
    rw [getD_map_range _ _ _ _ (Finset.mem_range.1 hi)]

/-- C08: the zero variant vanishes at every hypercube point; a zero-length product panics. -/
theorem C08_random_zero_mle_list (nv degree : Nat) (tape : Nat → F) (hd : 0 < degree) :
    ∃ list, randomZeroMleList nv degree tape = .ok list ∧ list.length = degree ∧
      (∀ p ∈ list, p.WF ∧ p.numVars = nv) ∧
      ∀ i < 2 ^ nv, (list.map (fun p => p.tbl i)).prod = 0 := by
  have hm : (List.range degree).mapM (fun j =>
      Mle.fromEvals nv ((List.range (2 ^ nv)).map fun i => if j = 0 then 0 else tape (i * (degree - 1) + (j - 1))))
      = .ok ((List.range degree).map fun j =>
        ⟨nv, (List.range (2 ^ nv)).map fun i => if j = 0 then 0 else tape (i * (degree - 1) + (j - 1))⟩) := by
    apply mapM_ok
    intro j _
    rw [Mle.fromEvals, if_pos (by simp)]
  refine ⟨_, by rw [randomZeroMleList, if_neg (by omega), hm], by simp, ?_, ?_⟩
  · intro p hp
    obtain ⟨j, _, rfl⟩ := List.mem_map.1 hp
    exact ⟨by simp [Mle.WF], rfl⟩
  · intro i hi
    rw [List.map_map, list_prod_range]
    apply Finset.prod_eq_zero (Finset.mem_range.2 hd)
    simp only [Function.comp, Mle.tbl]
    rw [getD_map_range _ _ _ _ hi]
    simp

theorem C08_random_zero_degree_zero (nv : Nat) (tape : Nat → F) :
    randomZeroMleList nv 0 tape = .error .panic := rfl

example : randomMleList 1 2 (fun k => (k + 1 : ZMod 7)) = .ok ([⟨1, [1, 3]⟩, ⟨1, [2, 4]⟩], 0) := by decide

/-! ## C09 -/

/-- C09: `random_permutation` rearranges `0 .. k*2^n`, whatever is drawn. -/
theorem C09_random_permutation (n k : Nat) (tape : Nat → Nat) :
    List.Perm (randomPermutation (F := F) n k tape) ((List.range (k * 2 ^ n)).map (fun i : Nat => (i : F))) := by
  have h := drawAll_perm tape 0 (identityPermutation (F := F) n k)
  have hl : (identityPermutation (F := F) n k).length = k * 2 ^ n := by simp [identityPermutation]
  rw [hl] at h
  exact h

/-- C09: the permutation tables are well formed and concatenate to the permutation. -/
theorem C09_random_permutation_mles (n k : Nat) (tape : Nat → Nat) :
    ∃ ps, randomPermutationMles (F := F) n k tape = .ok ps ∧ ps.length = k ∧
      (∀ p ∈ ps, p.WF ∧ p.numVars = n) ∧
      (ps.map Mle.evals).flatten = randomPermutation (F := F) n k tape := by
  set v := randomPermutation (F := F) n k tape with hv
  have hlv : v.length = k * 2 ^ n := by
    rw [hv, (C09_random_permutation n k tape).length_eq]; simp
  have hchunk : ∀ i < k, ((v.drop (i * 2 ^ n)).take (2 ^ n)).length = 2 ^ n := by
    intro i hi
    rw [List.length_take, List.length_drop, hlv]
    have : (i + 1) * 2 ^ n ≤ k * 2 ^ n := Nat.mul_le_mul_right _ hi
    have e : (i + 1) * 2 ^ n = i * 2 ^ n + 2 ^ n := by ring
    omega
  refine ⟨(List.range k).map fun i => ⟨n, (v.drop (i * 2 ^ n)).take (2 ^ n)⟩, ?_, by simp, ?_, ?_⟩
  · apply mapM_ok
    intro i hi
    rw [Mle.fromEvals, if_pos]
    exact hchunk i (List.mem_range.1 hi)
  · intro p hp
    obtain ⟨i, hi, rfl⟩ := List.mem_map.1 hp
    exact ⟨hchunk i (List.mem_range.1 hi), rfl⟩
  · rw [List.map_map]
    have key : ∀ m ≤ k, ((List.range m).map (fun i => (v.drop (i * 2 ^ n)).take (2 ^ n))).flatten
        = v.take (m * 2 ^ n) := by
      intro m hm
      induction m with
      | zero => simp
      | succ m ih =>
        rw [List.range_succ, List.map_append, List.flatten_append, ih (by omega)]
        simp only [List.map_cons, List.map_nil, List.flatten_cons, List.flatten_nil, List.append_nil]
        rw [Nat.succ_mul, List.take_add]
    have := key k le_rfl
    rw [List.take_of_length_le (by omega)] at this
    exact this

/-- C09: the identity tables concatenate to the identity permutation `0, 1, 2, ...`. -/
theorem C09_identity_permutation_mles (n k : Nat) :
    ∃ ps, identityPermutationMles (F := F) n k = .ok ps ∧ ps.length = k ∧
      (∀ p ∈ ps, p.WF ∧ p.numVars = n) ∧
      ∀ i (hi : i < ps.length), ∀ j < 2 ^ n, (ps[i]).tbl j = ((i * 2 ^ n + j : Nat) : F) := by
  refine ⟨(List.range k).map fun i => ⟨n, (List.range (2 ^ n)).map
      fun j => ((i * 2 ^ n + j : Nat) : F)⟩, ?_, by simp, ?_, ?_⟩
  · apply mapM_ok
    intro i _
    rw [Mle.fromEvals, if_pos (by simp)]
  · intro p hp
    obtain ⟨i, _, rfl⟩ := List.mem_map.1 hp
    exact ⟨by simp [Mle.WF], rfl⟩
  · intro i hi j hj
    simp only [List.getElem_map, List.getElem_range, Mle.tbl]
    rw [getD_map_range _ _ _ _ hj]

example : randomPermutation (F := ZMod 7) 1 2 (fun k => 2 * k + 5) = [1, 2, 3, 0] := by decide

/-! ## C38 (tables) -/

/-- C38: adding `k` variables at the front gives `q(z, x) = p(x)`, and the hypercube sum grows by `2^k`. -/
theorem C38_increase_nv_front (p : Mle F) (hp : p.WF) (k : Nat) :
    ∃ q, increaseNvFront p (p.numVars + k) = .ok q ∧ q.WF ∧ q.numVars = p.numVars + k ∧
      (∀ z x : List F, z.length = k → x.length = p.numVars → q.evaluate (z ++ x) = p.evaluate x) ∧
      cubeSum q.numVars q.tbl = 2 ^ k * cubeSum p.numVars p.tbl := by
  obtain ⟨q, h1, h2, h3, h4⟩ := increaseNvFront_spec p k
  refine ⟨q, h1, h2 hp, h3, ?_, ?_⟩
  · intro z x hz hx
    rw [evaluate_eq q (h2 hp) _ (by rw [List.length_append, hz, hx, h3]; omega), evaluate_eq p hp x hx]
    congr 1
    apply mle_append_ignore_front
    intro i j hj hi
    rw [hz] at hj ⊢
    exact h4 i j (by rw [← hx]; exact hi) hj
  · rw [h3, Nat.add_comm, cubeSum_add, cubeSum, Finset.mul_sum]
    apply Finset.sum_congr rfl
    intro i hi
    rw [Finset.sum_congr rfl (fun j hj => h4 i j (Finset.mem_range.1 hi) (Finset.mem_range.1 hj))]
    simp

/-- C38: adding `k` variables at the back gives `q(x, z) = p(x)`, and the hypercube sum grows by `2^k`. -/
theorem C38_increase_nv_back (p : Mle F) (hp : p.WF) (k : Nat) :
    ∃ q, increaseNvBack p (p.numVars + k) = .ok q ∧ q.WF ∧ q.numVars = p.numVars + k ∧
      (∀ x z : List F, x.length = p.numVars → z.length = k → q.evaluate (x ++ z) = p.evaluate x) ∧
      cubeSum q.numVars q.tbl = 2 ^ k * cubeSum p.numVars p.tbl := by
  obtain ⟨q, h1, h2, h3, h4⟩ := increaseNvBack_spec p k
  have key : ∀ i j, i < 2 ^ k → j < 2 ^ p.numVars → q.tbl (i * 2 ^ p.numVars + j) = p.tbl j := by
    intro i j hi hj
    rw [h4]
    · rw [Nat.mul_comm, Nat.mul_add_mod, Nat.mod_eq_of_lt hj]
    · rw [pow_add]
      calc i * 2 ^ p.numVars + j < i * 2 ^ p.numVars + 2 ^ p.numVars := by omega
        _ = 2 ^ p.numVars * (i + 1) := by ring
        _ ≤ _ := Nat.mul_le_mul_left _ hi
  refine ⟨q, h1, h2 hp, h3, ?_, ?_⟩
  · intro x z hx hz
    rw [evaluate_eq q (h2 hp) _ (by rw [List.length_append, hz, hx, h3]), evaluate_eq p hp x hx, mle_append]
    congr 1
    rw [← mle_const (mle p.tbl x) z]
    apply mle_congr
    intro i hi
    apply mle_congr
    intro j hj
    rw [hx] at hj ⊢
    exact key i j (by rw [← hz]; exact hi) hj
  · rw [h3, cubeSum_add, Finset.sum_congr rfl (g := fun _ => cubeSum p.numVars p.tbl)]
    · simp
    · intro i hi
      apply Finset.sum_congr rfl
      intro j hj
      exact key i j (Finset.mem_range.1 hi) (Finset.mem_range.1 hj)

/-- C38: shrinking panics. -/
theorem C38_shrinking_panics (p : Mle F) (n : Nat) (h : n < p.numVars) :
    increaseNvFront p n = .error .panic ∧ increaseNvBack p n = .error .panic := by
  constructor
  · rw [increaseNvFront, if_neg (by omega), if_pos h]
  · rw [increaseNvBack, if_neg (by omega), if_pos h]

example : increaseNvFront (⟨1, [1, 2]⟩ : Mle (ZMod 7)) 2 = .ok ⟨2, [1, 1, 2, 2]⟩ ∧
    increaseNvBack (⟨1, [1, 2]⟩ : Mle (ZMod 7)) 2 = .ok ⟨2, [1, 2, 1, 2]⟩ := by decide

end Zksql
