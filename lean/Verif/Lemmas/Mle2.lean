import Verif.Lemmas.Mle
import Mathlib.Algebra.BigOperators.Fin
/-! Helper lemmas: serial evaluation, trailing variables, merging, resizing, random lists. -/
namespace Zksql
open Spec
variable {F : Type} [Field F]

/-! ### Serial in-place evaluation -/

theorem fixInPlace_length (r : F) (cnt : Nat) (l : List F) :
    (fixInPlace r cnt l).length = l.length := by
  induction cnt with
  | zero => rfl
  | succ b ih => simp [fixInPlace, ih]

theorem getD_set {l : List F} {i j : Nat} {a : F} :
    (l.set i a).getD j 0 = if i = j ∧ i < l.length then a else l.getD j 0 := by
  simp only [List.getD_eq_getElem?_getD, List.getElem?_set]
  split
  · rename_i h
    subst h
    split
    · rename_i h2; simp [h2]
    · rename_i h2
      simp only [h2, and_false, if_false]
      rw [List.getElem?_eq_none (by omega)]
  · rename_i h; simp [h]

theorem fixInPlace_getD (r : F) (cnt : Nat) (l : List F) (h : 2 * cnt ≤ l.length) (i : Nat) :
    (fixInPlace r cnt l).getD i 0 =
      if i < cnt then foldTbl r (fun k => l.getD k 0) i else l.getD i 0 := by
  induction cnt generalizing i with
  | zero => simp [fixInPlace]
  | succ b ih =>
    have ih' := ih (by omega)
    simp only [fixInPlace, getD_set, fixInPlace_length, ih']
    by_cases hb : b = i
    · subst hb
      have h1 : ¬ (2 * b < b) := by omega
      have h2 : ¬ (2 * b + 1 < b) := by omega
      have h3 : b < l.length := by omega
      simp [h1, h2, h3, foldTbl]
    · by_cases hi : i < b
      · have : i < b + 1 := by omega
        simp [hb, hi, this]
      · have : ¬ i < b + 1 := by omega
        simp [hb, hi, this]

/-- Tables agreeing on the live prefix give the same serial result on the live prefix. -/
theorem fixLoopNoPar_getD (data data' : List F) (nv : Nat) (pt : List F) (hl : 2 ^ nv ≤ data.length)
    (hag : ∀ i < 2 ^ nv, data.getD i 0 = data'.getD i 0) (h : pt.length ≤ nv) (i : Nat)
    (hi : i < 2 ^ (nv - pt.length)) :
    (fixLoopNoPar data nv pt).getD i 0 = (fixLoop data' nv pt).getD i 0 := by
  induction pt generalizing data data' nv with
  | nil => simpa [fixLoop, fixLoopNoPar] using hag i (by simpa using hi)
  | cons r rs ih =>
    simp only [List.length_cons] at h hi
    have e : nv - (rs.length + 1) = nv - 1 - rs.length := by omega
    have e2 : 2 * 2 ^ (nv - 1) = 2 ^ nv := by
      rw [← pow_succ']; congr 1; omega
    rw [fixLoop, fixLoopNoPar]
    apply ih
    · rw [fixInPlace_length]; omega
    · intro k hk
      rw [fixInPlace_getD _ _ _ (by omega), if_pos hk, fixOnePar_getD _ _ _ _ hk]
      simp only [foldTbl]
      rw [hag (2 * k) (by omega), hag (2 * k + 1) (by omega)]
    · omega
    · rw [← e]; exact hi

theorem fixLoopNoPar_length (data : List F) (nv : Nat) (pt : List F) :
    (fixLoopNoPar data nv pt).length = data.length := by
  induction pt generalizing data nv with
  | nil => rfl
  | cons r rs ih => rw [fixLoopNoPar, ih, fixInPlace_length]

theorem list_ext_getD {l l' : List F} (hl : l.length = l'.length)
    (h : ∀ i < l.length, l.getD i 0 = l'.getD i 0) : l = l' := by
  apply List.ext_getElem hl
  intro i h1 h2
  have := h i h1
  simpa [List.getD_eq_getElem?_getD, h1, h2] using this

theorem getD_take {l : List F} {n i : Nat} (h : i < n) : (l.take n).getD i 0 = l.getD i 0 := by
  simp [List.getD_eq_getElem?_getD, h]

theorem fixVariablesNoPar_eq (p : Mle F) (hp : p.WF) (pt : List F) :
    fixVariablesNoPar p pt = fixVariables p pt := by
  unfold fixVariablesNoPar fixVariables
  split
  · rename_i h
    congr 1
    have hl := fixLoop_length p.evals p.numVars pt hp h
    have hle : 2 ^ (p.numVars - pt.length) ≤ p.evals.length := by
      rw [hp]; exact Nat.pow_le_pow_right (by omega) (by omega)
    apply list_ext_getD
    · simp [fixLoopNoPar_length, hl, hle]
    · intro i hi
      have hi' : i < 2 ^ (p.numVars - pt.length) := by
        simp only [List.length_take] at hi; omega
      rw [getD_take hi', getD_take hi']
      exact fixLoopNoPar_getD _ _ _ _ hp.ge (fun _ _ => rfl) h _ hi'
  · rfl

/-! ### Trailing variables -/

theorem fixLastOne_length (data : List F) (nv : Nat) (r : F) :
    (fixLastOne data nv r).length = 2 ^ (nv - 1) := by simp [fixLastOne]

theorem mle_concat (f : Nat → F) (a : List F) (r : F) :
    mle f (a ++ [r]) = mle (fun j => f j + (f (j + 2 ^ a.length) - f j) * r) a := by
  rw [mle_append]
  rw [mle_cons, mle_nil, foldTbl]
  simp only [Nat.mul_zero, Nat.zero_mul, Nat.zero_add, Nat.one_mul]
  rw [mle_add]
  congr 1
  rw [← mle_sub, mul_comm, ← mle_smul]
  apply mle_congr
  intro i _
  rw [Nat.add_comm (2 ^ a.length) i]; ring

theorem fixLastLoop_spec (data : List F) (nv : Nat) (rev : List F) (hl : data.length = 2 ^ nv)
    (h : rev.length ≤ nv) :
    (fixLastLoop data nv rev).length = 2 ^ (nv - rev.length) ∧
    ∀ x : List F, x.length = nv - rev.length →
      mle (fun i => (fixLastLoop data nv rev).getD i 0) x
        = mle (fun i => data.getD i 0) (x ++ rev.reverse) := by
  induction rev generalizing data nv with
  | nil => exact ⟨by simpa [fixLastLoop] using hl, fun x _ => by simp [fixLastLoop]⟩
  | cons r rs ih =>
    simp only [List.length_cons] at h
    have e : nv - (rs.length + 1) = nv - 1 - rs.length := by omega
    obtain ⟨h1, h2⟩ := ih (fixLastOne data nv r) (nv - 1) (fixLastOne_length _ _ _) (by omega)
    refine ⟨by rw [fixLastLoop, h1, List.length_cons, e], ?_⟩
    intro x hx
    rw [List.length_cons, e] at hx
    rw [fixLastLoop, h2 x hx, List.reverse_cons, ← List.append_assoc, mle_concat]
    have hlen : (x ++ rs.reverse).length = nv - 1 := by simp; omega
    apply mle_congr
    intro i hi
    rw [hlen] at hi ⊢
    rw [fixLastOne, getD_map_range _ _ _ _ hi]

theorem fixLastVariableNoPar_eq (p : Mle F) (r : F) (h : p.numVars ≠ 0) :
    fixLastVariableNoPar p r = .ok ⟨p.numVars - 1, fixLastOne p.evals p.numVars r⟩ := by
  rw [fixLastVariableNoPar, if_neg h, Mle.fromEvals, if_pos (by simp)]
  congr 2
  apply List.map_congr_left
  intro i _
  simp only [Mle.tbl]; ring

theorem fixLastNoParLoop_eq (p : Mle F) (rs : List F) (h : rs.length ≤ p.numVars) :
    fixLastNoParLoop p rs = .ok ⟨p.numVars - rs.length, fixLastLoop p.evals p.numVars rs⟩ := by
  induction rs generalizing p with
  | nil => simp [fixLastNoParLoop, fixLastLoop]
  | cons r rs ih =>
    simp only [List.length_cons] at h
    rw [fixLastNoParLoop, fixLastVariableNoPar_eq p r (by omega)]
    simp only [bind, Except.bind]
    rw [ih _ (by simp; omega)]
    simp only [List.length_cons, fixLastLoop]
    congr 2
    omega

/-! ### log2 -/

theorem le_two_pow_log2Ceil (x : Nat) : x ≤ 2 ^ log2Ceil x := by
  unfold log2Ceil
  split
  · omega
  · split
    · omega
    · exact (Nat.lt_log2_self).le

/-! ### bits -/

theorem bitDecompose_length (i n : Nat) : (bitDecompose i n).length = n := by
  induction n generalizing i with
  | zero => rfl
  | succ n ih => simp [bitDecompose, ih]

theorem project_cons (b : Bool) (bs : List Bool) : project (b :: bs) = b.toNat + 2 * project bs := by
  simp [project]; omega

theorem project_nil : project [] = 0 := rfl

theorem project_bitDecompose (i n : Nat) : project (bitDecompose i n) = i % 2 ^ n := by
  induction n generalizing i with
  | zero => simp [bitDecompose, project_nil, Nat.mod_one]
  | succ n ih =>
    rw [bitDecompose, project_cons, ih, pow_succ, Nat.mul_comm (2 ^ n) 2, Nat.mod_mul]
    rcases Nat.mod_two_eq_zero_or_one i with h | h <;> simp [h]

theorem project_lt (bs : List Bool) : project bs < 2 ^ bs.length := by
  induction bs with
  | nil => simp [project_nil]
  | cons b bs ih =>
    rw [project_cons, List.length_cons, pow_succ]
    have := Bool.toNat_le b
    omega

theorem bitDecompose_project (bs : List Bool) : bitDecompose (project bs) bs.length = bs := by
  induction bs with
  | nil => rfl
  | cons b bs ih =>
    rw [project_cons, List.length_cons, bitDecompose]
    have h1 : (b.toNat + 2 * project bs) / 2 = project bs := by
      have := Bool.toNat_le b; omega
    rw [h1, ih]
    congr 1
    cases b <;> simp

theorem bitDecompose_take (i n k : Nat) (h : k ≤ n) : (bitDecompose i n).take k = bitDecompose i k := by
  induction k generalizing i n with
  | zero => simp [bitDecompose]
  | succ k ih =>
    obtain ⟨m, rfl⟩ : ∃ m, n = m + 1 := ⟨n - 1, by omega⟩
    simp [bitDecompose, ih (i / 2) m (by omega)]

theorem bitDecompose_getElem? (i n k : Nat) (h : k < n) :
    (bitDecompose i n)[k]? = some (i.testBit k) := by
  induction k generalizing i n with
  | zero =>
    obtain ⟨m, rfl⟩ : ∃ m, n = m + 1 := ⟨n - 1, by omega⟩
    rcases Nat.mod_two_eq_zero_or_one i with h | h <;> simp [bitDecompose, Nat.testBit_zero, h]
  | succ k ih =>
    obtain ⟨m, rfl⟩ : ∃ m, n = m + 1 := ⟨n - 1, by omega⟩
    simp only [bitDecompose, List.getElem?_cons_succ]
    rw [ih _ _ (by omega), Nat.testBit_succ]

/-! ### resizing -/

theorem flatMap_replicate_length {α : Type*} (n c : Nat) (g : Nat → α) :
    ((List.range n).flatMap fun i => List.replicate c (g i)).length = n * c := by
  simp

theorem flatMap_replicate_getD (n c : Nat) (g : Nat → F) (i : Nat) (hi : i < n) (j : Nat) (hj : j < c) :
    ((List.range n).flatMap fun i => List.replicate c (g i)).getD (i * c + j) 0 = g i := by
  induction n with
  | zero => omega
  | succ n ih =>
    rw [List.range_succ, List.flatMap_append]
    have hlen := flatMap_replicate_length n c g
    by_cases h : i < n
    · have hlt : i * c + j < n * c := by
        calc i * c + j < i * c + c := by omega
          _ = (i + 1) * c := by ring
          _ ≤ n * c := Nat.mul_le_mul_right _ h
      rw [List.getD_append _ _ _ _ (by rw [hlen]; exact hlt)]
      exact ih h
    · have : i = n := by omega
      subst this
      rw [List.getD_append_right _ _ _ _ (by rw [hlen]; omega), hlen]
      simp [hj]

theorem increaseNvFront_spec (p : Mle F) (k : Nat) :
    ∃ q, increaseNvFront p (p.numVars + k) = .ok q ∧ (p.WF → q.WF) ∧ q.numVars = p.numVars + k ∧
      ∀ i j, i < 2 ^ p.numVars → j < 2 ^ k → q.tbl (i * 2 ^ k + j) = p.tbl i := by
  by_cases hk : k = 0
  · subst hk
    refine ⟨p, by simp [increaseNvFront], id, rfl, ?_⟩
    intro i j _ hj
    have : j = 0 := by simpa using hj
    simp [this]
  · have hdiv : 2 ^ (p.numVars + k) / 2 ^ p.numVars = 2 ^ k := by
      rw [pow_add, Nat.mul_div_cancel_left _ (by positivity)]
    have hlen : ((List.range (2 ^ p.numVars)).flatMap
        fun i => List.replicate (2 ^ k) (p.tbl i)).length = 2 ^ (p.numVars + k) := by
      rw [flatMap_replicate_length, pow_add]
    refine ⟨⟨p.numVars + k, (List.range (2 ^ p.numVars)).flatMap
        fun i => List.replicate (2 ^ k) (p.tbl i)⟩, ?_, fun _ => hlen, rfl, ?_⟩
    · simp only [increaseNvFront, hdiv]
      rw [if_neg (by omega), if_neg (by omega), Mle.fromEvals, if_pos hlen]
    · intro i j hi hj
      exact flatMap_replicate_getD _ _ _ i hi j hj

theorem increaseNvBack_spec (p : Mle F) (k : Nat) :
    ∃ q, increaseNvBack p (p.numVars + k) = .ok q ∧ (p.WF → q.WF) ∧ q.numVars = p.numVars + k ∧
      ∀ i < 2 ^ (p.numVars + k), q.tbl i = p.tbl (i % 2 ^ p.numVars) := by
  by_cases hk : k = 0
  · subst hk
    refine ⟨p, by simp [increaseNvBack], id, rfl, ?_⟩
    intro i hi
    rw [Nat.mod_eq_of_lt (by simpa using hi)]
  · refine ⟨⟨p.numVars + k, (List.range (2 ^ (p.numVars + k))).map fun i =>
      if i < 2 ^ p.numVars then p.tbl i else p.tbl (i % 2 ^ p.numVars)⟩, ?_, fun _ => ?_, rfl, ?_⟩
    · simp only [increaseNvBack]
      rw [if_neg (by omega), if_neg (by omega), Mle.fromEvals, if_pos (by simp)]
    · simp [Mle.WF]
    · intro i hi
      simp only [Mle.tbl]
      rw [getD_map_range _ _ _ _ hi]
      split
      · rw [Nat.mod_eq_of_lt (by assumption)]
      · rfl

theorem cubeSum_add (m k : Nat) (f : Nat → F) :
    cubeSum (m + k) f = ∑ i ∈ Finset.range (2 ^ k), ∑ j ∈ Finset.range (2 ^ m), f (i * 2 ^ m + j) := by
  unfold cubeSum
  rw [pow_add]
  generalize 2 ^ k = b
  generalize 2 ^ m = a
  induction b with
  | zero => simp
  | succ b ih =>
    rw [Nat.mul_succ, Finset.sum_range_add, ih, Finset.sum_range_succ]
    congr 1
    apply Finset.sum_congr rfl
    intro j _
    rw [Nat.mul_comm]

end Zksql
