import Verif.Model.Mle
import Verif.Spec.Mle
import Mathlib.Algebra.BigOperators.Ring.Finset
import Mathlib.Algebra.BigOperators.Intervals
import Mathlib.Data.Nat.Bitwise
import Mathlib.Tactic.Ring
import Mathlib.Tactic.Linarith
/-! Helper lemmas about multilinear extensions. -/
namespace Zksql
open Spec
variable {F : Type} [Field F]

theorem sum_range_two_mul {M : Type*} [AddCommMonoid M] (n : Nat) (g : Nat → M) :
    ∑ i ∈ Finset.range (2 * n), g i = ∑ i ∈ Finset.range n, (g (2 * i) + g (2 * i + 1)) := by
  induction n with
  | zero => simp
  | succ n ih =>
    rw [show 2 * (n + 1) = 2 * n + 1 + 1 by ring, Finset.sum_range_succ, Finset.sum_range_succ, ih,
      Finset.sum_range_succ, add_assoc]

theorem eqWeight_nil (i : Nat) : eqWeight ([] : List F) i = 1 := by simp [eqWeight]

theorem eqWeight_cons (r : F) (rs : List F) (i : Nat) :
    eqWeight (r :: rs) i = (if i % 2 = 1 then r else 1 - r) * eqWeight rs (i / 2) := by
  unfold eqWeight
  rw [List.length_cons, Finset.prod_range_succ', mul_comm]
  congr 1
  · simp [Nat.testBit_zero]
  · apply Finset.prod_congr rfl
    intro j _
    simp [Nat.testBit_succ]

theorem mle_nil (f : Nat → F) : mle f [] = f 0 := by simp [mle, eqWeight_nil]

/-- One step of partial evaluation on table functions. -/
def foldTbl (r : F) (f : Nat → F) (i : Nat) : F := f (2 * i) + (f (2 * i + 1) - f (2 * i)) * r

theorem mle_cons (f : Nat → F) (r : F) (rs : List F) :
    mle f (r :: rs) = mle (foldTbl r f) rs := by
  unfold mle
  rw [List.length_cons, pow_succ, mul_comm, sum_range_two_mul]
  apply Finset.sum_congr rfl
  intro i _
  rw [eqWeight_cons, eqWeight_cons, foldTbl]
  have h1 : (2 * i) % 2 = 0 := by omega
  have h2 : (2 * i + 1) % 2 = 1 := by omega
  have h3 : (2 * i) / 2 = i := by omega
  have h4 : (2 * i + 1) / 2 = i := by omega
  simp only [h1, h2, h3, h4]
  simp
  ring

theorem mle_congr {f g : Nat → F} (pt : List F) (h : ∀ i < 2 ^ pt.length, f i = g i) :
    mle f pt = mle g pt := by
  apply Finset.sum_congr rfl
  intro i hi
  rw [h i (Finset.mem_range.1 hi)]

theorem mle_add (f g : Nat → F) (pt : List F) :
    mle (fun i => f i + g i) pt = mle f pt + mle g pt := by
  simp [mle, add_mul, Finset.sum_add_distrib]

theorem mle_sub (f g : Nat → F) (pt : List F) :
    mle (fun i => f i - g i) pt = mle f pt - mle g pt := by
  simp [mle, sub_mul, Finset.sum_sub_distrib]

theorem mle_smul (c : F) (f : Nat → F) (pt : List F) :
    mle (fun i => c * f i) pt = c * mle f pt := by
  simp [mle, Finset.mul_sum, mul_assoc]

theorem mle_const (c : F) (pt : List F) : mle (fun _ => c) pt = c := by
  induction pt with
  | nil => simp [mle_nil]
  | cons r rs ih =>
    rw [mle_cons, ← ih]
    apply mle_congr
    intro i _
    simp [foldTbl, ih]

theorem sum_eqWeight (pt : List F) : ∑ i ∈ Finset.range (2 ^ pt.length), eqWeight pt i = 1 := by
  have := mle_const (1 : F) pt
  simpa [mle] using this

theorem mle_append (f : Nat → F) (a b : List F) :
    mle f (a ++ b) = mle (fun i => mle (fun j => f (i * 2 ^ a.length + j)) a) b := by
  induction a generalizing f with
  | nil => simp [mle_nil]
  | cons r a ih =>
    rw [List.cons_append, mle_cons, ih]
    apply mle_congr
    intro i _
    rw [mle_cons]
    apply mle_congr
    intro j _
    simp only [foldTbl, List.length_cons, pow_succ]
    rw [show 2 * (i * 2 ^ a.length + j) = i * (2 ^ a.length * 2) + 2 * j by ring,
      show i * (2 ^ a.length * 2) + 2 * j + 1 = i * (2 ^ a.length * 2) + (2 * j + 1) by ring]

/-- A table that ignores its high index bits gives an extension that ignores its trailing coordinates. -/
theorem mle_append_ignore_back (f : Nat → F) (a b : List F)
    (h : ∀ i j, j < 2 ^ a.length → i < 2 ^ b.length → f (i * 2 ^ a.length + j) = f j) :
    mle f (a ++ b) = mle f a := by
  rw [mle_append, ← mle_const (mle f a) b]
  apply mle_congr
  intro i hi
  apply mle_congr
  intro j hj
  exact h i j hj hi

/-- A table that ignores its low index bits gives an extension that ignores its leading coordinates. -/
theorem mle_append_ignore_front (f g : Nat → F) (a b : List F)
    (h : ∀ i j, j < 2 ^ a.length → i < 2 ^ b.length → f (i * 2 ^ a.length + j) = g i) :
    mle f (a ++ b) = mle g b := by
  rw [mle_append]
  apply mle_congr
  intro i hi
  rw [← mle_const (g i) a]
  apply mle_congr
  intro j hj
  exact h i j hj hi

theorem boolPt_zero (i : Nat) : boolPt (F := F) 0 i = [] := by simp [boolPt]

theorem boolPt_succ (n i : Nat) :
    boolPt (F := F) (n + 1) i = (if i % 2 = 1 then 1 else 0) :: boolPt n (i / 2) := by
  simp [boolPt, List.range_succ_eq_map, Nat.testBit_zero, Nat.testBit_succ, Function.comp_def]

@[simp] theorem boolPt_length (n i : Nat) : (boolPt (F := F) n i).length = n := by simp [boolPt]

theorem mle_boolPt (f : Nat → F) (n i : Nat) (h : i < 2 ^ n) : mle f (boolPt n i) = f i := by
  induction n generalizing f i with
  | zero =>
    have : i = 0 := by simpa using h
    simp [boolPt_zero, mle_nil, this]
  | succ n ih =>
    rw [boolPt_succ, mle_cons, ih _ _ (by rw [pow_succ] at h; omega), foldTbl]
    rcases Nat.mod_two_eq_zero_or_one i with h0 | h1
    · have : 2 * (i / 2) = i := by omega
      simp [h0, this]
    · have : 2 * (i / 2) + 1 = i := by omega
      simp [h1, this]

theorem binaryDecompose_eq_boolPt (i n : Nat) : binaryDecompose (F := F) i n = boolPt n i := by
  induction n generalizing i with
  | zero => simp [binaryDecompose, bitDecompose, boolPt_zero]
  | succ n ih =>
    have := ih (i / 2)
    simp only [binaryDecompose] at this
    simp only [binaryDecompose, bitDecompose, List.map_cons, boolPt_succ, this]
    rcases Nat.mod_two_eq_zero_or_one i with h | h <;> simp [boolF, h]

/-- Reading a table built by an index map. -/
theorem getD_map_range {α : Type*} (n : Nat) (g : Nat → α) (d : α) (i : Nat) (h : i < n) :
    ((List.range n).map g).getD i d = g i := by
  simp [List.getD_eq_getElem?_getD, h]

theorem fixOnePar_length (data : List F) (nv : Nat) (r : F) :
    (fixOnePar data nv r).length = 2 ^ (nv - 1) := by simp [fixOnePar]

theorem fixOnePar_getD (data : List F) (nv : Nat) (r : F) (i : Nat) (h : i < 2 ^ (nv - 1)) :
    (fixOnePar data nv r).getD i 0 = foldTbl r (fun k => data.getD k 0) i := by
  rw [fixOnePar, getD_map_range _ _ _ _ h, foldTbl]

theorem fixLoop_length (data : List F) (nv : Nat) (pt : List F) (hl : data.length = 2 ^ nv)
    (h : pt.length ≤ nv) : (fixLoop data nv pt).length = 2 ^ (nv - pt.length) := by
  induction pt generalizing data nv with
  | nil => simpa [fixLoop] using hl
  | cons r rs ih =>
    simp only [List.length_cons] at h
    rw [fixLoop, ih _ _ (fixOnePar_length _ _ _) (by omega), List.length_cons]
    congr 1; omega

/-- The folded table after fixing `pt`, as a function. -/
theorem fixLoop_getD (data : List F) (nv : Nat) (pt : List F) (h : pt.length ≤ nv) (i : Nat)
    (hi : i < 2 ^ (nv - pt.length)) :
    (fixLoop data nv pt).getD i 0 = mle (fun j => data.getD (i * 2 ^ pt.length + j) 0) pt := by
  induction pt generalizing data nv with
  | nil => simp [fixLoop, mle_nil]
  | cons r rs ih =>
    simp only [List.length_cons] at h hi
    have e : nv - (rs.length + 1) = nv - 1 - rs.length := by omega
    rw [fixLoop, ih _ _ (by omega) (by rw [← e]; exact hi), mle_cons]
    apply mle_congr
    intro j hj
    have hlt : i * 2 ^ rs.length + j < 2 ^ (nv - 1) := by
      have e2 : nv - 1 = (nv - 1 - rs.length) + rs.length := by omega
      rw [e] at hi
      rw [e2, pow_add]
      calc i * 2 ^ rs.length + j < i * 2 ^ rs.length + 2 ^ rs.length := by omega
        _ = (i + 1) * 2 ^ rs.length := by ring
        _ ≤ _ := Nat.mul_le_mul_right _ hi
    rw [fixOnePar_getD _ _ _ _ hlt]
    simp only [foldTbl, List.length_cons, pow_succ]
    rw [show 2 * (i * 2 ^ rs.length + j) = i * (2 ^ rs.length * 2) + 2 * j by ring,
      show i * (2 ^ rs.length * 2) + 2 * j + 1 = i * (2 ^ rs.length * 2) + (2 * j + 1) by ring]

theorem getElem?_zero_of_getD {l : List F} {v : F} (hl : 0 < l.length) (h : l.getD 0 0 = v) :
    l[0]? = some v := by
  cases l with
  | nil => simp at hl
  | cons a t => simpa using h

theorem evaluate_eq (p : Mle F) (hp : p.WF) (pt : List F) (h : pt.length = p.numVars) :
    p.evaluate pt = some (mle p.tbl pt) := by
  rw [Mle.evaluate, if_pos h.symm]
  apply getElem?_zero_of_getD
  · rw [fixLoop_length _ _ _ hp h.le]; positivity
  · rw [fixLoop_getD _ _ _ h.le 0 (by positivity)]
    apply mle_congr
    intro i _
    simp [Mle.tbl]

theorem evaluate_none (p : Mle F) (pt : List F) (h : pt.length ≠ p.numVars) :
    p.evaluate pt = none := by
  rw [Mle.evaluate, if_neg (Ne.symm h)]

theorem fixVariables_ok (p : Mle F) (hp : p.WF) (pt : List F) (h : pt.length ≤ p.numVars) :
    fixVariables p pt = .ok ⟨p.numVars - pt.length, fixLoop p.evals p.numVars pt⟩ := by
  have hl := fixLoop_length p.evals p.numVars pt hp h
  rw [fixVariables, if_pos h, Mle.fromEvals, List.take_of_length_le hl.le, if_pos hl]

theorem fixVariables_tbl (p : Mle F) (hp : p.WF) (pt : List F) (h : pt.length ≤ p.numVars) :
    ∃ q, fixVariables p pt = .ok q ∧ q.WF ∧ q.numVars = p.numVars - pt.length ∧
      ∀ i < 2 ^ q.numVars, q.tbl i = mle (fun j => p.tbl (i * 2 ^ pt.length + j)) pt := by
  refine ⟨_, fixVariables_ok p hp pt h, fixLoop_length p.evals p.numVars pt hp h, rfl, ?_⟩
  intro i hi
  exact fixLoop_getD _ _ _ h i hi

end Zksql
