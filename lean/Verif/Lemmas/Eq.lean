import Verif.Lemmas.VirtualPoly
/-! Helper lemmas about the eq table. -/
set_option linter.unusedSectionVars false
namespace Zksql
open Spec
variable {F : Type} [Field F]

theorem eqPoly_nil : eqPoly ([] : List F) [] = 1 := by simp [eqPoly]

theorem eqPoly_cons (a b : F) (x y : List F) :
    eqPoly (a :: x) (b :: y) = (a * b + (1 - a) * (1 - b)) * eqPoly x y := by
  unfold eqPoly
  rw [List.length_cons, Finset.prod_range_succ']
  simp [mul_comm]

theorem eqEval_eq (x y : List F) (h : x.length = y.length) : eqEval x y = .ok (eqPoly x y) := by
  unfold eqEval
  rw [if_neg (by simpa using h)]
  congr 1
  have gen : ∀ (x y : List F) (s : F), x.length = y.length →
      (x.zip y).foldl (fun res p => res * (p.1 * p.2 + p.1 * p.2 - p.1 - p.2 + 1)) s = s * eqPoly x y := by
    intro x
    induction x with
    | nil => intro y s h; simp [eqPoly]
    | cons a x ih =>
      intro y s h
      cases y with
      | nil => simp at h
      | cons b y =>
        rw [List.zip_cons_cons, List.foldl_cons, ih y _ (by simpa using h), eqPoly_cons]
        ring
  rw [gen x y 1 h, one_mul]

theorem buildEqHelper_spec (r : List F) (h : r ≠ []) :
    buildEqHelper r = .ok ((List.range (2 ^ r.length)).map (eqWeight r)) := by
  induction r with
  | nil => exact absurd rfl h
  | cons a r ih =>
    cases r with
    | nil =>
      rw [buildEqHelper]
      simp [List.range_succ, eqWeight]
    | cons b rs =>
      rw [buildEqHelper, ih (by simp)]
      show Except.ok _ = _
      congr 1
      have hl : ((List.range (2 ^ (b :: rs).length)).map (eqWeight (b :: rs))).length = 2 ^ (b :: rs).length := by simp
      rw [hl, List.length_cons (a := a), pow_succ, Nat.mul_comm]
      apply List.map_congr_left
      intro i hi
      rw [List.mem_range] at hi
      rw [getD_map_range _ _ _ _ (by omega), eqWeight_cons a (b :: rs) i]
      generalize eqWeight (b :: rs) (i / 2) = w
      rcases Nat.mod_two_eq_zero_or_one i with h0 | h1
      · simp [h0]; ring
      · simp [h1]

/-- The eq table. -/
def eqMle (r : List F) : Mle F := ⟨r.length, (List.range (2 ^ r.length)).map (eqWeight r)⟩

theorem eqMle_wf (r : List F) : (eqMle r).WF := by simp [eqMle, Mle.WF]

theorem eqMle_tbl (r : List F) (i : Nat) (hi : i < 2 ^ r.length) : (eqMle r).tbl i = eqWeight r i := by
  simp only [eqMle, Mle.tbl]
  rw [getD_map_range _ _ _ _ hi]

theorem buildEq_spec (r : List F) (h : r ≠ []) : buildEq r = .ok (eqMle r) := by
  unfold buildEq buildEqVec
  rw [buildEqHelper_spec r h]
  show Mle.fromEvals _ _ = _
  rw [Mle.fromEvals, if_pos (by simp)]
  rfl

theorem mle_eqWeight (r x : List F) (h : x.length = r.length) : mle (eqWeight r) x = eqPoly x r := by
  induction r generalizing x with
  | nil =>
    have : x = [] := List.length_eq_zero_iff.1 h
    subst this
    simp [mle, eqPoly, eqWeight]
  | cons b r ih =>
    cases x with
    | nil => simp at h
    | cons a x =>
      rw [mle_cons, eqPoly_cons, ← ih x (by simpa using h), ← mle_smul]
      apply mle_congr
      intro i _
      simp only [foldTbl, eqWeight_cons]
      have h1 : (2 * i + 1) % 2 = 1 := by omega
      have h2 : (2 * i + 1) / 2 = i := by omega
      simp [h1, h2]
      ring

theorem eqPoly_comm (x y : List F) (h : x.length = y.length) : eqPoly x y = eqPoly y x := by
  unfold eqPoly
  rw [h]
  apply Finset.prod_congr rfl
  intro j _
  ring

theorem eqWeight_boolPt (n i j : Nat) (hi : i < 2 ^ n) (hj : j < 2 ^ n) :
    eqWeight (boolPt (F := F) n i) j = if i = j then 1 else 0 := by
  split
  · next h =>
    subst h
    unfold eqWeight
    apply Finset.prod_eq_one
    intro k hk
    simp only [boolPt, List.length_map, List.length_range, Finset.mem_range] at hk
    unfold boolPt
    rw [getD_map_range _ _ _ _ hk]
    split <;> simp
  · next h =>
    have : ∃ k < n, i.testBit k ≠ j.testBit k := by
      by_contra hcon
      push Not at hcon
      apply h
      apply Nat.eq_of_testBit_eq
      intro k
      by_cases hk : k < n
      · exact hcon k hk
      · have p : 2 ^ n ≤ 2 ^ k := Nat.pow_le_pow_right (by norm_num) (by omega)
        rw [Nat.testBit_lt_two_pow (lt_of_lt_of_le hi p), Nat.testBit_lt_two_pow (lt_of_lt_of_le hj p)]
    obtain ⟨k, hk, hne⟩ := this
    unfold eqWeight
    apply Finset.prod_eq_zero (i := k)
    · simp [boolPt, hk]
    · unfold boolPt
      rw [getD_map_range _ _ _ _ hk]
      revert hne
      cases i.testBit k <;> cases j.testBit k <;> simp

end Zksql
