import Verif.Model.SumCheck
import Verif.Spec.SumCheck
import Verif.Lemmas.Mle3
import Mathlib.LinearAlgebra.Lagrange
import Mathlib.Data.Nat.Factorial.Basic
import Mathlib.Data.Nat.Factorial.BigOperators
import Mathlib.Tactic.FieldSimp
import Mathlib.Tactic.LinearCombination
/-! Helper lemmas: interpolation and extrapolation against Mathlib's Lagrange interpolation. -/
set_option linter.unusedSectionVars false
namespace Zksql
variable {F : Type} [Field F]

theorem NatsNonzero.mono {n m : Nat} (h : NatsNonzero F n) (hm : m ≤ n) : NatsNonzero F m :=
  fun i h1 h2 => h i h1 (h2.trans hm)

theorem NatsNonzero.injOn {n : Nat} (h : NatsNonzero F n) :
    Set.InjOn (fun i : Nat => (i : F)) (Finset.range (n + 1)) := by
  intro i hi j hj hij
  simp only [Finset.coe_range, Set.mem_Iio] at hi hj
  simp only at hij
  rcases lt_trichotomy i j with hlt | rfl | hlt
  · exfalso
    apply h (j - i) (by omega) (by omega)
    rw [Nat.cast_sub hlt.le, hij, sub_self]
  · rfl
  · exfalso
    apply h (i - j) (by omega) (by omega)
    rw [Nat.cast_sub hlt.le, hij, sub_self]

theorem NatsNonzero.factorial {n : Nat} (h : NatsNonzero F n) : ∀ m ≤ n, ((m.factorial : Nat) : F) ≠ 0 := by
  intro m hm
  induction m with
  | zero => simp
  | succ m ih =>
    rw [Nat.factorial_succ, Nat.cast_mul]
    exact mul_ne_zero (h (m + 1) (by omega) hm) (ih (by omega))

/-- `∏_{t<m} -(t+1)`. -/
def negFact : Nat → Int
  | 0 => 1
  | m + 1 => negFact m * (-((m : Int) + 1))

theorem negFact_natAbs (m : Nat) : (negFact m).natAbs = m.factorial := by
  induction m with
  | zero => rfl
  | succ m ih =>
    rw [negFact, Int.natAbs_mul, ih, Nat.factorial_succ]
    have : (-((m : Int) + 1)).natAbs = m + 1 := by omega
    rw [this, Nat.mul_comm]

theorem negFact_cast_ne (n : Nat) (h : NatsNonzero F n) (m : Nat) (hm : m ≤ n) : ((negFact m : Int) : F) ≠ 0 := by
  induction m with
  | zero => simp [negFact]
  | succ m ih =>
    rw [negFact]
    push_cast
    refine mul_ne_zero (ih (by omega)) (neg_ne_zero.2 ?_)
    have := h (m + 1) (by omega) hm
    push_cast at this
    exact this

theorem prod_erase_eq (n i : Nat) (hi : i < n) :
    ∏ j ∈ (Finset.range n).erase i, ((i : F) - (j : F)) = (i.factorial : F) * ((negFact (n - 1 - i) : Int) : F) := by
  obtain ⟨m, rfl⟩ : ∃ m, n = i + 1 + m := ⟨n - (i + 1), by omega⟩
  have e : i + 1 + m - 1 - i = m := by omega
  rw [e]
  clear e hi
  induction m with
  | zero =>
    have : (Finset.range (i + 1 + 0)).erase i = Finset.range i := by
      ext j; simp only [Finset.mem_erase, Finset.mem_range]; omega
    rw [this]
    simp only [negFact, Int.cast_one, mul_one]
    rw [← Finset.prod_range_reflect, ← Finset.prod_range_add_one_eq_factorial, Nat.cast_prod]
    apply Finset.prod_congr rfl
    intro j hj
    have hj' := Finset.mem_range.1 hj
    have : ((i - 1 - j : Nat) : F) = (i : F) - 1 - j := by
      rw [Nat.cast_sub (by omega), Nat.cast_sub (by omega)]; simp
    rw [this]; push_cast; ring
  | succ m ih =>
    have : (Finset.range (i + 1 + (m + 1))).erase i = insert (i + 1 + m) ((Finset.range (i + 1 + m)).erase i) := by
      ext j; simp only [Finset.mem_erase, Finset.mem_range, Finset.mem_insert]; omega
    rw [this, Finset.prod_insert (by simp), ih, negFact]
    push_cast
    ring

theorem uFactorial_ok (bits a : Nat) (h : a.factorial < 2 ^ bits) : uFactorial bits a = .ok a.factorial := by
  induction a with
  | zero => rfl
  | succ a ih =>
    cases a with
    | zero => rfl
    | succ a =>
      have hle : (a + 1).factorial ≤ (a + 2).factorial := Nat.factorial_le (by omega)
      rw [uFactorial, ih (lt_of_le_of_lt hle h)]
      have e : (a + 1).factorial * (a + 2) = (a + 1 + 1).factorial := by
        rw [Nat.factorial_succ (a + 1)]; ring
      show chkU bits ((a + 1).factorial * (a + 2)) = _
      rw [e, chkU, if_pos h]

theorem fieldFactorial_eq (a : Nat) : fieldFactorial (F := F) a = (a.factorial : F) := by
  induction a with
  | zero => simp [fieldFactorial]
  | succ a ih =>
    cases a with
    | zero => simp [fieldFactorial]
    | succ a =>
      rw [fieldFactorial, ih, Nat.factorial_succ (a + 1)]
      push_cast; ring

theorem numF_eq (bits : Nat) (num : Int) (h : (num.natAbs : Int) < 2 ^ (bits - 1)) :
    numToField bits num = (.ok (num : F) : Res F) := by
  unfold numToField
  split
  · next hneg =>
    rw [chkI, if_pos (by constructor <;> omega)]
    simp only [Except.map]
    congr 1
    have : ((-num).toNat : Int) = -num := Int.toNat_of_nonneg (by omega)
    have e : (((-num).toNat : Nat) : F) = ((-num : Int) : F) := by rw [← Int.cast_natCast, this]
    rw [e]; push_cast; ring
  · next hneg =>
    congr 1
    have : (num.toNat : Int) = num := Int.toNat_of_nonneg (by omega)
    have e : ((num.toNat : Nat) : F) = ((num : Int) : F) := by rw [← Int.cast_natCast, this]
    exact e

/-- The Lagrange term of index `i`. -/
def lagTerm (p : List F) (prod x : F) (len i : Nat) : F :=
  p.getD i 0 * prod * ((len - 1).descFactorial (len - 1 - i) : F) /
    (((len - 1).factorial : F) * ((negFact (len - 1 - i) : Int) : F) * (x - (i : F)))

theorem interpLoopInt_ok [DecidableEq F] (bits : Nat) (p evals : List F) (prod x : F) (len : Nat)
    (hp : p.length = len) (hev : ∀ i < len, evals[i]? = some (x - (i : F)))
    (hb : ((len - 1).factorial : Int) < 2 ^ (bits - 1)) (hbits : 0 < bits)
    (hn : NatsNonzero F (len - 1)) (hx : ∀ i < len, x ≠ (i : F)) (i : Nat) (hi : i < len) (res : F) :
    interpLoopInt bits p evals prod ((len - 1).factorial : F) len (i + 1) res (negFact (len - 1 - i))
      ((len - 1).descFactorial (len - 1 - i)) = .ok (res + ∑ k ∈ Finset.range (i + 1), lagTerm p prod x len k) := by
  have fact_le : ∀ m ≤ len - 1, (m.factorial : Int) < 2 ^ (bits - 1) := by
    intro m hm
    have := Nat.factorial_le hm
    have h2 : (m.factorial : Int) ≤ ((len - 1).factorial : Int) := by exact_mod_cast this
    exact lt_of_le_of_lt h2 hb
  induction i generalizing res with
  | zero =>
    rw [interpLoopInt, numF_eq bits _ (by rw [negFact_natAbs]; exact fact_le _ (by omega))]
    have hpi : idx p 0 = .ok (p.getD 0 0) := by
      simp [idx, List.getD_eq_getElem?_getD, List.getElem?_eq_getElem (by omega : 0 < p.length)]
    have hei : idx evals 0 = .ok (x - ((0 : Nat) : F)) := by rw [idx, hev 0 hi]; rfl
    have hne : ((len - 1).factorial : F) * ((negFact (len - 1 - 0) : Int) : F) * (x - ((0 : Nat) : F)) ≠ 0 :=
      mul_ne_zero (mul_ne_zero (hn.factorial _ le_rfl) (negFact_cast_ne _ hn _ (by omega)))
        (sub_ne_zero.2 (hx 0 hi))
    simp only [ok_bind, hpi, hei]
    rw [fdiv, if_neg hne]
    simp only [ok_bind, ne_eq, not_true_eq_false, if_false, interpLoopInt]
    simp [lagTerm]
  | succ i ih =>
    rw [interpLoopInt, numF_eq bits _ (by rw [negFact_natAbs]; exact fact_le _ (by omega))]
    have hpi : idx p (i + 1) = .ok (p.getD (i + 1) 0) := by
      simp [idx, List.getD_eq_getElem?_getD, List.getElem?_eq_getElem (by omega : i + 1 < p.length)]
    have hei : idx evals (i + 1) = .ok (x - ((i + 1 : Nat) : F)) := by rw [idx, hev (i + 1) hi]; rfl
    have hne : ((len - 1).factorial : F) * ((negFact (len - 1 - (i + 1)) : Int) : F) * (x - ((i + 1 : Nat) : F)) ≠ 0 :=
      mul_ne_zero (mul_ne_zero (hn.factorial _ le_rfl) (negFact_cast_ne _ hn _ (by omega)))
        (sub_ne_zero.2 (hx (i + 1) hi))
    simp only [ok_bind, hpi, hei]
    rw [fdiv, if_neg hne]
    have e1 : negFact (len - 1 - (i + 1)) * (-((len : Int) - ((i + 1 : Nat) : Int))) = negFact (len - 1 - i) := by
      have : len - 1 - i = (len - 1 - (i + 1)) + 1 := by omega
      rw [this, negFact]
      congr 2
      omega
    have e2 : (len - 1).descFactorial (len - 1 - (i + 1)) * (i + 1) = (len - 1).descFactorial (len - 1 - i) := by
      have : len - 1 - i = (len - 1 - (i + 1)) + 1 := by omega
      rw [this, Nat.descFactorial_succ, Nat.mul_comm]
      congr 1
      omega
    have c1 : chkI bits (negFact (len - 1 - i)) = .ok (negFact (len - 1 - i)) := by
      have h1 := fact_le (len - 1 - i) (by omega)
      rw [← negFact_natAbs] at h1
      rw [chkI, if_pos (by constructor <;> omega)]
    have c2 : chkU bits ((len - 1).descFactorial (len - 1 - i)) = .ok ((len - 1).descFactorial (len - 1 - i)) := by
      have h1 : (len - 1).descFactorial (len - 1 - i) ≤ (len - 1).factorial := by
        have := Nat.factorial_mul_descFactorial (n := len - 1) (k := len - 1 - i) (by omega)
        have hpos := Nat.factorial_pos (len - 1 - (len - 1 - i))
        calc (len - 1).descFactorial (len - 1 - i)
            ≤ (len - 1 - (len - 1 - i)).factorial * (len - 1).descFactorial (len - 1 - i) :=
              Nat.le_mul_of_pos_left _ hpos
          _ = _ := this
      have h2 : (len - 1).factorial < 2 ^ (bits - 1) := by exact_mod_cast hb
      have h3 : 2 ^ (bits - 1) ≤ 2 ^ bits := Nat.pow_le_pow_right (by norm_num) (by omega)
      rw [chkU, if_pos (by omega)]
    rw [e1, e2, c1, c2]
    simp only [ok_bind, ne_eq, Nat.succ_ne_zero, not_false_eq_true, if_true]
    rw [ih (by omega), Finset.sum_range_succ _ (i + 1), add_assoc]
    congr 2
    rw [add_comm]
    rfl

theorem interpLoopField_ok [DecidableEq F] (p evals : List F) (prod x : F) (len : Nat)
    (hp : p.length = len) (hev : ∀ i < len, evals[i]? = some (x - (i : F)))
    (hn : NatsNonzero F (len - 1)) (hx : ∀ i < len, x ≠ (i : F)) (i : Nat) (hi : i < len) (res : F) :
    interpLoopField p evals prod len (i + 1) res
      (((len - 1).factorial : F) * ((negFact (len - 1 - i) : Int) : F))
      ((len - 1).descFactorial (len - 1 - i) : F) = .ok (res + ∑ k ∈ Finset.range (i + 1), lagTerm p prod x len k) := by
  induction i generalizing res with
  | zero =>
    have hpi : idx p 0 = .ok (p.getD 0 0) := by
      simp [idx, List.getD_eq_getElem?_getD, List.getElem?_eq_getElem (by omega : 0 < p.length)]
    have hei : idx evals 0 = .ok (x - ((0 : Nat) : F)) := by rw [idx, hev 0 hi]; rfl
    have hne : ((len - 1).factorial : F) * ((negFact (len - 1 - 0) : Int) : F) * (x - ((0 : Nat) : F)) ≠ 0 :=
      mul_ne_zero (mul_ne_zero (hn.factorial _ le_rfl) (negFact_cast_ne _ hn _ (by omega)))
        (sub_ne_zero.2 (hx 0 hi))
    rw [interpLoopField]
    simp only [ok_bind, hpi, hei]
    rw [fdiv, if_neg hne]
    simp only [ok_bind, ne_eq, not_true_eq_false, if_false, interpLoopField]
    simp [lagTerm]
  | succ i ih =>
    have hpi : idx p (i + 1) = .ok (p.getD (i + 1) 0) := by
      simp [idx, List.getD_eq_getElem?_getD, List.getElem?_eq_getElem (by omega : i + 1 < p.length)]
    have hei : idx evals (i + 1) = .ok (x - ((i + 1 : Nat) : F)) := by rw [idx, hev (i + 1) hi]; rfl
    have hne : ((len - 1).factorial : F) * ((negFact (len - 1 - (i + 1)) : Int) : F) * (x - ((i + 1 : Nat) : F)) ≠ 0 :=
      mul_ne_zero (mul_ne_zero (hn.factorial _ le_rfl) (negFact_cast_ne _ hn _ (by omega)))
        (sub_ne_zero.2 (hx (i + 1) hi))
    rw [interpLoopField]
    simp only [ok_bind, hpi, hei]
    rw [fdiv, if_neg hne]
    have e1 : ((len - 1).factorial : F) * ((negFact (len - 1 - (i + 1)) : Int) : F) * (-((len - (i + 1) : Nat) : F))
        = ((len - 1).factorial : F) * ((negFact (len - 1 - i) : Int) : F) := by
      have h1 : len - 1 - i = (len - 1 - (i + 1)) + 1 := by omega
      have h2 : len - (i + 1) = len - 1 - (i + 1) + 1 := by omega
      rw [h1, negFact, h2]
      push_cast
      ring
    have e2 : ((len - 1).descFactorial (len - 1 - (i + 1)) : F) * ((i + 1 : Nat) : F)
        = ((len - 1).descFactorial (len - 1 - i) : F) := by
      have h1 : len - 1 - i = (len - 1 - (i + 1)) + 1 := by omega
      rw [h1, Nat.descFactorial_succ]
      have : len - 1 - (len - 1 - (i + 1)) = i + 1 := by omega
      rw [this]
      push_cast
      ring
    rw [e1, e2]
    simp only [ok_bind, ne_eq, Nat.succ_ne_zero, not_false_eq_true, if_true]
    rw [ih (by omega), Finset.sum_range_succ _ (i + 1), add_assoc]
    congr 2
    rw [add_comm]
    rfl

theorem lagSum_eq (p : List F) (x : F) (len : Nat) (hlen : 0 < len)
    (hn : NatsNonzero F (len - 1)) (hx : ∀ i < len, x ≠ (i : F)) (q : Polynomial F)
    (hdeg : q.degree < len) (hq : ∀ i < len, q.eval (i : F) = p.getD i 0) :
    ∑ k ∈ Finset.range len, lagTerm p (∏ j ∈ Finset.range len, (x - (j : F))) x len k = q.eval x := by
  have hinj : Set.InjOn (fun i : Nat => (i : F)) (Finset.range len) := by
    have := hn.injOn
    rwa [Nat.sub_add_cancel hlen] at this
  have hqe := Lagrange.eq_interpolate_of_eval_eq (s := Finset.range len) (v := fun i : Nat => (i : F))
    (fun i => p.getD i 0) hinj (by simpa using hdeg) (fun i hi => hq i (Finset.mem_range.1 hi))
  rw [hqe, Lagrange.eval_interpolate_not_at_node _ (fun i hi => hx i (Finset.mem_range.1 hi)), Lagrange.eval_nodal,
    Finset.mul_sum]
  apply Finset.sum_congr rfl
  intro i hi
  have hi' := Finset.mem_range.1 hi
  rw [lagTerm, Lagrange.nodalWeight, Finset.prod_inv_distrib, prod_erase_eq len i hi']
  have hfac := Nat.factorial_mul_descFactorial (n := len - 1) (k := len - 1 - i) (by omega)
  have hsub : len - 1 - (len - 1 - i) = i := by omega
  rw [hsub] at hfac
  have hfacF : (i.factorial : F) * ((len - 1).descFactorial (len - 1 - i) : F) = ((len - 1).factorial : F) := by
    rw [← Nat.cast_mul, hfac]
  have n1 : (i.factorial : F) ≠ 0 := hn.factorial i (by omega)
  have n2 : ((negFact (len - 1 - i) : Int) : F) ≠ 0 := negFact_cast_ne _ hn _ (by omega)
  have n3 : x - (i : F) ≠ 0 := sub_ne_zero.2 (hx i hi')
  have n4 : ((len - 1).descFactorial (len - 1 - i) : F) ≠ 0 := by
    intro h0
    rw [h0, mul_zero] at hfacF
    exact hn.factorial (len - 1) le_rfl hfacF.symm
  rw [← hfacF]
  field_simp

/-- `interpolate_uni_poly` is evaluation of the interpolating polynomial. -/
theorem interpolateUniPoly_ok [DecidableEq F] (p : List F) (x : F) (hlen : 0 < p.length)
    (hn : NatsNonzero F (p.length - 1)) (hx : ∀ i < p.length, x ≠ (i : F)) (q : Polynomial F)
    (hdeg : q.degree < p.length) (hq : ∀ i < p.length, q.eval (i : F) = p.getD i 0) :
    interpolateUniPoly p x = .ok (q.eval x) := by
  set len := p.length with hl
  obtain ⟨m, hm⟩ : ∃ m, len = m + 1 := ⟨len - 1, by omega⟩
  have hev : ∀ i < len, (x :: (List.range (len - 1)).map fun e => x - ((e + 1 : Nat) : F))[i]? = some (x - (i : F)) := by
    intro i hi
    cases i with
    | zero => simp
    | succ i => simp [List.getElem?_range (show i < len - 1 by omega)]
  have hprod : ((List.range (len - 1)).map fun e => x - ((e + 1 : Nat) : F)).foldl (· * ·) x
      = ∏ j ∈ Finset.range len, (x - (j : F)) := by
    rw [hm, Finset.prod_range_succ', Nat.add_sub_cancel]
    have : ∀ (l : List F) (s : F), l.foldl (· * ·) s = s * l.prod := by
      intro l
      induction l with
      | nil => simp
      | cons a l ih => intro s; rw [List.foldl_cons, ih, List.prod_cons, mul_assoc]
    rw [this, list_prod_range]
    simp [mul_comm]
  have hneg : negFact (len - 1 - (len - 1)) = 1 := by rw [Nat.sub_self]; rfl
  have hdesc : (len - 1).descFactorial (len - 1 - (len - 1)) = 1 := by rw [Nat.sub_self]; rfl
  have hlen1 : len - 1 + 1 = len := by omega
  have key := lagSum_eq p x len hlen hn hx q hdeg hq
  unfold interpolateUniPoly
  simp only [← hl]
  rw [if_neg (by omega), hprod]
  split
  · next h20 =>
    have h19 : (len - 1).factorial ≤ (19).factorial := Nat.factorial_le (by omega)
    have h19' : (19).factorial < 2 ^ 63 := by decide
    rw [uFactorial_ok 64 _ (by omega)]
    simp only [ok_bind]
    have := interpLoopInt_ok 64 p _ (∏ j ∈ Finset.range len, (x - (j : F))) x len rfl hev
      (by norm_num; exact_mod_cast lt_of_le_of_lt h19 h19') (by omega) hn hx (len - 1) (by omega) 0
    rw [hneg, hdesc, hlen1, zero_add, key] at this
    exact this
  · split
    · next h33 =>
      have h32 : (len - 1).factorial ≤ (32).factorial := Nat.factorial_le (by omega)
      have h32' : (32).factorial < 2 ^ 127 := by decide
      rw [uFactorial_ok 128 _ (by omega)]
      simp only [ok_bind]
      have := interpLoopInt_ok 128 p _ (∏ j ∈ Finset.range len, (x - (j : F))) x len rfl hev
        (by norm_num; exact_mod_cast lt_of_le_of_lt h32 h32') (by omega) hn hx (len - 1) (by omega) 0
      rw [hneg, hdesc, hlen1, zero_add, key] at this
      exact this
    · have := interpLoopField_ok p _ (∏ j ∈ Finset.range len, (x - (j : F))) x len rfl hev hn hx (len - 1) (by omega) 0
      rw [hneg, hdesc, hlen1, zero_add, key, Int.cast_one, mul_one, Nat.cast_one] at this
      rw [fieldFactorial_eq]
      exact this

/-- Nodes `0..k`. -/
def nodes (F : Type) [Field F] (k : Nat) : List F := (List.range (k + 1)).map (fun i : Nat => (i : F))

theorem barycentricWeights_nodes (k j : Nat) (hj : j ≤ k) :
    (barycentricWeights (nodes F k)).getD j 0 = Lagrange.nodalWeight (Finset.range (k + 1)) (fun i : Nat => (i : F)) j := by
  unfold barycentricWeights
  have hl : (nodes F k).length = k + 1 := by simp [nodes]
  rw [hl, getD_map_range _ _ _ _ (by omega), Lagrange.nodalWeight, Finset.prod_inv_distrib]
  congr 1
  have hnd : ∀ i < k + 1, (nodes F k).getD i 0 = (i : F) := by
    intro i hi
    unfold nodes
    rw [getD_map_range _ _ _ _ hi]
  have hf : ((List.range (k + 1)).filter (fun i => i != j)).map (fun i => (nodes F k).getD j 0 - (nodes F k).getD i 0)
      = ((List.range (k + 1)).filter (fun i => i != j)).map (fun i : Nat => (j : F) - (i : F)) := by
    apply List.map_congr_left
    intro i hi
    rw [hnd j (by omega), hnd i (by
      have := (List.mem_filter.1 hi).1
      exact List.mem_range.1 this)]
  rw [hf]
  have hnodup : ((List.range (k + 1)).filter (fun i => i != j)).Nodup := List.nodup_range.filter _
  rw [← List.prod_toFinset _ hnodup]
  apply Finset.prod_congr _ (fun _ _ => rfl)
  ext i
  simp only [List.mem_toFinset, List.mem_filter, List.mem_range, bne_iff_ne, ne_eq, Finset.mem_erase, Finset.mem_range]
  tauto

theorem list_sum_range' (n : Nat) (g : Nat → F) : ((List.range n).map g).sum = ∑ i ∈ Finset.range n, g i := by
  induction n with
  | zero => simp
  | succ n ih => rw [List.range_succ, List.map_append, List.sum_append, ih, Finset.sum_range_succ]; simp

theorem list_eq_map_range (l : List F) (n : Nat) (h : l.length = n) :
    l = (List.range n).map fun i => l.getD i 0 := by
  subst h
  apply List.ext_getElem
  · simp
  · intro i h1 h2
    simp [h1]

theorem zipWith_map_range {α β γ : Type*} (f : α → β → γ) (n : Nat) (g : Nat → α) (h : Nat → β) :
    List.zipWith f ((List.range n).map g) ((List.range n).map h) = (List.range n).map fun i => f (g i) (h i) := by
  apply List.ext_getElem <;> simp

/-- `extrapolate` on the nodes `0..k` evaluates the polynomial of degree at most `k` at a point that is not a node. -/
theorem extrapolate_ok (k : Nat) (evals : List F) (x : F) (hn : NatsNonzero F k) (hx : ∀ i ≤ k, x ≠ (i : F))
    (hl : evals.length = k + 1) (q : Polynomial F) (hdeg : q.degree < ((k + 1 : Nat) : WithBot Nat))
    (hq : ∀ i ≤ k, q.eval (i : F) = evals.getD i 0) :
    extrapolate (nodes F k) (barycentricWeights (nodes F k)) evals x = q.eval x := by
  have hinj := hn.injOn
  have hqe := Lagrange.eq_interpolate_of_eval_eq (s := Finset.range (k + 1)) (v := fun i : Nat => (i : F))
    (fun i => evals.getD i 0) hinj (by simpa using hdeg) (fun i hi => hq i (by
      have := Finset.mem_range.1 hi; omega))
  have hw : barycentricWeights (nodes F k) = (List.range (k + 1)).map fun j =>
      Lagrange.nodalWeight (Finset.range (k + 1)) (fun i : Nat => (i : F)) j := by
    have hlen : (barycentricWeights (nodes F k)).length = k + 1 := by simp [barycentricWeights, nodes]
    rw [list_eq_map_range _ _ hlen]
    apply List.map_congr_left
    intro j hj
    exact barycentricWeights_nodes k j (by have := List.mem_range.1 hj; omega)
  unfold extrapolate
  rw [hw, list_eq_map_range evals _ hl]
  simp only [nodes, List.map_map]
  rw [zipWith_map_range, zipWith_map_range, list_sum_range', list_sum_range', hqe]
  rw [Lagrange.eval_interpolate_not_at_node' _ hinj ⟨0, by simp⟩
    (fun i hi => hx i (by have := Finset.mem_range.1 hi; omega))]
  rw [div_eq_mul_inv]
  congr 1
  · apply Finset.sum_congr rfl
    intro i _
    simp only [Function.comp]
    ring
  · congr 1
    apply Finset.sum_congr rfl
    intro i _
    simp only [Function.comp]
    ring

end Zksql
