import Verif.Lemmas.Interp
import Verif.Lemmas.Eq
import Verif.Spec.SumCheck
import Mathlib.Algebra.Polynomial.BigOperators
/-! Helper lemmas about one round of the sumcheck prover. -/
set_option linter.unusedSectionVars false
namespace Zksql
open Spec Polynomial
variable {F : Type} [Field F]

/-! ## Messages of one round -/

/-- `tables` hold the table functions `T`, each long enough for `nb` pairs. -/
def TablesOk (tables : List (Mle F)) (T : Nat → Nat → F) (nb : Nat) : Prop :=
  ∀ f < tables.length, ∃ m, tables[f]? = some m ∧ m.evals.length = 2 * nb ∧ ∀ b < 2 * nb, m.evals[b]? = some (T f b)

theorem roundBuf_ok (tables : List (Mle F)) (T : Nat → Nat → F) (nb : Nat) (hT : TablesOk tables T nb) (p : List Nat)
    (hp : ∀ f ∈ p, f < tables.length) (b : Nat) (hb : b < nb) :
    roundBuf tables p b = .ok (p.map fun f => (T f (2 * b), T f (2 * b + 1) - T f (2 * b))) := by
  unfold roundBuf
  apply mapM_ok
  intro f hf
  obtain ⟨m, hm, _, hv⟩ := hT f (hp f hf)
  simp only [idx, hm, unwrap_some, ok_bind, hv (2 * b) (by omega), hv (2 * b + 1) (by omega)]

theorem stepEvals_eq (k : Nat) (buf : List (F × F)) :
    stepEvals k buf = (List.range (k + 1)).map fun t : Nat => (buf.map fun es => es.1 + (t : F) * es.2).prod := by
  induction k generalizing buf with
  | zero => simp [stepEvals]
  | succ k ih =>
    rw [stepEvals, ih, List.range_succ_eq_map (n := k + 1), List.map_cons, List.map_map]
    congr 1
    · simp
    · apply List.map_congr_left
      intro t _
      simp only [Function.comp, List.map_map]
      congr 1
      apply List.map_congr_left
      intro es _
      simp only [Function.comp]
      push_cast; ring

/-- Univariate polynomial of one product over a list of tables. -/
noncomputable def prodPoly (T : Nat → Nat → F) (p : List Nat) (nb : Nat) : F[X] :=
  ∑ b ∈ Finset.range nb, (p.map fun f => C (T f (2 * b)) + C (T f (2 * b + 1) - T f (2 * b)) * X).prod

theorem prodPoly_natDegree (T : Nat → Nat → F) (p : List Nat) (nb : Nat) : (prodPoly T p nb).natDegree ≤ p.length := by
  unfold prodPoly
  apply natDegree_sum_le_of_forall_le
  intro b _
  induction p with
  | nil => simp
  | cons f p ih =>
    rw [List.map_cons, List.prod_cons, List.length_cons]
    refine natDegree_mul_le.trans ?_
    have : (C (T f (2 * b)) + C (T f (2 * b + 1) - T f (2 * b)) * X : F[X]).natDegree ≤ 1 := by
      rw [add_comm]; exact natDegree_linear_le
    omega

theorem prodPoly_eval (T : Nat → Nat → F) (p : List Nat) (nb : Nat) (x : F) :
    (prodPoly T p nb).eval x = ∑ b ∈ Finset.range nb, (p.map fun f => foldTbl x (T f) b).prod := by
  unfold prodPoly
  rw [eval_finsetSum]
  apply Finset.sum_congr rfl
  intro b _
  rw [eval_list_prod, List.map_map]
  congr 1
  apply List.map_congr_left
  intro f _
  simp [foldTbl]

theorem productSum_ok (tables : List (Mle F)) (T : Nat → Nat → F) (nb : Nat) (hT : TablesOk tables T nb) (p : List Nat)
    (hp : ∀ f ∈ p, f < tables.length) :
    productSum tables p nb = .ok ((List.range (p.length + 1)).map fun t : Nat => (prodPoly T p nb).eval (t : F)) := by
  have key : ∀ k ≤ nb, ((List.range k).foldlM (init := List.replicate (p.length + 1) (0 : F)) fun acc b => do
      let buf ← roundBuf tables p b
      Except.ok (List.zipWith (· + ·) acc (stepEvals p.length buf)) : Res (List F)) =
      .ok ((List.range (p.length + 1)).map fun t : Nat => (prodPoly T p k).eval (t : F)) := by
    intro k hk
    induction k with
    | zero =>
      simp [prodPoly]
      rfl
    | succ k ih =>
      rw [List.range_succ, List.foldlM_append, ih (by omega)]
      simp only [List.foldlM_cons, List.foldlM_nil, ok_bind]
      rw [roundBuf_ok tables T nb hT p hp k (by omega), ok_bind, ok_bind, stepEvals_eq, zipWith_map_range]
      show Except.ok _ = Except.ok _
      congr 1
      apply List.map_congr_left
      intro t _
      rw [prodPoly_eval, prodPoly_eval, Finset.sum_range_succ, List.map_map]
      congr 2
      apply List.map_congr_left
      intro f _
      simp only [Function.comp, foldTbl]; ring
  exact key nb le_rfl

/-- The extrapolation data built by `proverInit`. -/
def auxOf (F : Type) [Field F] (d : Nat) : List (List F × List F) :=
  (List.range (d - 1)).map fun k => (nodes F (k + 1), barycentricWeights (nodes F (k + 1)))

theorem productMsg_ok (d : Nat) (hn : NatsNonzero F d) (tables : List (Mle F)) (T : Nat → Nat → F) (nb : Nat)
    (hT : TablesOk tables T nb) (cp : F × List Nat) (hp : ∀ f ∈ cp.2, f < tables.length) (hd : cp.2.length ≤ d)
    (hne : cp.2 ≠ []) :
    productMsg (auxOf F d) d tables nb cp =
      .ok ((List.range (d + 1)).map fun t : Nat => cp.1 * (prodPoly T cp.2 nb).eval (t : F)) := by
  have hpos : 0 < cp.2.length := List.length_pos_iff.2 hne
  have hsum : (((List.range (cp.2.length + 1)).map fun t : Nat => (prodPoly T cp.2 nb).eval (t : F)).map (· * cp.1)) =
      (List.range (cp.2.length + 1)).map fun t : Nat => cp.1 * (prodPoly T cp.2 nb).eval (t : F) := by
    rw [List.map_map]
    apply List.map_congr_left
    intro t _
    simp [Function.comp, mul_comm]
  unfold productMsg
  rw [productSum_ok tables T nb hT cp.2 hp, ok_bind, hsum, if_neg (by omega)]
  have hext : ((List.range (d - cp.2.length)).mapM fun i =>
      if cp.2.length = 0 then (.error .panic : Res F)
      else do
        let pw ← idx (auxOf F d) (cp.2.length - 1)
        .ok (extrapolate pw.1 pw.2 ((List.range (cp.2.length + 1)).map fun t : Nat => cp.1 * (prodPoly T cp.2 nb).eval (t : F))
          ((cp.2.length + 1 + i : Nat) : F))) =
      .ok ((List.range (d - cp.2.length)).map fun i => cp.1 * (prodPoly T cp.2 nb).eval ((cp.2.length + 1 + i : Nat) : F)) := by
    apply mapM_ok
    intro i hi
    rw [List.mem_range] at hi
    rw [if_neg (by omega)]
    have ha : idx (auxOf F d) (cp.2.length - 1) = .ok (nodes F cp.2.length, barycentricWeights (nodes F cp.2.length)) := by
      unfold idx auxOf
      rw [List.getElem?_map, List.getElem?_range (by omega)]
      simp only [Option.map_some, unwrap_some]
      rw [Nat.sub_add_cancel hpos]
    rw [ha, ok_bind]
    show Except.ok _ = Except.ok _
    congr 1
    rw [extrapolate_ok cp.2.length _ _ (hn.mono hd) ?_ (by simp) (Polynomial.C cp.1 * prodPoly T cp.2 nb)]
    · simp
    · have := prodPoly_natDegree T cp.2 nb
      refine lt_of_le_of_lt (degree_le_natDegree) ?_
      have h2 : (Polynomial.C cp.1 * prodPoly T cp.2 nb).natDegree ≤ cp.2.length := (natDegree_C_mul_le _ _).trans this
      exact_mod_cast Nat.lt_succ_of_le h2
    · intro j hj
      rw [getD_map_range _ _ _ _ (by omega)]
      simp
    · intro j hj heq
      have := hn.injOn (x₁ := cp.2.length + 1 + i) (x₂ := j) (by simp; omega) (by simp; omega) heq
      omega
  rw [hext, ok_bind]
  show Except.ok _ = Except.ok _
  congr 1
  have : d + 1 = (cp.2.length + 1) + (d - cp.2.length) := by omega
  conv_rhs => rw [this, List.range_add, List.map_append, List.map_map]
  rfl

theorem roundMsg_ok (d : Nat) (hn : NatsNonzero F d) (tables : List (Mle F)) (T : Nat → Nat → F) (nb : Nat)
    (hT : TablesOk tables T nb) (ps : List (F × List Nat)) (hp : ∀ p ∈ ps, ∀ f ∈ p.2, f < tables.length)
    (hd : ∀ p ∈ ps, p.2.length ≤ d) (hne : ∀ p ∈ ps, p.2 ≠ []) :
    (ps.foldlM (init := List.replicate (d + 1) (0 : F)) fun acc cp => do
      let m ← productMsg (auxOf F d) d tables nb cp
      Except.ok ((List.range acc.length).map fun i => acc.getD i 0 + m.getD i 0) : Res (List F)) =
      .ok ((List.range (d + 1)).map fun t : Nat => (ps.map fun p => p.1 * (prodPoly T p.2 nb).eval (t : F)).sum) := by
  have h0 : List.replicate (d + 1) (0 : F) = (List.range (d + 1)).map fun t : Nat => (fun _ => 0 : Nat → F) t := by
    simp
  rw [h0]
  have key : ∀ (ps : List (F × List Nat)), (∀ p ∈ ps, ∀ f ∈ p.2, f < tables.length) → (∀ p ∈ ps, p.2.length ≤ d) →
      (∀ p ∈ ps, p.2 ≠ []) → ∀ g : Nat → F,
      (ps.foldlM (init := (List.range (d + 1)).map g) fun acc cp => do
        let m ← productMsg (auxOf F d) d tables nb cp
        Except.ok ((List.range acc.length).map fun i => acc.getD i 0 + m.getD i 0) : Res (List F)) =
      .ok ((List.range (d + 1)).map fun t : Nat => g t + (ps.map fun p => p.1 * (prodPoly T p.2 nb).eval (t : F)).sum) := by
    intro ps
    induction ps with
    | nil => intro _ _ _ g; simp; rfl
    | cons p ps ih =>
      intro hp hd hne g
      rw [List.foldlM_cons, productMsg_ok d hn tables T nb hT p (hp p (by simp)) (hd p (by simp)) (hne p (by simp)), ok_bind, ok_bind]
      have e : ((List.range ((List.range (d + 1)).map g).length).map fun i => ((List.range (d + 1)).map g).getD i 0 +
          ((List.range (d + 1)).map fun t : Nat => p.1 * (prodPoly T p.2 nb).eval (t : F)).getD i 0) =
          (List.range (d + 1)).map fun t => g t + p.1 * (prodPoly T p.2 nb).eval (t : F) := by
        rw [List.length_map, List.length_range]
        apply List.map_congr_left
        intro i hi
        rw [List.mem_range] at hi
        rw [getD_map_range _ _ _ _ hi, getD_map_range _ _ _ _ hi]
      rw [e, ih (fun q hq => hp q (List.mem_cons_of_mem _ hq)) (fun q hq => hd q (List.mem_cons_of_mem _ hq))
        (fun q hq => hne q (List.mem_cons_of_mem _ hq))]
      congr 1
      apply List.map_congr_left
      intro t _
      simp [add_assoc]
  rw [key ps hp hd hne]
  simp

end Zksql
