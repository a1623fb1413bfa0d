import Verif.Lemmas.SumCheckV
import Mathlib.Algebra.Polynomial.Roots
import Mathlib.Data.Fin.Tuple.Basic
import Mathlib.Data.Fintype.Pi
/-! Helper lemmas: completeness and soundness of the sumcheck protocol. -/
set_option linter.unusedSectionVars false
namespace Zksql
open Spec Polynomial
variable {F C : Type} [Field F]

theorem mle_affine (f : Nat → F) (a b : List F) : ∃ u v : F, ∀ x, mle f (a ++ x :: b) = u + v * x := by
  induction a generalizing f with
  | nil =>
    refine ⟨mle (fun i => f (2 * i)) b, mle (fun i => f (2 * i + 1) - f (2 * i)) b, ?_⟩
    intro x
    rw [List.nil_append, mle_cons, mul_comm, ← mle_smul, ← mle_add]
    apply mle_congr
    intro i _
    simp only [foldTbl]; ring
  | cons y a ih =>
    obtain ⟨u, v, h⟩ := ih (foldTbl y f)
    exact ⟨u, v, fun x => by rw [List.cons_append, mle_cons, h]⟩

theorem indivDegree_prod (g : Nat → List F → F) (p : List Nat) (n : Nat) (hg : ∀ i ∈ p, IndivDegree (g i) n 1) :
    IndivDegree (fun pt => (p.map fun i => g i pt).prod) n p.length := by
  intro a b hab
  induction p with
  | nil => exact ⟨1, by simp, by simp⟩
  | cons i p ih =>
    obtain ⟨q, hq, hqe⟩ := ih (fun j hj => hg j (List.mem_cons_of_mem _ hj))
    obtain ⟨r, hr, hre⟩ := hg i (by simp) a b hab
    refine ⟨r * q, ?_, ?_⟩
    · refine natDegree_mul_le.trans ?_
      simp only [List.length_cons]; omega
    · intro x
      simp only [List.map_cons, List.prod_cons, eval_mul, hre x]
      rw [← hqe x]

theorem indivDegree_mle (f : Nat → F) (n : Nat) : IndivDegree (mle f) n 1 := by
  intro a b _
  obtain ⟨u, v, h⟩ := mle_affine f a b
  refine ⟨Polynomial.C v * X + Polynomial.C u, natDegree_linear_le, ?_⟩
  intro x; rw [h]; simp; ring

theorem indivDegree_polyVal (vp : VirtPoly F) (hdeg : ∀ p ∈ vp.products, p.2.length ≤ vp.maxDegree) (n : Nat) :
    IndivDegree vp.polyVal n vp.maxDegree := by
  intro a b hab
  unfold VirtPoly.polyVal VirtPoly.prodsVal
  generalize hps : vp.products = ps at hdeg
  clear hps
  induction ps with
  | nil => exact ⟨0, by simp, by simp⟩
  | cons p ps ih =>
    obtain ⟨q, hq, hqe⟩ := ih (fun j hj => hdeg j (List.mem_cons_of_mem _ hj))
    obtain ⟨r, hr, hre⟩ := indivDegree_prod (fun i pt => mle (vp.tblAt i) pt) p.2 n (fun i _ => indivDegree_mle _ n) a b hab
    refine ⟨Polynomial.C p.1 * r + q, ?_, ?_⟩
    · refine (natDegree_add_le _ _).trans (max_le ?_ hq)
      exact (natDegree_C_mul_le _ _).trans (hr.trans (hdeg p (by simp)))
    · intro x
      simp only [List.map_cons, List.sum_cons, eval_add, eval_mul, eval_C, hqe x, ← hre x]

theorem exists_roundPoly {f : List F → F} {n d : Nat} (hf : IndivDegree f n d) (pre : List F) (hpre : pre.length < n) :
    ∃ q, IsRoundPoly f n d pre q := by
  have h : ∀ i, ∃ q : F[X], q.natDegree ≤ d ∧ ∀ x, f (pre ++ x :: boolPt (n - (pre.length + 1)) i) = q.eval x :=
    fun i => hf pre _ (by simp; omega)
  choose q hq hqe using h
  refine ⟨∑ i ∈ Finset.range (2 ^ (n - (pre.length + 1))), q i, natDegree_sum_le_of_forall_le _ _ fun i _ => hq i, ?_⟩
  intro x
  rw [eval_finsetSum, partialSum, cubeSum, List.length_append, List.length_singleton]
  apply Finset.sum_congr rfl
  intro i _
  rw [← hqe, List.append_assoc, List.singleton_append]

theorem partialSum_step (f : List F → F) (n : Nat) (pre : List F) (hpre : pre.length < n) :
    partialSum f n pre = partialSum f n (pre ++ [0]) + partialSum f n (pre ++ [1]) := by
  unfold partialSum cubeSum
  simp only [List.length_append, List.length_singleton]
  obtain ⟨k, hk⟩ : ∃ k, n - pre.length = k + 1 := ⟨n - pre.length - 1, by omega⟩
  have hk' : n - (pre.length + 1) = k := by omega
  rw [hk, hk', pow_succ, mul_comm, sum_range_two_mul, ← Finset.sum_add_distrib]
  apply Finset.sum_congr rfl
  intro i _
  rw [boolPt_succ, boolPt_succ]
  have h3 : (2 * i) / 2 = i := by omega
  have h4 : (2 * i + 1) / 2 = i := by omega
  rw [h3, h4]
  simp

theorem partialSum_full (f : List F → F) (n : Nat) (pre : List F) (hpre : pre.length = n) : partialSum f n pre = f pre := by
  simp [partialSum, cubeSum, hpre, boolPt_zero]

theorem honestMsg_isMessagePoly {f : List F → F} {n d : Nat} {pre : List F} {q : F[X]} (hq : IsRoundPoly f n d pre q) :
    IsMessagePoly d (honestMsg f n d pre) q := by
  refine ⟨hq.1, by simp [honestMsg], ?_⟩
  intro i hi
  rw [honestMsg, getD_map_range _ _ _ _ (by omega), hq.2]

theorem honest_accepted {f : List F → F} {n d : Nat} (hf : IndivDegree f n d) (H : Oracle F C) (m : Nat) (pre : List F)
    (hm : pre.length + m = n) (tr : Transcript F C) :
    Accepted d (partialSum f n pre) (honestMsgs H f n d m pre tr) (roundChals H (honestMsgs H f n d m pre tr) tr).1
      (f (pre ++ (roundChals H (honestMsgs H f n d m pre tr) tr).1)) := by
  induction m generalizing pre tr with
  | zero =>
    simp only [honestMsgs, roundChals, Accepted, List.append_nil]
    rw [partialSum_full f n pre (by omega)]
  | succ m ih =>
    obtain ⟨q, hq⟩ := exists_roundPoly hf pre (by omega)
    simp only [honestMsgs, roundChals, Accepted]
    refine ⟨q, honestMsg_isMessagePoly hq, ?_, ?_⟩
    · rw [hq.2, hq.2, ← partialSum_step f n pre (by omega)]
    · rw [hq.2]
      set s := chalStep H (tr.append "prover msg" (.elems (honestMsg f n d pre))) "Internal round"
      have := ih (pre ++ [s.1]) (by simp; omega) s.2
      simpa using this

/-- Deterministic core of soundness: a false claim that survives has a round in which the challenge is a root of the difference of
two distinct polynomials of degree at most `d`. -/
theorem accepted_bad_round {f : List F → F} {n d : Nat} (hf : IndivDegree f n d) (ms : List (List F)) (cs : List F) (pre : List F)
    (hl : pre.length + cs.length = n) (claim : F) (hacc : Accepted d claim ms cs (f (pre ++ cs)))
    (hfalse : claim ≠ partialSum f n pre) :
    ∃ k m c q g, ms[k]? = some m ∧ cs[k]? = some c ∧ IsMessagePoly d m q ∧ IsRoundPoly f n d (pre ++ cs.take k) g ∧
      q ≠ g ∧ q.eval c = g.eval c := by
  induction cs generalizing ms pre claim with
  | nil =>
    cases ms with
    | nil =>
      simp only [Accepted, List.append_nil] at hacc
      rw [partialSum_full f n pre (by simpa using hl)] at hfalse
      exact absurd hacc.symm hfalse
    | cons m ms => simp [Accepted] at hacc
  | cons c cs ih =>
    cases ms with
    | nil => simp [Accepted] at hacc
    | cons m ms =>
      simp only [List.length_cons] at hl
      simp only [Accepted] at hacc
      obtain ⟨q, hq, hsum, hrest⟩ := hacc
      obtain ⟨g, hg⟩ := exists_roundPoly hf pre (by omega)
      have hne : q ≠ g := by
        rintro rfl
        apply hfalse
        rw [← hsum, hg.2, hg.2, ← partialSum_step f n pre (by omega)]
      by_cases hc : q.eval c = g.eval c
      · exact ⟨0, m, c, q, g, rfl, rfl, hq, by simpa using hg, hne, hc⟩
      · have hrest' : Accepted d (q.eval c) ms cs (f ((pre ++ [c]) ++ cs)) := by simpa using hrest
        obtain ⟨k, m', c', q', g', h1, h2, h3, h4, h5, h6⟩ := ih ms (pre ++ [c]) (by simp; omega) _ hrest'
          (by rw [← hg.2]; exact hc)
        exact ⟨k + 1, m', c', q', g', by simpa using h1, by simpa using h2, h3, by simpa using h4, h5, h6⟩

/-- Messages of an adaptive strategy that sees the challenges so far. -/
def stratMsgs (P : List F → List F) : List F → List F → List (List F)
  | _, [] => []
  | pre, c :: cs => P pre :: stratMsgs P (pre ++ [c]) cs

theorem card_filter_cons [Fintype F] (m : Nat) (p : (Fin (m + 1) → F) → Prop) [DecidablePred p] :
    (Finset.univ.filter p).card = ∑ c : F, (Finset.univ.filter fun r : Fin m → F => p (Fin.cons c r)).card := by
  classical
  simp only [Finset.card_filter]
  rw [← (Fin.consEquiv (fun _ : Fin (m + 1) => F)).sum_comp, Fintype.sum_prod_type]
  rfl

theorem sumcheck_count [Fintype F] [DecidableEq F] {f : List F → F} {n d : Nat} (hn : NatsNonzero F d) (hf : IndivDegree f n d)
    (P : List F → List F) (m : Nat) (pre : List F) (hl : pre.length + m = n) (claim : F)
    (hfalse : claim ≠ partialSum f n pre) (good : (Fin m → F) → Prop) [DecidablePred good]
    (hgood : ∀ r, good r → Accepted d claim (stratMsgs P pre (List.ofFn r)) (List.ofFn r) (f (pre ++ List.ofFn r))) :
    (Finset.univ.filter good).card ≤ m * d * Fintype.card F ^ (m - 1) := by
  induction m generalizing pre claim with
  | zero =>
    rw [Nat.zero_mul, Nat.zero_mul, Nat.le_zero, Finset.card_eq_zero, Finset.filter_eq_empty_iff]
    intro r _ hr
    have h := hgood r hr
    have h0 : List.ofFn r = [] := by simp
    rw [h0] at h
    simp only [stratMsgs, Accepted, List.append_nil] at h
    rw [partialSum_full f n pre (by omega)] at hfalse
    exact hfalse h.symm
  | succ m ih =>
    obtain ⟨g, hg⟩ := exists_roundPoly hf pre (by omega)
    rw [card_filter_cons]
    have hcard : ∀ p : (Fin m → F) → Prop, ∀ _ : DecidablePred p, (Finset.univ.filter p).card ≤ Fintype.card F ^ m := by
      intro p _
      refine (Finset.card_filter_le _ _).trans ?_
      rw [Finset.card_univ, Fintype.card_fun, Fintype.card_fin]
    by_cases hlen : (P pre).length = d + 1
    · obtain ⟨q, hq⟩ := exists_messagePoly hn _ hlen
      by_cases hsum : q.eval 0 + q.eval 1 = claim
      · have hne : q - g ≠ 0 := by
          intro h0
          have : q = g := sub_eq_zero.1 h0
          subst this
          apply hfalse
          rw [← hsum, hg.2, hg.2, ← partialSum_step f n pre (by omega)]
        -- split challenges by whether they are roots
        have hroots : ((Finset.univ : Finset F).filter fun c => (q - g).eval c = 0).card ≤ d := by
          have h1 : ((Finset.univ : Finset F).filter fun c => (q - g).eval c = 0) ⊆ (q - g).roots.toFinset := by
            intro c hc
            rw [Multiset.mem_toFinset, mem_roots hne]
            exact (Finset.mem_filter.1 hc).2
          refine (Finset.card_le_card h1).trans ((Multiset.toFinset_card_le _).trans ((card_roots' _).trans ?_))
          exact (natDegree_sub_le _ _).trans (max_le hq.1 hg.1)
        have hterm : ∀ c : F, (Finset.univ.filter fun r : Fin m → F => good (Fin.cons c r)).card ≤
            (if (q - g).eval c = 0 then Fintype.card F ^ m else 0) + m * d * Fintype.card F ^ (m - 1) := by
          intro c
          split
          · exact (hcard _ _).trans (Nat.le_add_right _ _)
          · next hc =>
            rw [Nat.zero_add]
            apply ih (pre ++ [c]) (by simp; omega) (q.eval c)
            · rw [← hg.2]
              intro h
              exact hc (by rw [eval_sub, h, sub_self])
            · intro r hr
              have h := hgood _ hr
              rw [List.ofFn_cons] at h
              simp only [stratMsgs, Accepted] at h
              obtain ⟨q', hq', hs', hrest⟩ := h
              rw [messagePoly_unique hn hq' hq] at hrest
              simpa using hrest
        refine (Finset.sum_le_sum fun c _ => hterm c).trans ?_
        rw [Finset.sum_add_distrib, Finset.sum_const, Finset.card_univ, ← Finset.sum_filter, Finset.sum_const, smul_eq_mul,
          smul_eq_mul]
        have e1 : ((Finset.univ : Finset F).filter fun c => (q - g).eval c = 0).card * Fintype.card F ^ m ≤ d * Fintype.card F ^ m :=
          Nat.mul_le_mul_right _ hroots
        have e2 : Fintype.card F * (m * d * Fintype.card F ^ (m - 1)) = m * d * Fintype.card F ^ m := by
          cases m with
          | zero => simp
          | succ m => rw [Nat.add_sub_cancel, pow_succ]; ring
        rw [e2, Nat.add_sub_cancel]
        calc _ ≤ d * Fintype.card F ^ m + m * d * Fintype.card F ^ m := Nat.add_le_add_right e1 _
          _ = _ := by ring
      · refine le_trans (le_of_eq ?_) (Nat.zero_le _)
        apply Finset.sum_eq_zero
        intro c _
        rw [Finset.card_eq_zero, Finset.filter_eq_empty_iff]
        intro r _ hr
        have h := hgood _ hr
        rw [List.ofFn_cons] at h
        simp only [stratMsgs, Accepted] at h
        obtain ⟨q', hq', hs', _⟩ := h
        rw [messagePoly_unique hn hq' hq] at hs'
        exact hsum hs'
    · refine le_trans (le_of_eq ?_) (Nat.zero_le _)
      apply Finset.sum_eq_zero
      intro c _
      rw [Finset.card_eq_zero, Finset.filter_eq_empty_iff]
      intro r _ hr
      have h := hgood _ hr
      rw [List.ofFn_cons] at h
      simp only [stratMsgs, Accepted] at h
      obtain ⟨q', hq', _⟩ := h
      exact hlen hq'.2.1

end Zksql
