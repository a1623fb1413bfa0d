import Verif.Spec.Claims
import Verif.Lemmas.ZeroCheck
import Verif.Lemmas.SumCheckS
/-! Helper lemmas about folding claims. -/
set_option linter.unusedSectionVars false
namespace Zksql
open Spec
variable {F : Type} [Field F]

theorem dot_cons (c v : F) (cs vs : List F) : dot (c :: cs) (v :: vs) = c * v + dot cs vs := by
  simp [dot]

theorem dot_nil_left (vs : List F) : dot [] vs = 0 := by simp [dot]
theorem dot_nil_right (cs : List F) : dot cs [] = 0 := by cases cs <;> simp [dot]

theorem dot_sub (ds us vs : List F) (h : us.length = vs.length) : dot ds us - dot ds vs = dot ds (List.zipWith (· - ·) us vs) := by
  induction ds generalizing us vs with
  | nil => simp [dot_nil_left]
  | cons d ds ih =>
    rcases us with _ | ⟨u, us⟩ <;> rcases vs with _ | ⟨v, vs⟩
    · simp [dot_nil_right]
    · simp at h
    · simp at h
    · rw [List.zipWith_cons_cons, dot_cons, dot_cons, dot_cons, ← ih us vs (by simpa using h)]
      ring

theorem dot_zero (ds vs : List F) (h : ∀ v ∈ vs, v = 0) : dot ds vs = 0 := by
  induction ds generalizing vs with
  | nil => simp [dot_nil_left]
  | cons d ds ih =>
    rcases vs with _ | ⟨v, vs⟩
    · simp [dot_nil_right]
    · rw [dot_cons, h v List.mem_cons_self, ih vs (fun v hv => h v (List.mem_cons_of_mem _ hv))]; ring

theorem dot_append_single (ds vs : List F) (x : F) (h : vs.length < ds.length) :
    dot ds (vs ++ [x]) = dot ds vs + ds.getD vs.length 0 * x := by
  induction ds generalizing vs with
  | nil => simp at h
  | cons d ds ih =>
    rcases vs with _ | ⟨v, vs⟩
    · simp [dot_nil_right, dot_cons]
    · rw [List.cons_append, dot_cons, dot_cons, ih vs (by simpa using h)]
      simp only [List.length_cons, List.getD_cons_succ]
      ring

/-- Sums commute with `dot`. -/
theorem cubeSum_dot {α : Type} (N : Nat) (ds : List F) (l : List α) (f : α → Nat → F) :
    cubeSum N (fun b => dot ds (l.map fun a => f a b)) = dot ds (l.map fun a => cubeSum N (f a)) := by
  induction ds generalizing l with
  | nil => simp [dot_nil_left, cubeSum]
  | cons d ds ih =>
    rcases l with _ | ⟨a, l⟩
    · simp [dot_nil_right, cubeSum]
    · simp only [List.map_cons, dot_cons]
      rw [← ih l]
      simp only [cubeSum, Finset.sum_add_distrib, Finset.mul_sum]

theorem eqPoly_boolPt (N : Nat) (r : List F) (hr : r.length = N) (b : Nat) (hb : b < 2 ^ N) : eqPoly (boolPt N b) r = eqWeight r b := by
  rw [← mle_eqWeight r _ (by simp [hr]), mle_boolPt _ _ _ hb]

/-- The folded claim as a linear condition. -/
theorem folded_iff (N : Nat) (zs : List (Nat → F)) (vs : List ((Nat → F) × F)) (cs r ds : List F) (hr : r.length = N) :
    FoldedClaim N zs vs cs r ds ↔
      dot ds ((vs.map fun v => cubeSum N v.1 - v.2) ++ [mle (fun b => dot cs (zs.map (· b))) r]) = 0 := by
  unfold FoldedClaim foldedValue foldedSum
  have h1 : cubeSum N (fun b => dot ds ((vs.map fun v => v.1 b) ++ [dot cs (zs.map (· b)) * eqPoly (boolPt N b) r])) =
      dot ds ((vs.map fun v => cubeSum N v.1) ++ [mle (fun b => dot cs (zs.map (· b))) r]) := by
    have := cubeSum_dot N ds (vs.map (·.1) ++ [fun b => dot cs (zs.map (· b)) * eqPoly (boolPt N b) r]) (fun g b => g b)
    simp only [List.map_append, List.map_map, List.map_cons, List.map_nil, Function.comp_def] at this
    rw [this]
    congr 3
    unfold cubeSum mle
    rw [hr]
    apply Finset.sum_congr rfl
    intro b hb
    beta_reduce
    rw [eqPoly_boolPt N r hr b (Finset.mem_range.1 hb)]
  rw [h1, ← sub_eq_zero, dot_sub _ _ _ (by simp)]
  have : List.zipWith (· - ·) ((vs.map fun v => cubeSum N v.1) ++ [mle (fun b => dot cs (zs.map (· b))) r]) ((vs.map (·.2)) ++ [0]) =
      (vs.map fun v => cubeSum N v.1 - v.2) ++ [mle (fun b => dot cs (zs.map (· b))) r] := by
    rw [List.zipWith_append (by simp)]
    simp [List.zipWith_map_left, List.zipWith_map_right]
  rw [this]

theorem folded_complete (N : Nat) (zs : List (Nat → F)) (vs : List ((Nat → F) × F)) (h : AllClaims N zs vs) (cs r ds : List F) (hr : r.length = N) :
    FoldedClaim N zs vs cs r ds := by
  rw [folded_iff N zs vs cs r ds hr]
  apply dot_zero
  intro x hx
  rcases List.mem_append.1 hx with hx | hx
  · obtain ⟨v, hv, rfl⟩ := List.mem_map.1 hx
    rw [h.2 v hv, sub_self]
  · obtain rfl : x = _ := by simpa using hx
    rw [mle_congr (g := fun _ => 0) r, mle_const]
    intro b hb
    apply dot_zero
    intro y hy
    obtain ⟨z, hz, rfl⟩ := List.mem_map.1 hy
    exact h.1 z hz b (hr ▸ hb)

/-! ### Counting -/

theorem dot_ofFn {k : Nat} (d : Fin k → F) (a : List F) (ha : a.length = k) : dot (List.ofFn d) a = ∑ j : Fin k, d j * a.getD j 0 := by
  induction k generalizing a with
  | zero => simp [dot_nil_left]
  | succ k ih =>
    rcases a with _ | ⟨x, a⟩
    · simp at ha
    · rw [List.ofFn_succ, dot_cons, ih _ a (by simpa using ha), Fin.sum_univ_succ]
      simp

/-- A non-trivial linear condition holds for at most one in `|F|` vectors. -/
theorem card_dot_zero [Fintype F] [DecidableEq F] {k : Nat} (a : List F) (ha : a.length = k) (h : ∃ x ∈ a, x ≠ 0) :
    (Finset.univ.filter fun d : Fin k → F => dot (List.ofFn d) a = 0).card * Fintype.card F ≤ Fintype.card F ^ k := by
  classical
  obtain ⟨x, hx, hne⟩ := h
  obtain ⟨j, hj, rfl⟩ := List.getElem_of_mem hx
  let j' : Fin k := ⟨j, ha ▸ hj⟩
  have haj : a.getD j' 0 ≠ 0 := by simpa [j', List.getD_eq_getElem?_getD, hj] using hne
  have hsum : ∀ (d : Fin k → F) (t : F), (∑ i : Fin k, (d + Pi.single j' t : Fin k → F) i * a.getD i 0) = (∑ i : Fin k, d i * a.getD i 0) + t * a.getD j' 0 := by
    intro d t
    simp only [Pi.add_apply, add_mul, Finset.sum_add_distrib]
    congr 1
    rw [Finset.sum_eq_single j']
    · simp
    · intro b _ hb; simp [Pi.single_eq_of_ne hb]
    · simp
  have hpow : Fintype.card F ^ k = (Finset.univ : Finset (Fin k → F)).card := by simp
  rw [hpow, ← Finset.card_univ (α := F), ← Finset.card_product]
  apply Finset.card_le_card_of_injOn (fun e => e.1 + Pi.single j' e.2)
  · intro _ _; simp
  · rintro ⟨d, t⟩ h1 ⟨d', t'⟩ h2 e
    simp only [Finset.coe_product, Set.mem_prod, Finset.mem_coe, Finset.mem_filter, Finset.mem_univ, true_and, and_true] at h1 h2
    rw [dot_ofFn _ a ha] at h1 h2
    have e' : d + Pi.single j' t = d' + Pi.single j' t' := e
    have e1 := hsum d t
    rw [e', hsum d' t', h1, h2] at e1
    have ht : t = t' := by
      have : t' * a.getD j' 0 = t * a.getD j' 0 := by simpa using e1
      exact (mul_right_cancel₀ haj this).symm
    subst ht
    rw [add_right_cancel e']

/-- Union bound over two successive choices. -/
theorem card_two_step {A B : Type} [Fintype A] [Fintype B] (P : A × B → Prop) [DecidablePred P] (Q : A → Prop) [DecidablePred Q] (q ka kb : Nat)
    (hQ : (Finset.univ.filter Q).card * q ≤ ka * Fintype.card A)
    (hP : ∀ a, ¬ Q a → (Finset.univ.filter fun b => P (a, b)).card * q ≤ kb * Fintype.card B) :
    (Finset.univ.filter P).card * q ≤ (ka + kb) * (Fintype.card A * Fintype.card B) := by
  classical
  have h0 : (Finset.univ.filter P).card = ∑ a : A, (Finset.univ.filter fun b => P (a, b)).card := by
    simp only [Finset.card_filter]
    rw [Fintype.sum_prod_type]
  rw [h0, Finset.sum_mul]
  have h1 : ∀ a : A, (Finset.univ.filter fun b => P (a, b)).card * q ≤ (if Q a then q * Fintype.card B else 0) + kb * Fintype.card B := by
    intro a
    by_cases hq : Q a
    · rw [if_pos hq]
      have : (Finset.univ.filter fun b => P (a, b)).card ≤ Fintype.card B := Finset.card_le_univ _
      calc (Finset.univ.filter fun b => P (a, b)).card * q ≤ Fintype.card B * q := Nat.mul_le_mul_right _ this
        _ = q * Fintype.card B := Nat.mul_comm _ _
        _ ≤ _ := Nat.le_add_right _ _
    · rw [if_neg hq, Nat.zero_add]; exact hP a hq
  calc ∑ a : A, (Finset.univ.filter fun b => P (a, b)).card * q
      ≤ ∑ a : A, ((if Q a then q * Fintype.card B else 0) + kb * Fintype.card B) := Finset.sum_le_sum fun a _ => h1 a
    _ = (Finset.univ.filter Q).card * q * Fintype.card B + kb * (Fintype.card A * Fintype.card B) := by
        rw [Finset.sum_add_distrib, ← Finset.sum_filter, Finset.sum_const, Finset.sum_const, Finset.card_univ, smul_eq_mul, smul_eq_mul]
        ring
    _ ≤ ka * Fintype.card A * Fintype.card B + kb * (Fintype.card A * Fintype.card B) := by
        exact Nat.add_le_add_right (Nat.mul_le_mul_right _ hQ) _
    _ = _ := by ring

theorem folded_sound [Fintype F] [DecidableEq F] (N : Nat) (zs : List (Nat → F)) (vs : List ((Nat → F) × F)) (h : ¬ AllClaims N zs vs)
    (bad : (Fin zs.length → F) × (Fin N → F) × (Fin (vs.length + 1) → F) → Prop) [DecidablePred bad]
    (hbad : ∀ c r d, bad (c, r, d) → FoldedClaim N zs vs (List.ofFn c) (List.ofFn r) (List.ofFn d)) :
    (Finset.univ.filter bad).card * Fintype.card F ≤ (N + 2) * Fintype.card F ^ (zs.length + N + (vs.length + 1)) := by
  classical
  set q := Fintype.card F with hq
  have hlin : ∀ c r d, bad (c, r, d) →
      dot (List.ofFn d) ((vs.map fun v => cubeSum N v.1 - v.2) ++ [mle (fun b => dot (List.ofFn c) (zs.map (· b))) (List.ofFn r)]) = 0 :=
    fun c r d hb => (folded_iff N zs vs _ _ _ (by simp)).1 (hbad c r d hb)
  have hdcount : ∀ c r, (∃ x ∈ (vs.map fun v => cubeSum N v.1 - v.2) ++ [mle (fun b => dot (List.ofFn c) (zs.map (· b))) (List.ofFn r)], x ≠ 0) →
      (Finset.univ.filter fun d => bad (c, r, d)).card * q ≤ 1 * Fintype.card (Fin (vs.length + 1) → F) := by
    intro c r hx
    have := card_dot_zero (k := vs.length + 1) _ (by simp) hx
    rw [Fintype.card_fun, Fintype.card_fin, one_mul]
    refine le_trans (Nat.mul_le_mul_right _ (Finset.card_le_card ?_)) this
    intro d hd
    simp only [Finset.mem_filter, Finset.mem_univ, true_and] at hd ⊢
    exact hlin c r d hd
  have hcard : ∀ k : Nat, Fintype.card (Fin k → F) = q ^ k := fun k => by rw [Fintype.card_fun, Fintype.card_fin]
  by_cases hs : ∀ v ∈ vs, cubeSum N v.1 = v.2
  · -- some zero claim is false
    have hz : ∃ z ∈ zs, ∃ b < 2 ^ N, z b ≠ 0 := by
      by_contra hcon
      push Not at hcon
      exact h ⟨hcon, hs⟩
    obtain ⟨z, hz, b0, hb0, hzb⟩ := hz
    have hc : (Finset.univ.filter fun c : Fin zs.length → F => dot (List.ofFn c) (zs.map (· b0)) = 0).card * q ≤ 1 * Fintype.card (Fin zs.length → F) := by
      rw [hcard, one_mul]
      exact card_dot_zero _ (by simp) ⟨z b0, List.mem_map.2 ⟨z, hz, rfl⟩, hzb⟩
    have hrd : ∀ c : Fin zs.length → F, ¬ dot (List.ofFn c) (zs.map (· b0)) = 0 →
        (Finset.univ.filter fun rd => bad (c, rd)).card * q ≤ (N + 1) * Fintype.card ((Fin N → F) × (Fin (vs.length + 1) → F)) := by
      intro c hne
      rw [Fintype.card_prod]
      apply card_two_step (fun rd => bad (c, rd)) (fun r => mle (fun b => dot (List.ofFn c) (zs.map (· b))) (List.ofFn r) = 0) q N 1
      · have := mle_zero_count N (fun b => dot (List.ofFn c) (zs.map (· b))) ⟨b0, hb0, hne⟩
        rw [hcard]
        rcases N with _ | N
        · simp at this; simp [this]
        · calc _ ≤ (N + 1) * q ^ (N + 1 - 1) * q := Nat.mul_le_mul_right _ this
            _ = _ := by rw [Nat.add_sub_cancel]; ring
      · intro r hr
        exact hdcount c r ⟨_, List.mem_append_right _ (List.mem_singleton.2 rfl), hr⟩
    have := card_two_step bad (fun c => dot (List.ofFn c) (zs.map (· b0)) = 0) q 1 (N + 1) hc hrd
    rw [Fintype.card_prod, hcard, hcard, hcard] at this
    calc _ ≤ _ := this
      _ = _ := by ring
  · push Not at hs
    obtain ⟨v, hv, hne⟩ := hs
    have key : ∀ cr : (Fin zs.length → F), ¬ False →
        (Finset.univ.filter fun rd => bad (cr, rd)).card * q ≤ (0 + 1) * Fintype.card ((Fin N → F) × (Fin (vs.length + 1) → F)) := by
      intro c _
      rw [Fintype.card_prod]
      apply card_two_step (fun rd => bad (c, rd)) (fun _ => False) q 0 1
      · simp
      · intro r _
        exact hdcount c r ⟨_, List.mem_append_left _ (List.mem_map.2 ⟨v, hv, rfl⟩), sub_ne_zero.2 hne⟩
    have := card_two_step bad (fun _ => False) q 0 (0 + 1) (by simp) key
    rw [Fintype.card_prod, hcard, hcard, hcard] at this
    calc _ ≤ _ := this
      _ = 1 * q ^ (zs.length + N + (vs.length + 1)) := by ring
      _ ≤ _ := Nat.mul_le_mul_right _ (by omega)

end Zksql
