import Verif.Spec.Chance
import Verif.Lemmas.Sound
import Mathlib.Algebra.BigOperators.Fin
import Mathlib.Algebra.Order.BigOperators.Group.Finset
import Mathlib.Data.Fintype.BigOperators
/-!
Counting the sequences of challenges in which one is exceptional.
-/
set_option linter.unusedSectionVars false
namespace Zksql
open Spec
variable {F C B : Type} [Field F]

/-- If the exceptional values of a challenge do not depend on it, a given challenge is exceptional with at most the probability `b / |F|`. -/
theorem chance_one [Fintype F] [DecidableEq F] {M : Nat} (k : Fin M) (b : Nat) (S : Finset (Fin M → F)) (pick : (Fin M → F) → Finset F) (hb : ∀ c ∈ S, (pick c).card ≤ b)
    (hp : ∀ c ∈ S, c k ∈ pick c) (he : ∀ c ∈ S, ∀ c' ∈ S, (∀ i, i ≠ k → c i = c' i) → pick c = pick c') : S.card * Fintype.card F ≤ b * Fintype.card F ^ M := by
  have h1 : S.card ≤ b * (S.image fun c (i : { i : Fin M // i ≠ k }) => c i).card := by
    refine Finset.card_le_mul_card_image S b fun r hr => ?_
    obtain ⟨c0, h0, rfl⟩ := Finset.mem_image.1 hr
    refine le_trans ?_ (hb c0 h0)
    refine Finset.card_le_card_of_injOn (fun c => c k) (fun c hc => ?_) fun c hc c' hc' e => ?_
    · obtain ⟨hc1, hc2⟩ := Finset.mem_filter.1 hc
      have : pick c = pick c0 := he c hc1 c0 h0 fun i hi => congrFun hc2 ⟨i, hi⟩
      exact this ▸ hp c hc1
    · obtain ⟨-, h2⟩ := Finset.mem_filter.1 hc
      obtain ⟨-, h3⟩ := Finset.mem_filter.1 hc'
      funext i
      by_cases hi : i = k
      · exact hi ▸ e
      · exact congrFun (h2.trans h3.symm) ⟨i, hi⟩
  have h2 : (S.image fun c (i : { i : Fin M // i ≠ k }) => c i).card ≤ Fintype.card F ^ (M - 1) := by
    refine (Finset.card_le_univ _).trans ?_
    rw [Fintype.card_fun, Fintype.card_subtype_compl, Fintype.card_fin, Fintype.card_subtype_eq]
  calc S.card * Fintype.card F ≤ b * Fintype.card F ^ (M - 1) * Fintype.card F := Nat.mul_le_mul_right _ (h1.trans (Nat.mul_le_mul_left _ h2))
    _ = b * Fintype.card F ^ M := by
      have := k.isLt
      rw [mul_assoc, ← pow_succ]
      congr 2
      omega

/-- The union of these bounds. -/
theorem chance_sum [Finite F] [DecidableEq F] {M : Nat} (bnd : Fin M → Nat) (Out : (Fin M → F) → Prop) (pick : (Fin M → F) → Fin M → Finset F)
    (hb : ∀ c k, Out c → c k ∈ pick c k → (pick c k).card ≤ bnd k) (hp : ∀ c, Out c → ∃ k, c k ∈ pick c k)
    (he : ∀ c c' k, Out c → Out c' → (∀ i, i < k → c i = c' i) → pick c k = pick c' k) : ChanceAtMost (∑ k, bnd k) Out := by
  classical
  have := Fintype.ofFinite F
  unfold ChanceAtMost
  rw [Nat.card_eq_fintype_card, Nat.card_eq_fintype_card, Fintype.card_subtype]
  let S : Fin M → Finset (Fin M → F) := fun k => Finset.univ.filter fun c => Out c ∧ c k ∈ pick c k
  have h1 : (Finset.univ.filter Out) ⊆ Finset.univ.biUnion S := by
    intro c hc
    obtain ⟨-, hc⟩ := Finset.mem_filter.1 hc
    obtain ⟨k, hk⟩ := hp c hc
    exact Finset.mem_biUnion.2 ⟨k, Finset.mem_univ _, Finset.mem_filter.2 ⟨Finset.mem_univ _, hc, hk⟩⟩
  calc (Finset.univ.filter Out).card * Fintype.card F ≤ (∑ k, (S k).card) * Fintype.card F :=
        Nat.mul_le_mul_right _ ((Finset.card_le_card h1).trans Finset.card_biUnion_le)
    _ = ∑ k, (S k).card * Fintype.card F := Finset.sum_mul _ _ _
    _ ≤ ∑ k, bnd k * Fintype.card F ^ M := Finset.sum_le_sum fun k _ => chance_one k (bnd k) (S k) (fun c => pick c k)
        (fun c hc => (Finset.mem_filter.1 hc).2.elim fun h1 h2 => hb c k h1 h2) (fun c hc => (Finset.mem_filter.1 hc).2.2)
        fun c hc c' hc' e => he c c' k (Finset.mem_filter.1 hc).2.1 (Finset.mem_filter.1 hc').2.1 fun i hi => e i (ne_of_lt hi)
    _ = (∑ k, bnd k) * Fintype.card F ^ M := (Finset.sum_mul _ _ _).symm

theorem draws_append (a b : List (TEvent F C)) : draws (a ++ b) = draws a + draws b := by simp [draws]

/-- The `k`-th challenge of a session. -/
theorem squeezes_draws : ∀ (ev pre : List (TEvent F C)) (k : Nat) (h : List (TEvent F C)), (squeezes pre ev)[k]? = some h → draws h = draws pre + k + 1
  | [], _, k, h, hk => by simp [squeezes] at hk
  | .absorb l d :: r, pre, k, h, hk => by
    simp only [squeezes] at hk
    rw [squeezes_draws r _ k h hk, draws_append]
    simp [draws]
  | .squeeze l :: r, pre, k, h, hk => by
    simp only [squeezes] at hk
    cases k with
    | zero =>
      obtain rfl := Option.some.inj hk
      rw [draws_append]
      simp [draws]
    | succ k =>
      rw [List.getElem?_cons_succ] at hk
      rw [squeezes_draws r _ k h hk, draws_append]
      simp [draws]
      omega

theorem dealt_at {M : Nat} (c : Fin M → F) {pre ev h : List (TEvent F C)} {k : Nat} (h0 : draws pre = 0) (hk : (squeezes pre ev)[k]? = some h) (hM : k < M) (l : String) :
    dealt c l h = c ⟨k, hM⟩ := by
  have := squeezes_draws ev pre k h hk
  unfold dealt
  rw [dif_pos (by omega)]
  congr 2
  omega

/-- Sum over a list, position by position. -/
theorem sum_getD_le (l : List Nat) {M : Nat} (hM : l.length ≤ M) : ∑ k : Fin M, l.getD k.val 0 = l.sum := by
  induction l generalizing M with
  | nil => simp
  | cons a l ih =>
    obtain ⟨M, rfl⟩ : ∃ m, M = m + 1 := ⟨M - 1, by simp at hM; omega⟩
    rw [Fin.sum_univ_succ]
    have h1 : ∀ i : Fin M, (a :: l).getD i.succ.val 0 = l.getD i.val 0 := fun i => by simp
    rw [Finset.sum_congr rfl fun i _ => h1 i, ih (by simpa using hM)]
    simp

/-- Soundness up to a few exceptional challenges, as a probability. -/
theorem sound_chance [Finite F] [DecidableEq F] {α : Type} {V : Oracle F C → Act (VSt F C B) α} {s : VSt F C B} {N : Nat} {bounds : List Nat}
    {Concl : CompiledProof F C B → (C → List F → F) → Prop} (h : SoundExcept V s N bounds Concl) (hs : draws s.own.transcript.events = 0) {M : Nat} (hM : bounds.length ≤ M)
    (P : C → List F → F) (prover : (Fin M → F) → CompiledProof F C B)
    (hon : Online (fun c => (V (dealt c) (withProof s (prover c))).1.isOk = true) fun c => newChallenges s (V (dealt c) (withProof s (prover c))).2) :
    ChanceAtMost bounds.sum fun c => ∃ a s', V (dealt c) (withProof s (prover c)) = (.ok a, s') ∧ ClaimsTrue P N s' ∧ ¬ Concl (prover c) P := by
  obtain ⟨bad, hbad⟩ := h
  rw [← sum_getD_le bounds hM]
  let hist : (Fin M → F) → List (List (TEvent F C)) := fun c => newChallenges s (V (dealt c) (withProof s (prover c))).2
  refine chance_sum _ _ (fun c k => ((hist c)[k.val]?.map fun h => bad h P).getD ∅) ?_ ?_ ?_
  · rintro c k ⟨a, s', hv, -⟩ hk
    obtain ⟨-, h2, -⟩ := hbad (prover c) (dealt c) a s' hv
    have hh : hist c = newChallenges s s' := congrArg (fun q => newChallenges s q.2) hv
    rw [hh] at hk ⊢
    rcases e : (newChallenges s s')[k.val]? with _ | x
    · simp
    · exact (h2 k.val x e).1 P
  · rintro c ⟨a, s', hv, hc, hn⟩
    obtain ⟨h1, -, h3⟩ := hbad (prover c) (dealt c) a s' hv
    by_contra hno
    refine hn (h3 P hc fun x hx hin => hno ?_)
    obtain ⟨k, hk, rfl⟩ := List.getElem_of_mem hx
    have hk' := List.getElem?_eq_getElem hk
    refine ⟨⟨k, by omega⟩, ?_⟩
    rw [dealt_at c hs hk' (by omega)] at hin
    have hh : hist c = newChallenges s s' := congrArg (fun q => newChallenges s q.2) hv
    rw [hh, hk']
    exact hin
  · rintro c c' k ⟨a, s', hv, -⟩ ⟨a', s'', hv', -⟩ e
    have := hon c c' (congrArg (fun q => q.1.isOk) hv) (congrArg (fun q => q.1.isOk) hv') k.val fun i hi => e i hi
    rw [show (hist c)[k.val]? = (hist c')[k.val]? from this]
theorem squeezes_length : ∀ (ev pre : List (TEvent F C)), (squeezes pre ev).length = draws ev
  | [], _ => rfl
  | .absorb l d :: r, pre => by
    rw [squeezes, squeezes_length r]
    simp [draws]
  | .squeeze l :: r, pre => by
    rw [squeezes, List.length_cons, squeezes_length r]
    simp [draws]

theorem dealt_after {M : Nat} (c : Fin M → F) {pre ev h : List (TEvent F C)} {k : Nat} (hk : (squeezes pre ev)[k]? = some h) (hM : draws pre + k < M) (l : String) :
    dealt c l h = c ⟨draws pre + k, hM⟩ := by
  have := squeezes_draws ev pre k h hk
  unfold dealt
  rw [dif_pos (by omega)]
  congr 2
  omega
theorem Spec.ChanceAtMost.mono [Finite F] {M b : Nat} {A B : (Fin M → F) → Prop} (h : ChanceAtMost b B) (hab : ∀ c, A c → B c) : ChanceAtMost b A :=
  le_trans (Nat.mul_le_mul_right _ (Nat.card_le_card_of_injective (fun c : { c // A c } => (⟨c.1, hab c.1 c.2⟩ : { c // B c })) fun _ _ e => Subtype.ext (Subtype.mk.inj e))) h

end Zksql
