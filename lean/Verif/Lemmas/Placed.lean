import Verif.Spec.Placed
import Verif.Spec.ProgramSound
import Verif.Lemmas.Reorder
/-!
Renaming the columns of a check.
-/
set_option linter.unusedSectionVars false
namespace Zksql.Spec
open Zksql
variable {F K L : Type} [Field F] [DecidableEq F] {W : L → Column F} {φ : K → L} {N d : Nat}

namespace Check

theorem names_map (c : Check K) : (c.map φ).names = c.names.map φ := by
  cases c <;> simp [Check.map, Check.names, List.map_flatMap, List.flatMap_map, Function.comp_def]

theorem cost_map (c : Check K) : (c.map φ).cost = c.cost := by
  cases c <;> simp [Check.map, Check.cost, List.countP_map, Function.comp_def]

theorem degree_map (c : Check K) : (c.map φ).degree d = c.degree d := by
  cases c <;> simp [Check.map, Check.degree]

theorem bounds_map (c : Check K) : (c.map φ).bounds W = c.bounds fun k => W (φ k) := by
  cases c <;> simp [Check.map, Check.bounds, Function.comp_def, List.filter_map]

theorem runs_map {debug : Bool} (c : Check K) : (c.map φ).Runs debug W ↔ c.Runs debug fun k => W (φ k) := by
  cases c <;> simp [Check.map, Check.Runs, tabData, Function.comp_def]

theorem reaches_map (c : Check K) : (c.map φ).Reaches N W ↔ c.Reaches N fun k => W (φ k) := by
  cases c <;> rfl

theorem valid_map {rep : F → Nat} (c : Check K) : (c.map φ).Valid rep W ↔ c.Valid rep fun k => W (φ k) := by
  cases c
  case multiset fs gs => simp [Check.map, Check.Valid, bagTab, Function.comp_def]
  case indexTransform inp out => simp [Check.map, Check.Valid, tabData, Function.comp_def]
  case joinAdvice a b ai bi ta => simp [Check.map, Check.Valid, tabData, Function.comp_def]
  case groupBy inp key grp mult aggs range => simp [Check.map, Check.Valid, tabData, groupData, bagTab, Function.comp_def]
  all_goals rfl

theorem means_map (c : Check K) : (c.map φ).Means N W ↔ c.Means N fun k => W (φ k) := by
  cases c
  case multiset fs gs => simp [Check.map, Check.Means, bagTab, Function.comp_def]
  case indexTransform inp out => simp [Check.map, Check.Means, tabData, Function.comp_def]
  case joinAdvice a b ai bi ta => simp [Check.map, Check.Means, tabData, Function.comp_def]
  case groupBy inp key grp mult aggs range =>
    simp only [Check.map, Check.Means, tabData, groupData, bagTab, Function.comp_def, List.map_map, List.forall_mem_map, Prod.map_fst, Prod.map_snd]
  all_goals rfl

theorem fits_map (c : Check K) : (c.map φ).Fits N W ↔ c.Fits N fun k => W (φ k) := by
  unfold Check.Fits
  rw [names_map, List.forall_mem_map]
  refine and_congr_right fun _ => ?_
  cases c
  case multiset fs gs =>
    simp only [Check.map, ← List.map_append, List.forall_mem_map, ne_eq, List.map_eq_nil_iff]
    rfl
  case indexTransform inp out =>
    simp only [Check.map, EvenTab, List.forall_mem_map, List.length_map]
  case joinAdvice a b ai bi ta =>
    simp only [Check.map, EvenTab, List.forall_mem_map, List.length_map]
  case groupBy inp key grp mult aggs range =>
    simp only [Check.map, EvenTab, Spec.Even, List.forall_mem_map, List.length_map, Prod.map_fst, Prod.map_snd]
  all_goals rfl

theorem bounds_of_eq {W W' : K → Column F} (c : Check K) (h : ∀ k ∈ c.names, W' k = W k) : c.bounds W' = c.bounds W := by
  cases c
  case multiset fs gs =>
    simp only [Check.bounds]
    rw [List.map_congr_left fun e he => by rw [h e.1.1 (List.mem_flatMap.2 ⟨e, he, by simp⟩)]]
  case groupBy inp key grp mult aggs range =>
    simp only [Check.bounds, h grp.1 (by simp [Check.names]), h inp.2 (by simp [Check.names]), h range.1 (by simp [Check.names])]
  case indexTransform inp out => simp only [Check.bounds, h inp.2 (by simp [Check.names]), h out.2 (by simp [Check.names])]
  case joinAdvice a b ai bi ta => simp only [Check.bounds, h a.2 (by simp [Check.names]), h b.2 (by simp [Check.names])]
  all_goals first
    | rfl
    | (simp only [Check.names, List.mem_cons, List.not_mem_nil, or_false, forall_eq_or_imp, forall_eq] at h
       simp only [Check.bounds, h])

theorem Fits.mono {W : K → Column F} {M : Nat} (h : N ≤ M) : ∀ c : Check K, c.Fits N W → c.Fits M W := by
  intro c hf
  refine ⟨fun k hk => (hf.1 k hk).trans h, ?_⟩
  replace hf := hf.2
  cases c
  case disjoint => exact ⟨hf.1, hf.2.1, hf.2.2.trans h⟩
  case setDisjoint => exact ⟨hf.1, hf.2.1, hf.2.2.trans h⟩
  case union => exact ⟨hf.1, hf.2.1, hf.2.2.1, hf.2.2.2.trans h⟩
  case diff => exact ⟨hf.1, hf.2.1, hf.2.2.1, hf.2.2.2.1, hf.2.2.2.2.1, hf.2.2.2.2.2.trans h⟩
  case intersect => exact ⟨hf.1, hf.2.1, hf.2.2.1, hf.2.2.2.1, hf.2.2.2.2.1, hf.2.2.2.2.2.trans h⟩
  case joinReduction => exact ⟨hf.1, hf.2.1, hf.2.2.1, hf.2.2.2.1, hf.2.2.2.2.trans h⟩
  all_goals exact hf

end Check

/-- The largest of some numbers and `N`. -/
theorem exists_top {α : Type} (f : α → Nat) (n : Nat) (hN : N ≤ n) : ∀ l : List α, (∀ x ∈ l, f x ≤ n) → ∃ M, N ≤ M ∧ M ≤ n ∧ (∀ x ∈ l, f x ≤ M) ∧ (M = N ∨ ∃ x ∈ l, f x = M)
  | [], _ => ⟨N, le_rfl, hN, fun _ h => absurd h List.not_mem_nil, .inl rfl⟩
  | a :: l, h => by
    obtain ⟨h0, h1⟩ := List.forall_mem_cons.1 h
    obtain ⟨M, r1, r2, r3, r4⟩ := exists_top f n hN l h1
    rcases le_total (f a) M with e | e
    · exact ⟨M, r1, r2, List.forall_mem_cons.2 ⟨e, r3⟩, r4.imp_right fun ⟨x, hx, hM⟩ => ⟨x, .tail _ hx, hM⟩⟩
    · exact ⟨f a, r1.trans e, h0, List.forall_mem_cons.2 ⟨le_rfl, fun x hx => (r3 x hx).trans e⟩, .inr ⟨a, .head _, rfl⟩⟩

end Zksql.Spec
