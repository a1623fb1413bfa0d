import Verif.Spec.Made
import Verif.Lemmas.Placed
import Verif.Spec.ProgramSound
/-!
A check depends on the contents of the columns it names.
-/
set_option linter.unusedSectionVars false
namespace Zksql.Spec
open Zksql
variable {F C B K : Type} [Field F] [DecidableEq F] {W W' : K → Column F} {N d : Nat}

theorem SameCol.symm {k : K} (h : SameCol W W' k) : SameCol W' W k := ⟨h.1.symm, fun i hi => (h.2 i (h.1 ▸ hi)).symm⟩

theorem SameCol.where' {k : K} (h : SameCol W W' k) (s : K) : SameWhere W W' s k := ⟨h.1, fun i hi _ => h.2 i hi⟩

theorem Check.sameActive_of_cols (c : Check K) (sc : ∀ k ∈ c.names, SameCol W W' k) : c.SameActive W W' := by
  have sw : ∀ s, ∀ k ∈ c.names, SameWhere W W' s k := fun s k hk => (sc k hk).where' s
  cases c
  case multiset fs gs =>
    intro e he
    have m : ∀ k ∈ [e.1.1, e.1.2, e.2], k ∈ (Check.multiset fs gs).names := fun k hk => List.mem_flatMap.2 ⟨e, he, hk⟩
    exact ⟨⟨sc _ (m _ (by simp)), sw _ _ (m _ (by simp))⟩, sw _ _ (m _ (by simp))⟩
  case indexTransform inp out =>
    exact ⟨⟨sc _ (by simp [Check.names]), fun c hc => sw _ _ (by simp [Check.names, hc])⟩, ⟨sc _ (by simp [Check.names]), fun c hc => sw _ _ (by simp [Check.names, hc])⟩⟩
  case joinAdvice a b ai bi ta =>
    exact ⟨⟨sc _ (by simp [Check.names]), fun c hc => sw _ _ (by simp [Check.names, hc])⟩, ⟨sc _ (by simp [Check.names]), fun c hc => sw _ _ (by simp [Check.names, hc])⟩,
      fun c hc => sw _ _ (by simp [Check.names, hc])⟩
  case groupBy inp key grp mult aggs range =>
    exact ⟨⟨sc _ (by simp [Check.names]), fun c hc => sw _ _ (by simp [Check.names, hc])⟩, sc _ (by simp [Check.names]), sc _ (by simp [Check.names]), sw _ _ (by simp [Check.names]),
      fun e he => sw _ _ (by
        have := List.mem_map_of_mem (f := fun e : Nat × AggType × K => e.2.2) he
        simp only [Check.names, List.mem_append, List.mem_cons]
        exact .inr (.inr (.inr (.inr (.inr (.inr (.inr this))))))), sc _ (by simp [Check.names])⟩
  all_goals
    simp only [Check.SameActive, SameBag]
    repeat' with_reducible apply And.intro
    all_goals first
      | exact sc _ (by simp [Check.names])
      | exact sw _ _ (by simp [Check.names])

/-- Whether a check fits depends on sizes only. -/
theorem Check.fits_of_sizes (c : Check K) (h : ∀ k, (W k).nv = (W' k).nv) (hf : c.Fits N W) : c.Fits N W' := by
  refine ⟨fun k hk => h k ▸ hf.1 k hk, ?_⟩
  replace hf := hf.2
  cases c
  all_goals simpa only [Spec.Even, EvenTab, h] using hf

namespace Step

theorem colAt_nv {V V' : List (Column F)} (h : V.map (·.nv) = V'.map (·.nv)) (k : Nat) : (colAt V k).nv = (colAt V' k).nv := by
  have e : ∀ V : List (Column F), (colAt V k).nv = (V.map (·.nv)).getD k 0 := fun V => by
    unfold colAt
    rw [List.getD_eq_getElem?_getD, List.getD_eq_getElem?_getD, List.getElem?_map]
    cases V[k]? <;> rfl
  rw [e, e, h]

/-- Whether a program fits depends on sizes only. -/
theorem fits_of_sizes : ∀ (prog : List (Step F)) {V V' : List (Column F)}, V.map (·.nv) = V'.map (·.nv) → FitsAll N V prog → FitsAll N V' prog
  | [], _, _, _, _ => trivial
  | s :: r, V, V', h, hf => by
    have hl : V.length = V'.length := by simpa using congrArg List.length h
    have hc := colAt_nv h
    have hx : (s.next V).map (·.nv) = (s.next V').map (·.nv) := by
      cases s <;> simp [next, h, hc]
    refine ⟨?_, fits_of_sizes r hx hf.2⟩
    replace hf := hf.1
    cases s
    case check c => exact ⟨fun i hi => hl ▸ hf.1 i hi, c.fits_of_sizes hc hf.2⟩
    all_goals simpa only [Fits, EvenTab, hl, hc] using hf

end Step

namespace Step

/-- The checks of a program fit the columns the program ends with. -/
theorem fits_end : ∀ (prog : List (Step F)) (V : List (Column F)), FitsAll N V prog → ∀ c ∈ checks prog, c.Fits N (colAt (nextAll V prog))
  | [], _, _ => fun _ h => absurd h List.not_mem_nil
  | s :: r, V, hf => by
    have ih := fits_end r (s.next V) hf.2
    cases s
    case check c =>
      exact List.forall_mem_cons.2 ⟨c.fits_of_eq (fun k hk => colAt_nextAll r (hf.1.1 k hk)) hf.1.2, ih⟩
    all_goals exact ih

/-- What is said by a program that makes no commitments: what its checks say of the columns the program ends with. -/
theorem means_end {pf : CompiledProof F C B} {P : C → List F → F} : ∀ (prog : List (Step F)) (V : List (Column F)), (∀ s ∈ prog, s.Computes) → FitsAll N V prog → MeansAll pf P N V prog →
    ∀ c ∈ checks prog, c.Means N (colAt (nextAll V prog))
  | [], _, _, _, _ => fun _ h => absurd h List.not_mem_nil
  | s :: r, V, hp, hf, hm => by
    obtain ⟨p1, p2⟩ := List.forall_mem_cons.1 hp
    cases s
    case check c =>
      exact List.forall_mem_cons.2 ⟨Check.means_same c hf.1.2 (c.sameActive_of_eq fun k hk => colAt_nextAll r (hf.1.1 k hk)) hm.1, means_end r V p2 hf.2 hm.2⟩
    case commit => exact p1.elim
    case join => exact p1.elim
    all_goals exact means_end r _ p2 hf.2 hm

end Step
end Zksql.Spec
