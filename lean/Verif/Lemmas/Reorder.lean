import Verif.Spec.Reorder
import Verif.Lemmas.Inactive
/-!
What a program requires and says is the conjunction of what its checks require and say of the columns the program ends with.
-/
set_option linter.unusedSectionVars false
namespace Zksql.Spec
open Zksql
variable {F K C B : Type} [Field F] [DecidableEq F] {W W' : K → Column F} {N d : Nat}

theorem Check.sameActive_of_eq (c : Check K) (h : ∀ k ∈ c.names, W' k = W k) : c.SameActive W W' := by
  have sc : ∀ k ∈ c.names, SameCol W W' k := fun k hk => by rw [SameCol, h k hk]; exact ⟨rfl, fun _ _ => rfl⟩
  have sw : ∀ s, ∀ k ∈ c.names, SameWhere W W' s k := fun s k hk => by rw [SameWhere, h k hk]; exact ⟨rfl, fun _ _ _ => rfl⟩
  cases c
  case multiset fs gs =>
    intro e he
    have m : ∀ k ∈ [e.1.1, e.1.2, e.2], k ∈ (Check.multiset fs gs).names := fun k hk => List.mem_flatMap.2 ⟨e, he, hk⟩
    exact ⟨⟨sc _ (m _ (by simp)), sw _ _ (m _ (by simp))⟩, sw _ _ (m _ (by simp))⟩
  case indexTransform inp out =>
    exact ⟨⟨sc _ (by simp [Check.names]), fun c hc => sw _ _ (by simp [Check.names, hc])⟩, ⟨sc _ (by simp [Check.names]), fun c hc => sw _ _ (by simp [Check.names, hc])⟩⟩
  case joinAdvice a b ai bi ta =>
    exact ⟨⟨sc _ (by simp [Check.names]), fun c hc => sw _ _ (by simp [Check.names, hc])⟩, ⟨sc _ (by simp [Check.names]), fun c hc => sw _ _ (by simp [Check.names, hc])⟩,
      fun c hc => sw _ _ (by simp [Check.names, hc])⟩
  case groupBy inp key grp mult aggs range =>
    exact ⟨⟨sc _ (by simp [Check.names]), fun c hc => sw _ _ (by simp [Check.names, hc])⟩, sc _ (by simp [Check.names]), sc _ (by simp [Check.names]), sw _ _ (by simp [Check.names]),
      fun e he => sw _ _ (by
        have := List.mem_map_of_mem (f := fun e : Nat × AggType × K => e.2.2) he
        simp only [Check.names, List.mem_append, List.mem_cons]
        exact .inr (.inr (.inr (.inr (.inr (.inr (.inr this))))))), sc _ (by simp [Check.names])⟩
  all_goals
    simp only [Check.SameActive, SameBag]
    repeat' with_reducible apply And.intro
    all_goals first
      | exact sc _ (by simp [Check.names])
      | exact sw _ _ (by simp [Check.names])

theorem Check.fits_of_eq (c : Check K) (h : ∀ k ∈ c.names, W' k = W k) (hf : c.Fits N W) : c.Fits N W' := by
  refine ⟨fun k hk => by rw [h k hk]; exact hf.1 k hk, ?_⟩
  replace hf := hf.2
  cases c
  case multiset fs gs =>
    refine ⟨hf.1, hf.2.1, fun e he => ?_⟩
    have m : ∀ k ∈ [e.1.1, e.1.2, e.2], W' k = W k := fun k hk => h k (List.mem_flatMap.2 ⟨e, he, hk⟩)
    rw [Spec.Even, m e.1.1 (by simp), m e.1.2 (by simp), m e.2 (by simp)]
    exact hf.2.2 e he
  case indexTransform inp out =>
    obtain ⟨h1, h2, h3⟩ := hf
    refine ⟨fun c hc => ?_, fun c hc => ?_, h3⟩
    · rw [h c (by simp [Check.names, hc]), h inp.2 (by simp [Check.names])]; exact h1 c hc
    · rw [h c (by simp [Check.names, hc]), h out.2 (by simp [Check.names])]; exact h2 c hc
  case joinAdvice a b ai bi ta =>
    obtain ⟨h1, h2, h3, h4⟩ := hf
    refine ⟨fun c hc => ?_, fun c hc => ?_, fun c hc => ?_, h4⟩
    · rw [h c (by simp [Check.names, hc]), h a.2 (by simp [Check.names])]; exact h1 c hc
    · rw [h c (by simp [Check.names, hc]), h b.2 (by simp [Check.names])]; exact h2 c hc
    · rw [h c (by simp [Check.names, hc]), h b.2 (by simp [Check.names])]; exact h3 c hc
  case groupBy inp key grp mult aggs range =>
    obtain ⟨h1, h2, h3, h4, h5, h6⟩ := hf
    have g1 : W' grp.1 = W grp.1 := h _ (by simp [Check.names])
    have g2 : W' grp.2 = W grp.2 := h _ (by simp [Check.names])
    refine ⟨fun c hc => ?_, ?_, ?_, ?_, h5, fun e he => ?_⟩
    · rw [h c (by simp [Check.names, hc]), h inp.2 (by simp [Check.names])]; exact h1 c hc
    · rw [Spec.Even, g1, g2]; exact h2
    · rw [g1, h mult (by simp [Check.names])]; exact h3
    · rw [g1, h inp.2 (by simp [Check.names])]; exact h4
    · have := List.mem_map_of_mem (f := fun e : Nat × AggType × K => e.2.2) he
      rw [g1, h e.2.2 (by
        simp only [Check.names, List.mem_append, List.mem_cons]
        exact .inr (.inr (.inr (.inr (.inr (.inr (.inr this)))))))]
      exact h6 e he
  all_goals
    simp only [Check.names, List.mem_cons, List.not_mem_nil, or_false, forall_eq_or_imp, forall_eq] at h
    simpa only [Spec.Even, h] using hf

theorem Check.runs_of_eq {debug : Bool} (c : Check K) (h : ∀ k ∈ c.names, W' k = W k) (hr : c.Runs debug W) : c.Runs debug W' := by
  cases c
  case joinAdvice a b ai bi ta =>
    have e : tabData W' a = tabData W a := by
      unfold tabData
      rw [h a.2 (by simp [Check.names]), List.map_congr_left fun c hc => by rw [h c (by simp [Check.names, hc])]]
    intro hd
    rw [e]
    exact hr hd
  all_goals trivial

theorem Check.reaches_of_eq (c : Check K) (h : ∀ k ∈ c.names, W' k = W k) (hr : c.Reaches N W) : c.Reaches N W' := by
  cases c
  all_goals first
    | exact hr
    | (simp only [Check.names, List.mem_cons, List.not_mem_nil, or_false, forall_eq_or_imp, forall_eq] at h
       simp only [Check.Reaches, h] at hr ⊢
       exact hr)

namespace Step
variable {prog prog' r : List (Step F)} {V : List (Column F)}

theorem next_append (V : List (Column F)) (s : Step F) : ∃ X, s.next V = V ++ X := by
  cases s
  case check c => exact ⟨[], (List.append_nil V).symm⟩
  all_goals exact ⟨_, rfl⟩

theorem nextAll_append : ∀ (prog : List (Step F)) (V : List (Column F)), ∃ X, nextAll V prog = V ++ X
  | [], V => ⟨[], (List.append_nil V).symm⟩
  | s :: r, V => by
    obtain ⟨X, e⟩ := next_append V s
    obtain ⟨Y, e'⟩ := nextAll_append r (s.next V)
    exact ⟨X ++ Y, by rw [nextAll, e', e, List.append_assoc]⟩

theorem colAt_nextAll (prog : List (Step F)) {i : Nat} (hi : i < V.length) : colAt (nextAll V prog) i = colAt V i := by
  obtain ⟨X, e⟩ := nextAll_append prog V
  rw [e]
  exact List.getD_append _ _ _ _ hi

theorem nextAll_makes : ∀ (prog : List (Step F)) (V : List (Column F)), nextAll V (makes prog) = nextAll V prog
  | [], _ => rfl
  | s :: r, V => by cases s <;> exact nextAll_makes r _

/-- The data a program needs: what its checks need of the columns the program ends with. -/
theorem validAll_iff {rep : F → Nat} : ∀ (prog : List (Step F)) (V : List (Column F)), FitsAll N V prog → (ValidAll rep V prog ↔ ∀ c ∈ checks prog, c.Valid rep (colAt (nextAll V prog)))
  | [], _, _ => ⟨fun _ _ h => absurd h List.not_mem_nil, fun _ => trivial⟩
  | s :: r, V, hf => by
    have ih := validAll_iff (rep := rep) r (s.next V) hf.2
    cases s
    case check c =>
      have e : ∀ k ∈ c.names, colAt (nextAll V r) k = colAt V k := fun k hk => colAt_nextAll r (hf.1.1 k hk)
      have e1 : c.Valid rep (colAt V) ↔ c.Valid rep (colAt (nextAll V r)) :=
        ⟨Check.valid_same c hf.1.2 (c.sameActive_of_eq e), fun h => by
          refine Check.valid_same (W := colAt (nextAll V r)) (W' := colAt V) (N := N) c ?_ (c.sameActive_of_eq fun k hk => (e k hk).symm) h
          exact Check.fits_of_eq c e hf.1.2⟩
      change c.Valid rep (colAt V) ∧ ValidAll rep V r ↔ ∀ x ∈ c :: checks r, x.Valid rep (colAt (nextAll V r))
      rw [List.forall_mem_cons, ← e1]
      exact and_congr_right fun _ => ih
    all_goals exact ih

theorem runsAll_iff {debug : Bool} : ∀ (prog : List (Step F)) (V : List (Column F)), FitsAll N V prog →
    (RunsAll debug V prog ↔ RunsAll debug V (makes prog) ∧ ∀ c ∈ checks prog, c.Runs debug (colAt (nextAll V prog)))
  | [], _, _ => ⟨fun _ => ⟨trivial, fun _ h => by cases h⟩, fun _ => trivial⟩
  | s :: r, V, hf => by
    have ih := runsAll_iff (debug := debug) r (s.next V) hf.2
    cases s
    case check c =>
      have e : ∀ k ∈ c.names, colAt (nextAll V r) k = colAt V k := fun k hk => colAt_nextAll r (hf.1.1 k hk)
      have e1 : c.Runs debug (colAt V) ↔ c.Runs debug (colAt (nextAll V r)) := ⟨c.runs_of_eq e, c.runs_of_eq fun k hk => (e k hk).symm⟩
      change c.Runs debug (colAt V) ∧ RunsAll debug V r ↔ RunsAll debug V (makes r) ∧ ∀ x ∈ c :: checks r, x.Runs debug (colAt (nextAll V r))
      rw [List.forall_mem_cons, ← e1]
      have ih : RunsAll debug V r ↔ _ := ih
      rw [ih]
      exact and_left_comm
    all_goals exact (and_congr_right fun _ => ih).trans and_assoc.symm

theorem reachesAll_iff : ∀ (prog : List (Step F)) (V : List (Column F)), FitsAll N V prog →
    (ReachesAll d V prog ↔ ReachesAll d V (makes prog) ∨ ∃ c ∈ checks prog, c.Reaches d (colAt (nextAll V prog)))
  | [], _, _ => ⟨fun h => h.elim, fun h => h.elim id fun ⟨_, h, _⟩ => by cases h⟩
  | s :: r, V, hf => by
    have ih := reachesAll_iff r (s.next V) hf.2
    cases s
    case check c =>
      have e : ∀ k ∈ c.names, colAt (nextAll V r) k = colAt V k := fun k hk => colAt_nextAll r (hf.1.1 k hk)
      have e1 : c.Reaches d (colAt V) ↔ c.Reaches d (colAt (nextAll V r)) := ⟨c.reaches_of_eq e, c.reaches_of_eq fun k hk => (e k hk).symm⟩
      change c.Reaches d (colAt V) ∨ ReachesAll d V r ↔ ReachesAll d V (makes r) ∨ ∃ x ∈ c :: checks r, x.Reaches d (colAt (nextAll V r))
      rw [List.exists_mem_cons_iff, ← e1]
      have ih : ReachesAll d V r ↔ _ := ih
      rw [ih]
      exact or_left_comm
    all_goals exact (or_congr_right ih).trans or_assoc.symm

theorem commits_eq : ∀ prog : List (Step F), (costAll prog).commits = (costAll (makes prog)).commits + ((checks prog).map fun c => c.cost.commits).sum
  | [] => rfl
  | s :: r => by
    have ih := commits_eq r
    cases s
    case check c =>
      change c.cost.commits + (costAll r).commits = (costAll (makes r)).commits + (c.cost.commits + ((checks r).map fun c => c.cost.commits).sum)
      omega
    all_goals
      change _ + (costAll r).commits = (_ + (costAll (makes r)).commits) + ((checks r).map fun c => c.cost.commits).sum
      rw [ih]
      exact (Nat.add_assoc _ _ _).symm

/-- The degrees of the columns a program ends with. -/
def degreesEnd : List Nat → List (Step F) → List Nat
  | L, [] => L
  | L, s :: r => degreesEnd (s.degreesNext L) r

theorem degreesNext_append (L : List Nat) (s : Step F) : ∃ X, s.degreesNext L = L ++ X := by
  cases s
  case check c => exact ⟨[], (List.append_nil L).symm⟩
  all_goals exact ⟨_, rfl⟩

theorem degreesEnd_append : ∀ (prog : List (Step F)) (L : List Nat), ∃ X, degreesEnd L prog = L ++ X
  | [], L => ⟨[], (List.append_nil L).symm⟩
  | s :: r, L => by
    obtain ⟨X, e⟩ := degreesNext_append L s
    obtain ⟨Y, e'⟩ := degreesEnd_append r (s.degreesNext L)
    exact ⟨X ++ Y, by rw [degreesEnd, e', e, List.append_assoc]⟩

theorem degreesEnd_makes : ∀ (prog : List (Step F)) (L : List Nat), degreesEnd L (makes prog) = degreesEnd L prog
  | [], _ => rfl
  | s :: r, L => by cases s <;> exact degreesEnd_makes r _

theorem degreesNext_length (s : Step F) {L : List Nat} (h : L.length = V.length) : (s.degreesNext L).length = (s.next V).length := by
  cases s <;> simp [degreesNext, next, h]

theorem degreeAll_iff : ∀ (prog : List (Step F)) (V : List (Column F)) (L : List Nat), L.length = V.length → FitsAll N V prog →
    (degreeAll L prog ≤ d ↔ degreeAll L (makes prog) ≤ d ∧ ∀ c ∈ checks prog, c.degree (topDegree (degreesEnd L prog) c.names) ≤ d)
  | [], _, _, _, _ => ⟨fun h => ⟨h, fun _ h => by cases h⟩, fun h => h.1⟩
  | s :: r, V, L, hl, hf => by
    have ih := degreeAll_iff r (s.next V) (s.degreesNext L) (degreesNext_length s hl) hf.2
    rw [degreeAll, max_le_iff]
    cases s
    case check c =>
      have e : topDegree (degreesEnd L r) c.names = topDegree L c.names := by
        obtain ⟨X, e⟩ := degreesEnd_append r L
        rw [e]
        unfold topDegree
        rw [List.map_congr_left fun k hk => List.getD_append L X 0 k (hl ▸ hf.1.1 k hk)]
      change c.degree (topDegree L c.names) ≤ d ∧ degreeAll L r ≤ d ↔ degreeAll L (makes r) ≤ d ∧ ∀ x ∈ c :: checks r, x.degree (topDegree (degreesEnd L r) x.names) ≤ d
      rw [List.forall_mem_cons, e]
      have ih : degreeAll L r ≤ d ↔ _ := ih
      rw [ih]
      exact and_left_comm
    all_goals
      refine (and_congr_right fun _ => ih).trans (and_assoc.symm.trans (and_congr_left fun _ => ?_))
      exact max_le_iff.symm

end Step
end Zksql.Spec
