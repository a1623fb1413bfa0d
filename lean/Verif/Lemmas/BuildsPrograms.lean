import Verif.Lemmas.BuildsTables
/-! The prover's side of programs in the two builds. -/
set_option linter.unusedSectionVars false
namespace Zksql
open Spec PTracker
variable {F C : Type} [Field F] [DecidableEq F] {g : Nat → Nat} (E : Env F C)

theorem fitL_map {K : Type} {f : K → TPoly} {l : List K} (h : ∀ k ∈ l, FitP g (f k)) : FitL g (l.map f) := fun a ha => by
  obtain ⟨k, hk, rfl⟩ := List.mem_map.1 ha
  exact h k hk
theorem fitBs_map {K : Type} {f : K → Bag} {l : List K} (h : ∀ k ∈ l, FitB g (f k)) : FitBs g (l.map f) := fun a ha => by
  obtain ⟨k, hk, rfl⟩ := List.mem_map.1 ha
  exact h k hk

/-- The prover's side of a check. -/
theorem built_check : ∀ c : Check TPoly, (∀ a ∈ c.names, FitP g a) → Built g (commR E.commit) (fun _ => True) (c.prove (built true E)) (c.prove (built false E))
  | .multiset fs gs, h => by
    have hm : ∀ e ∈ fs ++ gs, FitP g e.1.1 ∧ FitP g e.1.2 ∧ FitP g e.2 := fun e he =>
      ⟨h _ (List.mem_flatMap.2 ⟨e, he, by simp⟩), h _ (List.mem_flatMap.2 ⟨e, he, by simp⟩), h _ (List.mem_flatMap.2 ⟨e, he, by simp⟩)⟩
    have hl := fun e he => hm e (List.mem_append_left gs he)
    have hr := fun e he => hm e (List.mem_append_right fs he)
    exact built_multitool E (fitBs_map fun e he => ⟨(hl e he).1, (hl e he).2.1⟩) (fitBs_map fun e he => ⟨(hr e he).1, (hr e he).2.1⟩)
      (fitL_map fun e he => (hl e he).2.2) (fitL_map fun e he => (hr e he).2.2)
  | .bagEq _ _, h => by
    simp only [Check.names, List.forall_mem_cons] at h
    exact built_bagEq E ⟨h.1, h.2.1⟩ ⟨h.2.2.1, h.2.2.2.1⟩
  | .bagSum _ _ _, h => by
    simp only [Check.names, List.forall_mem_cons] at h
    exact built_bagSum E ⟨h.1, h.2.1⟩ ⟨h.2.2.1, h.2.2.2.1⟩ ⟨h.2.2.2.2.1, h.2.2.2.2.2.1⟩
  | .inclusion _ _, h => by
    simp only [Check.names, List.forall_mem_cons] at h
    exact built_inclusion E ⟨h.1, h.2.1⟩ ⟨h.2.2.1, h.2.2.2.1⟩
  | .inclusionAdvice _ _ _, h => by
    simp only [Check.names, List.forall_mem_cons] at h
    exact built_inclusionWith E ⟨h.1, h.2.1⟩ ⟨h.2.2.1, h.2.2.2.1⟩ h.2.2.2.2.1
  | .noZeros _, h => by
    simp only [Check.names, List.forall_mem_cons] at h
    exact built_noZeros E ⟨h.1, h.2.1⟩
  | .selector _, h => built_selector (h _ List.mem_cons_self)
  | .permutation _ _ _, h => by
    simp only [Check.names, List.forall_mem_cons] at h
    exact built_permutation E ⟨h.1, h.2.1⟩ ⟨h.2.2.1, h.2.2.2.1⟩ h.2.2.2.2.1
  | .sort _ _, h => by
    simp only [Check.names, List.forall_mem_cons] at h
    exact built_sort E ⟨h.1, h.2.1⟩ ⟨h.2.2.1, h.2.2.2.1⟩
  | .support _ _ _, h => by
    simp only [Check.names, List.forall_mem_cons] at h
    exact built_supp E ⟨h.1, h.2.1⟩ ⟨h.2.2.1, h.2.2.2.1⟩ ⟨h.2.2.2.2.1, h.2.2.2.2.2.1⟩
  | .supportAdvice _ _ _ _, h => by
    simp only [Check.names, List.forall_mem_cons] at h
    exact built_suppWith E ⟨h.1, h.2.1⟩ ⟨h.2.2.1, h.2.2.2.1⟩ h.2.2.2.2.1 ⟨h.2.2.2.2.2.1, h.2.2.2.2.2.2.1⟩
  | .disjoint _ _ _, h => by
    simp only [Check.names, List.forall_mem_cons] at h
    exact built_disjoint E ⟨h.1, h.2.1⟩ ⟨h.2.2.1, h.2.2.2.1⟩ ⟨h.2.2.2.2.1, h.2.2.2.2.2.1⟩
  | .setDisjoint _ _ _, h => by
    simp only [Check.names, List.forall_mem_cons] at h
    exact built_setDisjoint E ⟨h.1, h.2.1⟩ ⟨h.2.2.1, h.2.2.2.1⟩ ⟨h.2.2.2.2.1, h.2.2.2.2.2.1⟩
  | .union _ _ _ _, h => by
    simp only [Check.names, List.forall_mem_cons] at h
    exact built_setUnion E ⟨h.1, h.2.1⟩ ⟨h.2.2.1, h.2.2.2.1⟩ ⟨h.2.2.2.2.1, h.2.2.2.2.2.1⟩ ⟨h.2.2.2.2.2.2.1, h.2.2.2.2.2.2.2.1⟩
  | .diff f g' l m mult r, h => by
    simp only [Check.names, List.forall_mem_cons] at h
    obtain ⟨h1, h2, h3, h4, h5, h6, h7, h8, h9, h10, h11, _⟩ := h
    exact built_setDiff E ⟨h1, h2⟩ ⟨h3, h4⟩ ⟨h5, h6⟩ ⟨h7, h8⟩ h9 ⟨h10, h11⟩
  | .intersect _ _ _ _ _ _, h => by
    simp only [Check.names, List.forall_mem_cons] at h
    obtain ⟨h1, h2, h3, h4, h5, h6, h7, h8, h9, h10, h11, h12, _⟩ := h
    exact built_setIntersect E ⟨h1, h2⟩ ⟨h3, h4⟩ ⟨h5, h6⟩ ⟨h7, h8⟩ ⟨h9, h10⟩ ⟨h11, h12⟩
  | .joinReduction _ _ _ _ _, h => by
    simp only [Check.names, List.forall_mem_cons] at h
    obtain ⟨h1, h2, h3, h4, h5, h6, h7, h8, _⟩ := h
    exact built_joinReduction E ⟨h1, h2⟩ ⟨h3, h4⟩ h5 h6 ⟨h7, h8⟩
  | .indexTransform _ _, h => by
    simp only [Check.names, List.forall_mem_append, List.forall_mem_cons] at h
    obtain ⟨h1, h2, h3, h4, _⟩ := h
    exact built_indexTransform E ⟨h1, h2⟩ ⟨h3, h4⟩
  | .joinAdvice _ _ _ _ _, h => by
    simp only [Check.names, List.forall_mem_append, List.forall_mem_cons] at h
    obtain ⟨h1, h2, h3, h4, h5⟩ := h
    exact Built.bind (built_joinWith E ⟨h1, h2⟩ ⟨h3, h4⟩ h5) (fun _ => .pure _) fun _ _ => .pure trivial
  | .groupBy _ _ _ _ _ _, h => by
    simp only [Check.names, List.forall_mem_append, List.forall_mem_cons, List.forall_mem_map] at h
    obtain ⟨h1, h2, h3, h4, h5, h6, h7, h8⟩ := h
    exact Built.bind (built_groupBy E ⟨h1, h2⟩ (fit_cons h3 fit_nil) h4 h5 h8 ⟨h6, h7⟩) (fun _ => .pure _) fun _ _ => .pure trivial

theorem check_names_map {K L : Type} (φ : K → L) : ∀ c : Check K, (c.map φ).names = c.names.map φ
  | .multiset fs gs => by
    simp only [Check.map, Check.names, ← List.map_append, List.flatMap_map, List.map_flatMap]
    rfl
  | .bagEq _ _ => rfl
  | .bagSum _ _ _ => rfl
  | .inclusion _ _ => rfl
  | .inclusionAdvice _ _ _ => rfl
  | .noZeros _ => rfl
  | .selector _ => rfl
  | .permutation _ _ _ => rfl
  | .sort _ _ => rfl
  | .support _ _ _ => rfl
  | .supportAdvice _ _ _ _ => rfl
  | .disjoint _ _ _ => rfl
  | .setDisjoint _ _ _ => rfl
  | .union _ _ _ _ => rfl
  | .diff _ _ _ _ _ _ => rfl
  | .intersect _ _ _ _ _ _ => rfl
  | .joinReduction _ _ _ _ _ => rfl
  | .indexTransform _ _ => by simp [Check.map, Check.names]
  | .joinAdvice _ _ _ _ _ => by simp [Check.map, Check.names]
  | .groupBy _ _ _ _ _ _ => by simp [Check.map, Check.names]

theorem fit_at {hs : List TPoly} {i : Nat} (h : FitL g hs) (hi : i < hs.length) : FitP g (at' hs i) := by
  unfold at'
  rw [List.getD_eq_getElem _ _ hi]
  exact h _ (List.getElem_mem hi)

theorem proveAll_goes (E : Env F C) : ∀ (prog : List (Step F)) (hs : List TPoly), Goes (Step.proveAll E prog hs)
  | [], _ => .pure _
  | .commit _ :: r, _ => Goes.bind (TPoly.trackAndCommit_goes _ _) fun _ => proveAll_goes E r _
  | .add _ _ :: r, _ => Goes.bind (TPoly.add_goes _ _) fun _ => proveAll_goes E r _
  | .sub _ _ :: r, _ => Goes.bind (TPoly.sub_goes _ _) fun _ => proveAll_goes E r _
  | .mul _ _ :: r, _ => Goes.bind (TPoly.mul_goes _ _) fun _ => proveAll_goes E r _
  | .addScalar _ _ :: r, _ => Goes.bind (TPoly.addScalar_goes _ _) fun _ => proveAll_goes E r _
  | .mulScalar _ _ :: r, _ => Goes.bind (TPoly.mulScalar_goes _ _) fun _ => proveAll_goes E r _
  | .check _ :: r, _ => Goes.bind (check_goes E _) fun _ => proveAll_goes E r _
  | .join _ _ _ _ :: r, _ => Goes.bind (join_goes E _ _ _ _) fun _ => proveAll_goes E r _

theorem fit_snoc {hs : List TPoly} {x : TPoly} (h : FitL g hs) (hx : FitP g x) : FitL g (hs ++ [x]) := fit_append h (fit_cons hx fit_nil)

/-- The prover's side of a program. -/
theorem built_program : ∀ (prog : List (Step F)) (hs : List TPoly), FitL g hs → NamedAll hs.length prog →
    Built g (commR E.commit) (fun _ => True) (Step.proveAll (built true E) prog hs) (Step.proveAll (built false E) prog hs)
  | [], _, _, _ => .pure trivial
  | .commit p :: r, hs, h, hn => Built.bind (built_trackAndCommit hn.1) (fun _ => proveAll_goes _ r _) fun x hx =>
      built_program r _ (fit_snoc h hx) (by rw [List.length_append]; exact hn.2)
  | .add i j :: r, hs, h, hn => Built.bind (built_add (fit_at h hn.1.1) (fit_at h hn.1.2)) (fun _ => proveAll_goes _ r _) fun x hx =>
      built_program r _ (fit_snoc h hx) (by rw [List.length_append]; exact hn.2)
  | .sub i j :: r, hs, h, hn => Built.bind (built_sub (fit_at h hn.1.1) (fit_at h hn.1.2)) (fun _ => proveAll_goes _ r _) fun x hx =>
      built_program r _ (fit_snoc h hx) (by rw [List.length_append]; exact hn.2)
  | .mul i j :: r, hs, h, hn => Built.bind (built_mul (fit_at h hn.1.1) (fit_at h hn.1.2)) (fun _ => proveAll_goes _ r _) fun x hx =>
      built_program r _ (fit_snoc h hx) (by rw [List.length_append]; exact hn.2)
  | .addScalar i c :: r, hs, h, hn => Built.bind (built_addScalar (fit_at h hn.1)) (fun _ => proveAll_goes _ r _) fun x hx =>
      built_program r _ (fit_snoc h hx) (by rw [List.length_append]; exact hn.2)
  | .mulScalar i c :: r, hs, h, hn => Built.bind (built_mulScalar (fit_at h hn.1)) (fun _ => proveAll_goes _ r _) fun x hx =>
      built_program r _ (fit_snoc h hx) (by rw [List.length_append]; exact hn.2)
  | .check c :: r, hs, h, hn => Built.bind (built_check E _ (fun a ha => by
        rw [check_names_map] at ha
        obtain ⟨i, hi, rfl⟩ := List.mem_map.1 ha
        exact fit_at h (hn.1 i hi))) (fun _ => proveAll_goes _ r _) fun _ _ => built_program r _ h hn.2
  | .join a b ai bi :: r, hs, h, hn => by
    have ha : ∀ i ∈ a.1, i < hs.length := fun i hi => hn.1 i (List.mem_append_left _ hi)
    have ha2 : a.2 < hs.length := hn.1 _ (by simp)
    have hb : ∀ i ∈ b.1, i < hs.length := fun i hi => hn.1 i (by simp [hi])
    have hb2 : b.2 < hs.length := hn.1 _ (by simp)
    refine Built.bind (built_join E ⟨fitL_map fun i hi => fit_at h (ha i hi), fit_at h ha2⟩ ⟨fitL_map fun i hi => fit_at h (hb i hi), fit_at h hb2⟩)
      (fun _ => proveAll_goes _ r _) fun x hx => built_program r _ (fit_append h fun c hc => hx.1 c (List.mem_of_mem_take hc)) ?_
    have hl : a.1.length ≤ x.colVals.length := by simpa [tableOf] using hx.2
    rw [List.length_append, List.length_take, min_eq_left hl]
    exact hn.2

end Zksql
