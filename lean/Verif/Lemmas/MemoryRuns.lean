import Verif.Lemmas.Memory
import Verif.Lemmas.ProverTracker2
/-!
Every tracker of a program with several trackers is in a state it could have reached alone.
-/
set_option linter.unusedSectionVars false
namespace Zksql
open Spec
variable {F C B : Type} [Field F] {commit : Mle F → Res C} {H : Oracle F C}

theorem handlesOf_append (heap heap' : PHeap F C) (hs : List PolyRef) (h : PolyRef) (k : Nat) :
    (MState.mk heap' (hs ++ [h])).handlesOf k = (MState.mk heap hs).handlesOf k ++ if h.tracker = k then [h.poly] else [] := by
  unfold MState.handlesOf
  by_cases e : h.tracker = k <;> simp [List.filter_append, e]

/-- Each tracker is in a state reachable on its own, in which its handles are the ones it returned (after those it was copied with). -/
structure Alone (commit : Mle F → Res C) (H : Oracle F C) (w : MState F C) (nocopy : Prop) : Prop where
  valid : ∀ h ∈ w.handles, h.tracker < w.heap.length
  reach : ∀ k t, w.heap[k]? = some t → ∃ base, (nocopy → base = []) ∧ Reachable commit H ⟨t, base ++ w.handlesOf k⟩

variable {w w' : MState F C} {nc : Prop}

theorem Alone.step (hw : Alone commit H w nc) {k : Nat} {t t' : PTracker F C} {new : List PolyRef} (hk : w.heap[k]? = some t)
    (hnew : new = [] ∨ ∃ p, new = [PolyRef.ofPoly k p])
    (h : ∀ hs, Reachable commit H ⟨t, hs ++ w.handlesOf k⟩ → Reachable commit H ⟨t', hs ++ w.handlesOf k ++ new.map (·.poly)⟩) :
    Alone commit H ⟨w.heap.put k t', w.handles ++ new⟩ nc := by
  have hl := (List.getElem?_eq_some_iff.1 hk).1
  have hof : ∀ j, (MState.mk (w.heap.put k t') (w.handles ++ new)).handlesOf j = w.handlesOf j ++ if j = k then new.map (·.poly) else [] := by
    intro j
    rcases hnew with rfl | ⟨p, rfl⟩
    · simp [MState.handlesOf]
    · rw [handlesOf_append w.heap]
      by_cases e : j = k
      · subst e; simp [PolyRef.ofPoly, MState.handlesOf]
      · simp [PolyRef.ofPoly, MState.handlesOf, e, Ne.symm e]
  refine ⟨?_, ?_⟩
  · intro x hx
    simp only [PHeap.put, List.length_set]
    rcases List.mem_append.1 hx with hx | hx
    · exact hw.valid x hx
    · rcases hnew with rfl | ⟨p, rfl⟩
      · cases hx
      · rw [List.mem_singleton.1 hx]; exact hl
  · intro j u hu
    rw [hof j]
    by_cases e : j = k
    · subst e
      simp only [PHeap.put, List.getElem?_set_self hl] at hu
      injection hu with hu; subst hu
      obtain ⟨base, hb, hr⟩ := hw.reach j t hk
      refine ⟨base, hb, ?_⟩
      have := h base hr
      simpa using this
    · simp only [PHeap.put] at hu
      rw [List.getElem?_set_ne (Ne.symm e)] at hu
      obtain ⟨base, hb, hr⟩ := hw.reach j u hu
      exact ⟨base, hb, by simpa [e] using hr⟩

theorem reach_run {st st' : PState F C} (hr : Reachable commit H st) (op : POp F C) (h : op.run commit H st = .ok st') : Reachable commit H st' :=
  hr.step (ops := [op]) (by simp [runOps, h])

/-- A call returning a handle. -/
theorem Alone.handle (hw : Alone commit H w nc) {k : Nat} {s : Act (PTracker F C) TPoly} {m : Act (PHeap F C) PolyRef}
    (hm : PSim k (PolyRef.ofPoly k) m s) (hk : k < w.heap.length)
    (hop : ∀ (t : PTracker F C) hs, ∃ op : POp F C, op.run commit H ⟨t, hs ++ w.handlesOf k⟩ = stepHandle ⟨t, hs ++ w.handlesOf k⟩ s)
    (h : w.stepHandle m = .ok w') : Alone commit H w' nc := by
  obtain ⟨t, ht⟩ : ∃ t, w.heap[k]? = some t := ⟨_, List.getElem?_eq_getElem hk⟩
  unfold MState.stepHandle at h
  rw [hm w.heap t ht] at h
  rcases hs : s t with ⟨(e | _) | p, t'⟩
  · rw [hs] at h
    simp only [Except.map] at h
    injection h with h; subst h
    have := hw.step (t' := t') (new := []) ht (.inl rfl) fun hs' hr => by
      obtain ⟨op, ho⟩ := hop t hs'
      refine reach_run hr op ?_
      rw [ho]; simp [stepHandle, hs]
    simpa using this
  · rw [hs] at h; simp [Except.map] at h
  · rw [hs] at h
    simp only [Except.map] at h
    injection h with h; subst h
    exact hw.step (t' := t') (new := [PolyRef.ofPoly k p]) ht (.inr ⟨p, rfl⟩) fun hs' hr => by
      obtain ⟨op, ho⟩ := hop t hs'
      refine reach_run hr op ?_
      rw [ho]; simp [stepHandle, hs, PolyRef.ofPoly, PolyRef.poly]

/-- A call returning anything else. -/
theorem Alone.other (hw : Alone commit H w nc) {α β : Type} {f : α → β} {k : Nat} {s : Act (PTracker F C) α} {m : Act (PHeap F C) β}
    (hm : PSim k f m s) (hk : k < w.heap.length)
    (hop : ∀ (t : PTracker F C) hs, ∃ op : POp F C, op.run commit H ⟨t, hs ++ w.handlesOf k⟩ = stepOther ⟨t, hs ++ w.handlesOf k⟩ s)
    (h : w.stepOther m = .ok w') : Alone commit H w' nc := by
  obtain ⟨t, ht⟩ : ∃ t, w.heap[k]? = some t := ⟨_, List.getElem?_eq_getElem hk⟩
  unfold MState.stepOther at h
  rw [hm w.heap t ht] at h
  have key : ∀ t', stepOther ⟨t, []⟩ s = .ok ⟨t', []⟩ → (∀ hs : List TPoly, stepOther ⟨t, hs⟩ s = .ok ⟨t', hs⟩) →
      w' = ⟨w.heap.put k t', w.handles⟩ → Alone commit H w' nc := by
    intro t' _ hs' e
    rw [e]
    have := hw.step (t' := t') (new := []) ht (.inl rfl) fun hs hr => by
      obtain ⟨op, ho⟩ := hop t hs
      refine reach_run hr op ?_
      rw [ho, hs']; simp
    simpa using this
  rcases hs : s t with ⟨(e | _) | p, t'⟩
  · rw [hs] at h
    simp only [Except.map] at h
    injection h with h
    exact key t' (by simp [stepOther, hs]) (by simp [stepOther, hs]) h.symm
  · rw [hs] at h; simp [Except.map] at h
  · rw [hs] at h
    simp only [Except.map] at h
    injection h with h
    exact key t' (by simp [stepOther, hs]) (by simp [stepOther, hs]) h.symm

theorem idx_mem_inv {α β : Type} {l : List α} {i : Nat} {f : α → Res β} {b : β} (h : (idx l i >>= f) = .ok b) : ∃ a ∈ l, f a = .ok b := by
  rcases hl : l[i]? with _ | a
  · rw [idx, hl] at h; simp at h
  · rw [idx, hl] at h
    exact ⟨a, List.mem_of_getElem? hl, h⟩

theorem pos_of (hs : List TPoly) {a : PolyRef} (ha : a ∈ w.handles) : ∃ i, idx (hs ++ w.handlesOf a.tracker) i = .ok a.poly := by
  have : a.poly ∈ hs ++ w.handlesOf a.tracker := by
    refine List.mem_append_right _ (List.mem_map.2 ⟨a, ?_, rfl⟩)
    simp [ha]
  obtain ⟨i, hi⟩ := List.mem_iff_getElem?.1 this
  exact ⟨i, by rw [idx, hi]; rfl⟩

theorem missing_handle {k : Nat} {s : Act (PTracker F C) TPoly} (hk : ¬ k < w.heap.length) :
    w.stepHandle (PHeap.on k s >>= fun p => pure (PolyRef.ofPoly k p)) = .error .panic := by
  have : w.heap[k]? = none := List.getElem?_eq_none (Nat.le_of_not_lt hk)
  simp [MState.stepHandle, Act.bind_run, PHeap.on, Act.within, this]

theorem missing_other {α : Type} {k : Nat} {s : Act (PTracker F C) α} (hk : ¬ k < w.heap.length) : w.stepOther (PHeap.on k s) = .error .panic := by
  have : w.heap[k]? = none := List.getElem?_eq_none (Nat.le_of_not_lt hk)
  simp [MState.stepOther, PHeap.on, Act.within, this]

theorem Alone.run (hw : Alone commit H w nc) (op : MOp F C) (hnc : nc → ∀ k, op ≠ .copy k) (h : op.run commit H w = .ok w') : Alone commit H w' nc := by
  cases op with
  | new =>
    simp only [MOp.run] at h
    injection h with h; subst h
    refine ⟨fun x hx => ?_, fun k t ht => ?_⟩
    · have := hw.valid x hx; simp; omega
    · by_cases hk : k < w.heap.length
      · rw [List.getElem?_append_left hk] at ht
        exact hw.reach k t ht
      · have hl := (List.getElem?_eq_some_iff.1 ht).1
        have : k = w.heap.length := by simp at hl; omega
        subst this
        simp at ht; subst ht
        refine ⟨[], fun _ => rfl, [], ?_⟩
        have : (MState.mk (w.heap ++ [PTracker.new]) w.handles).handlesOf w.heap.length = [] := by
          unfold MState.handlesOf
          rw [List.map_eq_nil_iff, List.filter_eq_nil_iff]
          intro x hx
          have := hw.valid x hx
          simp; omega
        rw [this]; rfl
  | copy j =>
    simp only [MOp.run, PHeap.copy] at h
    rcases hj : w.heap[j]? with _ | u
    · rw [idx, hj] at h; simp at h
    · rw [idx, hj, unwrap_some, ok_bind, ok_bind] at h
      injection h with h; subst h
      refine ⟨fun x hx => ?_, fun k t ht => ?_⟩
      · have := hw.valid x hx; simp; omega
      · by_cases hk : k < w.heap.length
        · rw [List.getElem?_append_left hk] at ht
          exact hw.reach k t ht
        · have hl := (List.getElem?_eq_some_iff.1 ht).1
          have : k = w.heap.length := by simp at hl; omega
          subst this
          simp at ht; subst ht
          obtain ⟨base, _, hr⟩ := hw.reach j u hj
          refine ⟨base ++ w.handlesOf j, fun n => absurd rfl (hnc n j), ?_⟩
          have : (MState.mk (w.heap ++ [u.deepCopy]) w.handles).handlesOf w.heap.length = [] := by
            unfold MState.handlesOf
            rw [List.map_eq_nil_iff, List.filter_eq_nil_iff]
            intro x hx
            have := hw.valid x hx
            simp; omega
          rw [this, List.append_nil]; exact hr
  | track k p wf =>
    by_cases hk : k < w.heap.length
    · exact hw.handle (psim_trackMat k p) hk (fun t hs => ⟨.track p wf, rfl⟩) h
    · simp only [MOp.run, PHeap.trackMat] at h; rw [missing_handle hk] at h; cases h
  | commit k p wf =>
    by_cases hk : k < w.heap.length
    · exact hw.handle (psim_trackAndCommit commit k p) hk (fun t hs => ⟨.commit p wf, rfl⟩) h
    · simp only [MOp.run, PHeap.trackAndCommit] at h; rw [missing_handle hk] at h; cases h
  | add i j =>
    obtain ⟨a, ha, h⟩ := idx_mem_inv h
    obtain ⟨b, hb, h⟩ := idx_mem_inv h
    by_cases e : a.tracker = b.tracker
    · refine hw.handle (psim_add rfl e.symm) (hw.valid a ha) (fun t hs => ?_) h
      obtain ⟨i', hi⟩ := pos_of hs ha
      obtain ⟨j', hj⟩ := pos_of hs hb
      rw [← e] at hj
      exact ⟨.add i' j', by simp only [POp.run, hi, hj, ok_bind]⟩
    · simp [MState.stepHandle, add_mixed e] at h
  | sub i j =>
    obtain ⟨a, ha, h⟩ := idx_mem_inv h
    obtain ⟨b, hb, h⟩ := idx_mem_inv h
    by_cases e : a.tracker = b.tracker
    · refine hw.handle (psim_sub rfl e.symm) (hw.valid a ha) (fun t hs => ?_) h
      obtain ⟨i', hi⟩ := pos_of hs ha
      obtain ⟨j', hj⟩ := pos_of hs hb
      rw [← e] at hj
      exact ⟨.sub i' j', by simp only [POp.run, hi, hj, ok_bind]⟩
    · simp [MState.stepHandle, sub_mixed e] at h
  | mul i j =>
    obtain ⟨a, ha, h⟩ := idx_mem_inv h
    obtain ⟨b, hb, h⟩ := idx_mem_inv h
    by_cases e : a.tracker = b.tracker
    · refine hw.handle (psim_mul rfl e.symm) (hw.valid a ha) (fun t hs => ?_) h
      obtain ⟨i', hi⟩ := pos_of hs ha
      obtain ⟨j', hj⟩ := pos_of hs hb
      rw [← e] at hj
      exact ⟨.mul i' j', by simp only [POp.run, hi, hj, ok_bind]⟩
    · simp [MState.stepHandle, mul_mixed e] at h
  | addScalar i c =>
    obtain ⟨a, ha, h⟩ := idx_mem_inv h
    refine hw.handle (psim_addScalar rfl c) (hw.valid a ha) (fun t hs => ?_) h
    obtain ⟨i', hi⟩ := pos_of hs ha
    exact ⟨.addScalar i' c, by simp only [POp.run, hi, ok_bind]⟩
  | mulScalar i c =>
    obtain ⟨a, ha, h⟩ := idx_mem_inv h
    refine hw.handle (psim_mulScalar rfl c) (hw.valid a ha) (fun t hs => ?_) h
    obtain ⟨i', hi⟩ := pos_of hs ha
    exact ⟨.mulScalar i' c, by simp only [POp.run, hi, ok_bind]⟩
  | incFront i n =>
    obtain ⟨a, ha, h⟩ := idx_mem_inv h
    refine hw.handle (psim_incFront rfl n) (hw.valid a ha) (fun t hs => ?_) h
    obtain ⟨i', hi⟩ := pos_of hs ha
    exact ⟨.incFront i' n, by simp only [POp.run, hi, ok_bind]⟩
  | incBack i n =>
    obtain ⟨a, ha, h⟩ := idx_mem_inv h
    refine hw.handle (psim_incBack rfl n) (hw.valid a ha) (fun t hs => ?_) h
    obtain ⟨i', hi⟩ := pos_of hs ha
    exact ⟨.incBack i' n, by simp only [POp.run, hi, ok_bind]⟩
  | evaluations i =>
    obtain ⟨a, ha, h⟩ := idx_mem_inv h
    refine hw.other (psim_evaluations rfl) (hw.valid a ha) (fun t hs => ?_) h
    obtain ⟨i', hi⟩ := pos_of hs ha
    exact ⟨.evaluations i', by simp only [POp.run, hi, ok_bind]⟩
  | challenge k label =>
    by_cases hk : k < w.heap.length
    · exact hw.other (psim_on k _) hk (fun t hs => ⟨.challenge label, rfl⟩) h
    · simp only [MOp.run] at h; rw [missing_other hk] at h; cases h
  | append k label d =>
    by_cases hk : k < w.heap.length
    · exact hw.other (psim_on k _) hk (fun t hs => ⟨.append label d, rfl⟩) h
    · simp only [MOp.run] at h; rw [missing_other hk] at h; cases h
  | sumClaim i v =>
    obtain ⟨a, ha, h⟩ := idx_mem_inv h
    refine hw.other (psim_on _ _) (hw.valid a ha) (fun t hs => ?_) h
    obtain ⟨i', hi⟩ := pos_of hs ha
    exact ⟨.sumClaim i' v, by simp only [POp.run, hi, ok_bind]; rfl⟩
  | zeroClaim i =>
    obtain ⟨a, ha, h⟩ := idx_mem_inv h
    refine hw.other (psim_on _ _) (hw.valid a ha) (fun t hs => ?_) h
    obtain ⟨i', hi⟩ := pos_of hs ha
    exact ⟨.zeroClaim i', by simp only [POp.run, hi, ok_bind]; rfl⟩

theorem Alone.runAll (hw : Alone commit H w nc) (ops : List (MOp F C)) (hnc : nc → ∀ k, MOp.copy k ∉ ops) (h : w.runAll commit H ops = .ok w') :
    Alone commit H w' nc := by
  induction ops generalizing w with
  | nil =>
    simp only [MState.runAll, List.foldlM_nil] at h
    injection h with h; subst h; exact hw
  | cons op ops ih =>
    simp only [MState.runAll, List.foldlM_cons] at h
    rcases hr : op.run commit H w with e | w1
    · rw [hr] at h; simp at h
    · rw [hr, ok_bind] at h
      exact ih (hw.run op (fun n k e => hnc n k (by rw [e]; exact List.mem_cons_self)) hr) (fun n k hk => hnc n k (List.mem_cons_of_mem _ hk)) h

theorem Alone.init : Alone commit H (MState.init : MState F C) nc :=
  ⟨fun x hx => (List.not_mem_nil hx).elim, fun k t ht => by simp [MState.init] at ht⟩

end Zksql
