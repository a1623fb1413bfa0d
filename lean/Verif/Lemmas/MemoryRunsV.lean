import Verif.Lemmas.MemoryRuns
/-!
The same for verifier trackers that are not copied.
-/
set_option linter.unusedSectionVars false
namespace Zksql
open Spec
variable {F C B : Type} [Field F] [DecidableEq F] {debug : Bool} {H : Oracle F C}

theorem vhandlesOf_append (mem mem' : VMem F C B) (hs : List CommRef) (h : CommRef) (k : Nat) :
    (MVState.mk mem' (hs ++ [h])).handlesOf k = (MVState.mk mem hs).handlesOf k ++ if h.tracker = k then [h.id] else [] := by
  unfold MVState.handlesOf
  by_cases e : h.tracker = k <;> simp [List.filter_append, e]

/-- Each tracker has its own maps and is in a state reachable on its own. -/
structure VAlone (debug : Bool) (H : Oracle F C) (w : MVState F C B) : Prop where
  maps : w.mem.trackers.length = w.mem.maps.length
  own : ∀ (k : Nat) (t : VTracker F C B) a, w.mem.trackers[k]? = some (t, a) → a = k
  valid : ∀ h ∈ w.handles, h.tracker < w.mem.trackers.length
  reach : ∀ (k : Nat) s, VMem.get k w.mem = some s → VReachable debug H ⟨s, w.handlesOf k⟩

variable {w w' : MVState F C B}

theorem VAlone.get (hw : VAlone debug H w) {k : Nat} (hk : k < w.mem.trackers.length) : ∃ s, VMem.get k w.mem = some s := by
  rcases ht : w.mem.trackers[k]? with _ | ⟨t, a⟩
  · rw [List.getElem?_eq_none_iff] at ht; omega
  · obtain rfl := hw.own k t a ht
    have hm : a < w.mem.maps.length := hw.maps ▸ hk
    have : w.mem.maps[a]? = some w.mem.maps[a] := List.getElem?_eq_getElem hm
    exact ⟨⟨t, w.mem.maps[a]⟩, vmem_get.2 ⟨a, ht, this⟩⟩

theorem VAlone.put_get (hw : VAlone debug H w) {j k : Nat} (hk : k < w.mem.trackers.length) (h : j ≠ k) (s' : VSt F C B) :
    VMem.get j (VMem.put k w.mem s') = VMem.get j w.mem := by
  obtain ⟨s, hs⟩ := hw.get hk
  obtain ⟨a, h1, h2⟩ := vmem_get.1 hs
  obtain rfl := hw.own k _ a h1
  unfold VMem.get VMem.put
  simp only [h1]
  rw [List.getElem?_set_ne (Ne.symm h)]
  rcases hj : w.mem.trackers[j]? with _ | ⟨t, b⟩
  · rfl
  · obtain rfl := hw.own j t b hj
    simp only
    rw [List.getElem?_set_ne (Ne.symm h)]

theorem VAlone.step (hw : VAlone debug H w) {k : Nat} {s s' : VSt F C B} {new : List CommRef} (hk : k < w.mem.trackers.length)
    (hs : VMem.get k w.mem = some s) (hnew : new = [] ∨ ∃ p, new = [CommRef.ofId k p])
    (h : VReachable debug H ⟨s, w.handlesOf k⟩ → VReachable debug H ⟨s', w.handlesOf k ++ new.map (·.id)⟩) :
    VAlone debug H ⟨VMem.put k w.mem s', w.handles ++ new⟩ := by
  obtain ⟨a, h1, h2⟩ := vmem_get.1 hs
  obtain rfl := hw.own k _ a h1
  have hput : VMem.put a w.mem s' = ⟨w.mem.trackers.set a (s'.own, a), w.mem.maps.set a s'.sh⟩ := by unfold VMem.put; simp only [h1]
  have hof : ∀ j, (MVState.mk (VMem.put a w.mem s') (w.handles ++ new)).handlesOf j = w.handlesOf j ++ if j = a then new.map (·.id) else [] := by
    intro j
    rcases hnew with rfl | ⟨p, rfl⟩
    · simp [MVState.handlesOf]
    · rw [vhandlesOf_append w.mem]
      by_cases e : j = a
      · subst e; simp [CommRef.ofId, MVState.handlesOf]
      · simp [CommRef.ofId, MVState.handlesOf, e, Ne.symm e]
  refine ⟨?_, ?_, ?_, ?_⟩
  · rw [hput]; simp [hw.maps]
  · rw [hput]
    intro j t b hj
    by_cases e : j = a
    · subst e
      simp only [List.getElem?_set_self hk] at hj
      injection hj with hj; injection hj with _ hj; exact hj.symm
    · simp only [List.getElem?_set_ne (Ne.symm e)] at hj
      exact hw.own j t b hj
  · intro x hx
    rw [hput]
    simp only [List.length_set]
    rcases List.mem_append.1 hx with hx | hx
    · exact hw.valid x hx
    · rcases hnew with rfl | ⟨p, rfl⟩
      · cases hx
      · rw [List.mem_singleton.1 hx]; exact hk
  · intro j u hu
    rw [hof j]
    by_cases e : j = a
    · subst e
      rw [(vmem_part j).get_put w.mem s s' hs] at hu
      injection hu with hu; subst hu
      simpa using h (hw.reach j s hs)
    · simp only at hu
      rw [hw.put_get hk e] at hu
      simpa [e] using hw.reach j u hu

theorem vreach_run {st st' : VState F C B} (hr : VReachable debug H st) (op : VOp F C B) (h : op.run debug H st = .ok st') : VReachable debug H st' := by
  obtain ⟨ops, ho⟩ := hr
  refine ⟨ops ++ [op], ?_⟩
  unfold runVOps at ho ⊢
  rw [List.foldlM_append, ho, ok_bind]
  simp [h]

theorem VAlone.handle (hw : VAlone debug H w) {k : Nat} {s : Act (VSt F C B) Nat} {m : Act (VMem F C B) CommRef}
    (hm : VSim k (CommRef.ofId k) m s) (hk : k < w.mem.trackers.length)
    (hop : ∀ t : VSt F C B, ∃ op : VOp F C B, op.run debug H ⟨t, w.handlesOf k⟩ = vstepHandle ⟨t, w.handlesOf k⟩ s)
    (h : w.stepHandle m = .ok w') : VAlone debug H w' := by
  obtain ⟨t, ht⟩ := hw.get hk
  obtain ⟨op, ho⟩ := hop t
  unfold MVState.stepHandle at h
  rw [hm w.mem t ht] at h
  rcases hs : s t with ⟨(e | _) | p, t'⟩
  · rw [hs] at h
    simp only [Except.map] at h
    injection h with h; subst h
    have := hw.step (s' := t') (new := []) hk ht (.inl rfl) fun hr => by
      refine vreach_run hr op ?_
      rw [ho]; simp [vstepHandle, hs]
    simpa using this
  · rw [hs] at h; simp [Except.map] at h
  · rw [hs] at h
    simp only [Except.map] at h
    injection h with h; subst h
    exact hw.step (s' := t') (new := [CommRef.ofId k p]) hk ht (.inr ⟨p, rfl⟩) fun hr => by
      refine vreach_run hr op ?_
      rw [ho]; simp [vstepHandle, hs, CommRef.ofId]

theorem VAlone.other (hw : VAlone debug H w) {α β : Type} {f : α → β} {k : Nat} {s : Act (VSt F C B) α} {m : Act (VMem F C B) β}
    (hm : VSim k f m s) (hk : k < w.mem.trackers.length)
    (hop : ∀ t : VSt F C B, ∃ op : VOp F C B, op.run debug H ⟨t, w.handlesOf k⟩ = vstepOther ⟨t, w.handlesOf k⟩ s)
    (h : w.stepOther m = .ok w') : VAlone debug H w' := by
  obtain ⟨t, ht⟩ := hw.get hk
  obtain ⟨op, ho⟩ := hop t
  unfold MVState.stepOther at h
  rw [hm w.mem t ht] at h
  have key : ∀ t', vstepOther ⟨t, w.handlesOf k⟩ s = .ok ⟨t', w.handlesOf k⟩ → w' = ⟨VMem.put k w.mem t', w.handles⟩ → VAlone debug H w' := by
    intro t' hs' e
    rw [e]
    have := hw.step (s' := t') (new := []) hk ht (.inl rfl) fun hr => by
      refine vreach_run hr op ?_
      rw [ho, hs']; simp
    simpa using this
  rcases hs : s t with ⟨(e | _) | p, t'⟩
  · rw [hs] at h
    simp only [Except.map] at h
    injection h with h
    exact key t' (by simp [vstepOther, hs]) h.symm
  · rw [hs] at h; simp [Except.map] at h
  · rw [hs] at h
    simp only [Except.map] at h
    injection h with h
    exact key t' (by simp [vstepOther, hs]) h.symm

theorem vpos_of {a : CommRef} (ha : a ∈ w.handles) : ∃ i, idx (w.handlesOf a.tracker) i = .ok a.id := by
  have : a.id ∈ w.handlesOf a.tracker := by
    refine List.mem_map.2 ⟨a, ?_, rfl⟩
    simp [ha]
  obtain ⟨i, hi⟩ := List.mem_iff_getElem?.1 this
  exact ⟨i, by rw [idx, hi]; rfl⟩

theorem vget_none {k : Nat} (hk : ¬ k < w.mem.trackers.length) : VMem.get k w.mem = none := by
  have : w.mem.trackers[k]? = none := List.getElem?_eq_none (Nat.le_of_not_lt hk)
  simp [VMem.get, this]

theorem vmissing_handle {k : Nat} {s : Act (VSt F C B) Nat} (hk : ¬ k < w.mem.trackers.length) :
    w.stepHandle (VMem.on k s >>= fun i => pure ⟨i, k⟩) = .error .panic := by
  simp [MVState.stepHandle, Act.bind_run, VMem.on, Act.within, vget_none hk]

theorem vmissing_other {α : Type} {k : Nat} {s : Act (VSt F C B) α} (hk : ¬ k < w.mem.trackers.length) : w.stepOther (VMem.on k s) = .error .panic := by
  simp [MVState.stepOther, VMem.on, Act.within, vget_none hk]

theorem VAlone.run (hw : VAlone debug H w) (op : MVOp F C B) (h : op.run debug H w = .ok w') : VAlone debug H w' := by
  cases op with
  | new =>
    simp only [MVOp.run] at h
    injection h with h; subst h
    have old : ∀ k, k < w.mem.trackers.length → VMem.get k w.mem.alloc = VMem.get k w.mem := by
      intro k hk
      unfold VMem.get VMem.alloc
      simp only [List.getElem?_append_left hk]
      rcases ht : w.mem.trackers[k]? with _ | ⟨t, a⟩
      · rfl
      · obtain rfl := hw.own k t a ht
        simp only
        rw [List.getElem?_append_left (hw.maps ▸ hk)]
    refine ⟨by simp [VMem.alloc, hw.maps], fun k t a ht => ?_, fun x hx => ?_, fun k s hs => ?_⟩
    · by_cases hk : k < w.mem.trackers.length
      · simp only [VMem.alloc, List.getElem?_append_left hk] at ht
        exact hw.own k t a ht
      · have hl := (List.getElem?_eq_some_iff.1 ht).1
        have : k = w.mem.trackers.length := by simp [VMem.alloc] at hl; omega
        subst this
        simp [VMem.alloc] at ht
        rw [← ht.2, hw.maps]
    · have := hw.valid x hx; simp [VMem.alloc]; omega
    · by_cases hk : k < w.mem.trackers.length
      · simp only at hs
        rw [old k hk] at hs
        exact hw.reach k s hs
      · obtain ⟨a, h1, h2⟩ := vmem_get.1 hs
        have hl := (List.getElem?_eq_some_iff.1 h1).1
        have : k = w.mem.trackers.length := by simp [VMem.alloc] at hl; omega
        subst this
        simp [VMem.alloc] at h1
        obtain ⟨e1, rfl⟩ := h1
        simp [VMem.alloc] at h2
        have hh : (MVState.mk w.mem.alloc w.handles).handlesOf w.mem.trackers.length = [] := by
          unfold MVState.handlesOf
          rw [List.map_eq_nil_iff, List.filter_eq_nil_iff]
          intro x hx
          have := hw.valid x hx
          simp; omega
        rw [hh]
        refine ⟨[], ?_⟩
        have : s = VSt.new := by
          rcases s with ⟨o, sh⟩
          simp only at e1 h2
          subst e1 h2
          rfl
        rw [this]; rfl
  | trackComm k c =>
    by_cases hk : k < w.mem.trackers.length
    · exact hw.handle (vsim_trackMat k c) hk (fun t => ⟨.trackComm c, rfl⟩) h
    · simp only [MVOp.run, VMem.trackMatComm] at h; rw [vmissing_handle hk] at h; cases h
  | transfer k id =>
    by_cases hk : k < w.mem.trackers.length
    · exact hw.handle (vsim_transfer debug k id) hk (fun t => ⟨.transfer id, rfl⟩) h
    · simp only [MVOp.run, VMem.transferComm] at h; rw [vmissing_handle hk] at h; cases h
  | virt k f =>
    by_cases hk : k < w.mem.trackers.length
    · exact hw.handle (vsim_trackVirtual k _) hk (fun t => ⟨.virt f, rfl⟩) h
    · simp only [MVOp.run, VMem.trackVirtual] at h; rw [vmissing_handle hk] at h; cases h
  | add i j =>
    obtain ⟨a, ha, h⟩ := idx_mem_inv h
    obtain ⟨b, hb, h⟩ := idx_mem_inv h
    by_cases e : a.tracker = b.tracker
    · refine hw.handle (vsim_add rfl e.symm) (hw.valid a ha) (fun t => ?_) h
      obtain ⟨i', hi⟩ := vpos_of ha
      obtain ⟨j', hj⟩ := vpos_of hb
      rw [← e] at hj
      exact ⟨.add i' j', by simp only [VOp.run, hi, hj, ok_bind]⟩
    · simp [MVState.stepHandle, vadd_mixed e] at h
  | sub i j =>
    obtain ⟨a, ha, h⟩ := idx_mem_inv h
    obtain ⟨b, hb, h⟩ := idx_mem_inv h
    by_cases e : a.tracker = b.tracker
    · refine hw.handle (vsim_sub rfl e.symm) (hw.valid a ha) (fun t => ?_) h
      obtain ⟨i', hi⟩ := vpos_of ha
      obtain ⟨j', hj⟩ := vpos_of hb
      rw [← e] at hj
      exact ⟨.sub i' j', by simp only [VOp.run, hi, hj, ok_bind]⟩
    · simp [MVState.stepHandle, vsub_mixed e] at h
  | mul i j =>
    obtain ⟨a, ha, h⟩ := idx_mem_inv h
    obtain ⟨b, hb, h⟩ := idx_mem_inv h
    by_cases e : a.tracker = b.tracker
    · refine hw.handle (vsim_mul rfl e.symm) (hw.valid a ha) (fun t => ?_) h
      obtain ⟨i', hi⟩ := vpos_of ha
      obtain ⟨j', hj⟩ := vpos_of hb
      rw [← e] at hj
      exact ⟨.mul i' j', by simp only [VOp.run, hi, hj, ok_bind]⟩
    · simp [MVState.stepHandle, vmul_mixed e] at h
  | addScalar i c =>
    obtain ⟨a, ha, h⟩ := idx_mem_inv h
    refine hw.handle (vsim_addScalar rfl c) (hw.valid a ha) (fun t => ?_) h
    obtain ⟨i', hi⟩ := vpos_of ha
    exact ⟨.addScalar i' c, by simp only [VOp.run, hi, ok_bind]⟩
  | mulScalar i c =>
    obtain ⟨a, ha, h⟩ := idx_mem_inv h
    refine hw.handle (vsim_mulScalar rfl c) (hw.valid a ha) (fun t => ?_) h
    obtain ⟨i', hi⟩ := vpos_of ha
    exact ⟨.mulScalar i' c, by simp only [VOp.run, hi, ok_bind]⟩
  | incFront i n =>
    obtain ⟨a, ha, h⟩ := idx_mem_inv h
    refine hw.handle (vsim_incFront rfl n) (hw.valid a ha) (fun t => ?_) h
    obtain ⟨i', hi⟩ := vpos_of ha
    exact ⟨.incFront i' n, by simp only [VOp.run, hi, ok_bind]⟩
  | incBack i n =>
    obtain ⟨a, ha, h⟩ := idx_mem_inv h
    refine hw.handle (vsim_incBack rfl n) (hw.valid a ha) (fun t => ?_) h
    obtain ⟨i', hi⟩ := vpos_of ha
    exact ⟨.incBack i' n, by simp only [VOp.run, hi, ok_bind]⟩
  | setProof k p =>
    by_cases hk : k < w.mem.trackers.length
    · exact hw.other (vsim_on k _) hk (fun t => ⟨.setProof p, rfl⟩) h
    · simp only [MVOp.run] at h; rw [vmissing_other hk] at h; cases h
  | transferEvals k =>
    by_cases hk : k < w.mem.trackers.length
    · exact hw.other (vsim_on k _) hk (fun t => ⟨.transferEvals, rfl⟩) h
    · simp only [MVOp.run] at h; rw [vmissing_other hk] at h; cases h
  | challenge k label =>
    by_cases hk : k < w.mem.trackers.length
    · exact hw.other (vsim_on k _) hk (fun t => ⟨.challenge label, rfl⟩) h
    · simp only [MVOp.run] at h; rw [vmissing_other hk] at h; cases h
  | append k label d =>
    by_cases hk : k < w.mem.trackers.length
    · exact hw.other (vsim_on k _) hk (fun t => ⟨.append label d, rfl⟩) h
    · simp only [MVOp.run] at h; rw [vmissing_other hk] at h; cases h
  | sumClaim i v =>
    obtain ⟨a, ha, h⟩ := idx_mem_inv h
    refine hw.other (vsim_on _ _) (hw.valid a ha) (fun t => ?_) h
    obtain ⟨i', hi⟩ := vpos_of ha
    exact ⟨.sumClaim i' v, by simp only [VOp.run, hi, ok_bind]⟩
  | zeroClaim i =>
    obtain ⟨a, ha, h⟩ := idx_mem_inv h
    refine hw.other (vsim_on _ _) (hw.valid a ha) (fun t => ?_) h
    obtain ⟨i', hi⟩ := vpos_of ha
    exact ⟨.zeroClaim i', by simp only [VOp.run, hi, ok_bind]⟩

theorem VAlone.runAll (hw : VAlone debug H w) (ops : List (MVOp F C B)) (h : w.runAll debug H ops = .ok w') : VAlone debug H w' := by
  induction ops generalizing w with
  | nil =>
    simp only [MVState.runAll, List.foldlM_nil] at h
    injection h with h; subst h; exact hw
  | cons op ops ih =>
    simp only [MVState.runAll, List.foldlM_cons] at h
    rcases hr : op.run debug H w with e | w1
    · rw [hr] at h; simp at h
    · rw [hr, ok_bind] at h
      exact ih (hw.run op hr) h

theorem VAlone.init : VAlone debug H (MVState.init : MVState F C B) :=
  ⟨rfl, fun k t a ht => by simp [MVState.init] at ht, fun x hx => (List.not_mem_nil hx).elim, fun k t ht => by simp [MVState.init, VMem.get] at ht⟩

end Zksql
