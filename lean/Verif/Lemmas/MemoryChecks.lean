import Verif.Lemmas.Memory
/-!
Checks in programs with several trackers: on handles of the tracker they receive they are the checks of the one-tracker model; all but one refuse
other handles.
-/
set_option linter.unusedSectionVars false
namespace Zksql
open Spec
variable {F C B : Type} [Field F] [DecidableEq F] {k : Nat}

theorem psim_selectorValid {sel : PolyRef} (h : sel.tracker = k) :
    PSim (F := F) (C := C) k id (Mem.SelectorValid.prove k sel) (SelectorValid.prove sel.poly) := by
  unfold Mem.SelectorValid.prove SelectorValid.prove
  refine Sim.bind (heap_part k) (psim_mulScalar h _) fun n => ?_
  refine Sim.bind (heap_part k) (psim_addScalar (a := PolyRef.ofPoly k n) rfl _) fun o => ?_
  refine Sim.bind (heap_part k) (psim_mul (b := PolyRef.ofPoly k o) h rfl) fun c => ?_
  exact psim_on _ _

theorem vsim_selectorValid {sel : CommRef} (h : sel.tracker = k) :
    VSim (F := F) (C := C) (B := B) k id (Mem.SelectorValid.verify k sel) (SelectorValid.verify sel.id) := by
  unfold Mem.SelectorValid.verify SelectorValid.verify
  refine Sim.bind (vmem_part k) (vsim_mulScalar h _) fun n => ?_
  refine Sim.bind (vmem_part k) (vsim_addScalar (a := CommRef.ofId k n) rfl _) fun o => ?_
  refine Sim.bind (vmem_part k) (vsim_mul (b := CommRef.ofId k o) h rfl) fun c => ?_
  exact vsim_on _ _

theorem psim_noZeros (E : Env F C) {bag : BagRef} (h : bag.Of k) :
    PSim (F := F) (C := C) k id (Mem.NoZeros.prove E k bag) (NoZeros.prove E bag.bag) := by
  unfold Mem.NoZeros.prove NoZeros.prove
  refine Sim.bind (heap_part k) (psim_evaluations h.1) fun ev => ?_
  refine Sim.bind (heap_part k) (Sim.lift (heap_part k) _) fun q => ?_
  refine Sim.bind (heap_part k) (psim_trackAndCommit _ k q) fun inv => ?_
  refine Sim.bind (heap_part k) (psim_mul h.1 h.2) fun ps => ?_
  refine Sim.bind (heap_part k) (psim_mul (a := PolyRef.ofPoly k ps) (b := PolyRef.ofPoly k inv) rfl rfl) fun psi => ?_
  refine Sim.bind (heap_part k) (psim_sub (a := PolyRef.ofPoly k psi) rfl h.2) fun c => ?_
  exact psim_on _ _

theorem vsim_noZeros (E : Env F C) {bag : BagCommRef} (h : bag.Of k) :
    VSim (F := F) (C := C) (B := B) k id (Mem.NoZeros.verify E k bag) (NoZeros.verify E bag.bag) := by
  unfold Mem.NoZeros.verify NoZeros.verify
  refine Sim.bind (vmem_part k) (vsim_on k _) fun i => ?_
  refine Sim.bind (vmem_part k) (vsim_transfer _ k i) fun inv => ?_
  refine Sim.bind (vmem_part k) (vsim_mul h.1 h.2) fun ps => ?_
  refine Sim.bind (vmem_part k) (vsim_mul (a := CommRef.ofId k ps) (b := CommRef.ofId k inv) rfl rfl) fun psi => ?_
  refine Sim.bind (vmem_part k) (vsim_sub (a := CommRef.ofId k psi) rfl h.2) fun c => ?_
  exact vsim_on _ _

theorem psim_proveSub (E : Env F C) {bag : BagRef} {m : PolyRef} (h : bag.Of k) (hm : m.tracker = k) (γ : F) :
    PSim (F := F) (C := C) k id (Mem.Multitool.proveSub E k bag m γ) (Multitool.proveSub E bag.bag m.poly γ) := by
  unfold Mem.Multitool.proveSub Multitool.proveSub
  refine Sim.bind (heap_part k) (psim_evaluations h.1) fun ev => ?_
  refine Sim.bind (heap_part k) (Sim.lift (heap_part k) _) fun q => ?_
  refine Sim.bind (heap_part k) (psim_evaluations hm) fun me => ?_
  refine Sim.bind (heap_part k) (psim_evaluations h.2) fun se => ?_
  refine Sim.bind (heap_part k) (Sim.lift (heap_part k) _) fun v => ?_
  refine Sim.bind (heap_part k) (psim_trackAndCommit _ k q) fun phat => ?_
  refine Sim.bind (heap_part k) (psim_mul (a := PolyRef.ofPoly k phat) rfl hm) fun pm => ?_
  refine Sim.bind (heap_part k) (psim_mul (a := PolyRef.ofPoly k pm) rfl h.2) fun sp => ?_
  refine Sim.bind (heap_part k) (psim_mul (b := PolyRef.ofPoly k phat) h.1 rfl) fun pp => ?_
  refine Sim.bind (heap_part k) (psim_mulScalar (a := PolyRef.ofPoly k phat) rfl _) fun gp => ?_
  refine Sim.bind (heap_part k) (psim_sub (a := PolyRef.ofPoly k pp) (b := PolyRef.ofPoly k gp) rfl rfl) fun d => ?_
  refine Sim.bind (heap_part k) (psim_addScalar (a := PolyRef.ofPoly k d) rfl _) fun c => ?_
  refine Sim.bind (heap_part k) (psim_on k _) fun _ => ?_
  exact psim_on _ _

theorem vsim_verifySub (E : Env F C) {bag : BagCommRef} {m : CommRef} (h : bag.Of k) (hm : m.tracker = k) (γ : F) :
    VSim (F := F) (C := C) (B := B) k id (Mem.Multitool.verifySub E k bag m γ) (Multitool.verifySub E bag.bag m.id γ) := by
  unfold Mem.Multitool.verifySub Multitool.verifySub
  refine Sim.bind (vmem_part k) (vsim_on k _) fun i => ?_
  refine Sim.bind (vmem_part k) (vsim_transfer _ k i) fun phat => ?_
  refine Sim.bind (vmem_part k) (vsim_mul (a := CommRef.ofId k phat) rfl hm) fun pm => ?_
  refine Sim.bind (vmem_part k) (vsim_mul (a := CommRef.ofId k pm) rfl h.2) fun sp => ?_
  refine Sim.bind (vmem_part k) (vsim_mul (b := CommRef.ofId k phat) h.1 rfl) fun pp => ?_
  refine Sim.bind (vmem_part k) (vsim_mulScalar (a := CommRef.ofId k phat) rfl _) fun gp => ?_
  refine Sim.bind (vmem_part k) (vsim_sub (a := CommRef.ofId k pp) (b := CommRef.ofId k gp) rfl rfl) fun d => ?_
  refine Sim.bind (vmem_part k) (vsim_addScalar (a := CommRef.ofId k d) rfl _) fun c => ?_
  refine Sim.bind (vmem_part k) (vsim_on k _) fun v => ?_
  refine Sim.bind (vmem_part k) (vsim_on k _) fun _ => ?_
  refine Sim.bind (vmem_part k) (vsim_on k _) fun _ => ?_
  exact Sim.pure (vmem_part k) id v

theorem psim_proveSubs (E : Env F C) (γ : F) : ∀ (xs : List (BagRef × PolyRef)), (∀ q ∈ xs, q.1.Of k ∧ q.2.tracker = k) →
    PSim (F := F) (C := C) k id (Mem.Multitool.proveSubs E k γ xs) (Multitool.proveSubs E γ (xs.map fun q => (q.1.bag, q.2.poly)))
  | [], _ => Sim.pure (heap_part k) id ()
  | (b, m) :: r, h => by
    have h0 := h _ List.mem_cons_self
    exact Sim.bind (heap_part k) (psim_proveSub E h0.1 h0.2 γ) fun _ =>
      psim_proveSubs E γ r fun q hq => h q (List.mem_cons_of_mem _ hq)

theorem vsim_verifySubs (E : Env F C) (γ : F) (top : Nat) : ∀ (xs : List (BagCommRef × CommRef)) (acc : F), (∀ q ∈ xs, q.1.Of k ∧ q.2.tracker = k) →
    VSim (F := F) (C := C) (B := B) k id (Mem.Multitool.verifySubs E k γ top xs acc)
      (Multitool.verifySubs E γ top (xs.map fun q => (q.1.bag, q.2.id)) acc)
  | [], acc, _ => Sim.pure (vmem_part k) id acc
  | (b, m) :: r, acc, h => by
    have h0 := h _ List.mem_cons_self
    refine Sim.bind (vmem_part k) (vsim_verifySub E h0.1 h0.2 γ) fun v => ?_
    refine Sim.bind (vmem_part k) (Sim.lift (vmem_part k) _) fun a => ?_
    exact vsim_verifySubs E γ top r _ fun q hq => h q (List.mem_cons_of_mem _ hq)

theorem zip_of {α β : Type} {P : α → Prop} {Q : β → Prop} {xs : List α} {ms : List β} (h1 : ∀ x ∈ xs, P x) (h2 : ∀ m ∈ ms, Q m) :
    ∀ q ∈ xs.zip ms, P q.1 ∧ Q q.2 := fun q hq => ⟨h1 _ (List.of_mem_zip (a := q.1) (b := q.2) hq).1, h2 _ (List.of_mem_zip (a := q.1) (b := q.2) hq).2⟩

theorem of_zip {α β : Type} {P : α → Prop} {Q : β → Prop} {xs : List α} {ms : List β} (hl : xs.length = ms.length) (h : ∀ q ∈ xs.zip ms, P q.1 ∧ Q q.2) :
    (∀ x ∈ xs, P x) ∧ ∀ m ∈ ms, Q m := by
  constructor
  · intro x hx
    rw [← List.map_fst_zip (l₁ := xs) (l₂ := ms) (by omega)] at hx
    obtain ⟨q, hq, rfl⟩ := List.mem_map.1 hx
    exact (h q hq).1
  · intro m hm
    rw [← List.map_snd_zip (l₁ := xs) (l₂ := ms) (by omega)] at hm
    obtain ⟨q, hq, rfl⟩ := List.mem_map.1 hm
    exact (h q hq).2

theorem shapeOk_eq (xs : List BagRef) (ms : List PolyRef) :
    Mem.Multitool.shapeOk xs ms = Multitool.shapeOk (xs.map (·.bag)) (ms.map (·.poly)) := by
  unfold Mem.Multitool.shapeOk Multitool.shapeOk
  simp only [List.isEmpty_map, List.length_map, List.zip_map, List.all_map]
  rfl

theorem psim_multitool (E : Env F C) {fxs gxs : List BagRef} {mfxs mgxs : List PolyRef} (hf : ∀ b ∈ fxs, b.Of k) (hg : ∀ b ∈ gxs, b.Of k)
    (hmf : ∀ m ∈ mfxs, m.tracker = k) (hmg : ∀ m ∈ mgxs, m.tracker = k) :
    PSim (F := F) (C := C) k id (Mem.Multitool.prove E k fxs gxs mfxs mgxs)
      (Multitool.prove E (fxs.map (·.bag)) (gxs.map (·.bag)) (mfxs.map (·.poly)) (mgxs.map (·.poly))) := by
  unfold Mem.Multitool.prove Multitool.prove
  rw [← shapeOk_eq, ← shapeOk_eq]
  split_ifs
  · exact Sim.lift (heap_part k) _
  · exact Sim.lift (heap_part k) _
  · refine Sim.bind (heap_part k) (psim_on k _) fun γ => ?_
    rw [List.zip_map, List.zip_map]
    refine Sim.bind (heap_part k) (psim_proveSubs E γ _ (zip_of hf hmf)) fun _ => ?_
    exact psim_proveSubs E γ _ (zip_of hg hmg)

theorem vsim_multitool (E : Env F C) {fxs gxs : List BagCommRef} {mfxs mgxs : List CommRef} (hf : ∀ b ∈ fxs, b.Of k) (hg : ∀ b ∈ gxs, b.Of k)
    (hmf : ∀ m ∈ mfxs, m.tracker = k) (hmg : ∀ m ∈ mgxs, m.tracker = k) :
    VSim (F := F) (C := C) (B := B) k id (Mem.Multitool.verify E k fxs gxs mfxs mgxs)
      (Multitool.verify E (fxs.map (·.bag)) (gxs.map (·.bag)) (mfxs.map (·.id)) (mgxs.map (·.id))) := by
  unfold Mem.Multitool.verify Multitool.verify
  simp only [List.isEmpty_map, List.length_map]
  split_ifs
  · exact Sim.lift (vmem_part k) _
  · exact Sim.lift (vmem_part k) _
  · refine Sim.bind (vmem_part k) (vsim_on k _) fun γ => ?_
    rw [List.zip_map, List.zip_map]
    refine Sim.bind (vmem_part k) (vsim_verifySubs E γ _ _ _ (zip_of hf hmf)) fun l => ?_
    refine Sim.bind (vmem_part k) (vsim_verifySubs E γ _ _ _ (zip_of hg hmg)) fun r => ?_
    simp only [id]
    split_ifs
    · exact Sim.pure (vmem_part k) id ()
    · exact Sim.lift (vmem_part k) _

theorem forall_one {α : Type} {P : α → Prop} {a : α} (h : P a) : ∀ b ∈ [a], P b := fun _ hb => List.mem_singleton.1 hb ▸ h
theorem forall_two {α : Type} {P : α → Prop} {a a' : α} (h : P a) (h' : P a') : ∀ b ∈ [a, a'], P b := fun b hb => by
  rcases List.mem_cons.1 hb with rfl | hb
  · exact h
  · exact List.mem_singleton.1 hb ▸ h'

theorem psim_bagEq (E : Env F C) {fx gx : BagRef} (hf : fx.Of k) (hg : gx.Of k) :
    PSim (F := F) (C := C) k id (Mem.BagEq.prove E k fx gx) (BagEq.prove E fx.bag gx.bag) := by
  unfold Mem.BagEq.prove BagEq.prove
  show PSim k id (if fx.numVars ≠ gx.numVars then _ else _) (if fx.numVars ≠ gx.numVars then _ else _)
  split_ifs
  · exact Sim.lift (heap_part k) _
  · refine Sim.bind (heap_part k) (psim_trackMat k _) fun m => ?_
    exact psim_multitool E (forall_one hf) (forall_one hg) (forall_one (a := PolyRef.ofPoly k m) rfl) (forall_one (a := PolyRef.ofPoly k m) rfl)

theorem vsim_bagEq (E : Env F C) {fx gx : BagCommRef} (hf : fx.Of k) (hg : gx.Of k) :
    VSim (F := F) (C := C) (B := B) k id (Mem.BagEq.verify E k fx gx) (BagEq.verify E fx.bag gx.bag) := by
  unfold Mem.BagEq.verify BagEq.verify
  refine Sim.bind (vmem_part k) (vsim_trackVirtual k _) fun m => ?_
  exact vsim_multitool E (forall_one hf) (forall_one hg) (forall_one (a := CommRef.ofId k m) rfl) (forall_one (a := CommRef.ofId k m) rfl)

theorem psim_bagSum (E : Env F C) {fx0 fx1 gx : BagRef} (hf : fx0.Of k) (hf' : fx1.Of k) (hg : gx.Of k) :
    PSim (F := F) (C := C) k id (Mem.BagSum.prove E k fx0 fx1 gx) (BagSum.prove E fx0.bag fx1.bag gx.bag) := by
  unfold Mem.BagSum.prove BagSum.prove
  refine Sim.bind (heap_part k) (psim_trackMat k _) fun m0 => ?_
  refine Sim.bind (heap_part k) (psim_trackMat k _) fun m1 => ?_
  refine Sim.bind (heap_part k) (psim_trackMat k _) fun mg => ?_
  exact psim_multitool E (forall_two hf hf') (forall_one hg) (forall_two (a := PolyRef.ofPoly k m0) (a' := PolyRef.ofPoly k m1) rfl rfl)
    (forall_one (a := PolyRef.ofPoly k mg) rfl)

theorem vsim_bagSum (E : Env F C) {fx0 fx1 gx : BagCommRef} (hf : fx0.Of k) (hf' : fx1.Of k) (hg : gx.Of k) :
    VSim (F := F) (C := C) (B := B) k id (Mem.BagSum.verify E k fx0 fx1 gx) (BagSum.verify E fx0.bag fx1.bag gx.bag) := by
  unfold Mem.BagSum.verify BagSum.verify
  refine Sim.bind (vmem_part k) (vsim_trackVirtual k _) fun m0 => ?_
  refine Sim.bind (vmem_part k) (vsim_trackVirtual k _) fun m1 => ?_
  refine Sim.bind (vmem_part k) (vsim_trackVirtual k _) fun mg => ?_
  exact vsim_multitool E (forall_two hf hf') (forall_one hg) (forall_two (a := CommRef.ofId k m0) (a' := CommRef.ofId k m0) rfl rfl)
    (forall_one (a := CommRef.ofId k m0) rfl)

/-! ### Foreign handles -/

theorem noZeros_own {E : Env F C} {bag : BagRef} {heap heap' : PHeap F C} (h : Mem.NoZeros.prove E k bag heap = (.ok (), heap')) : bag.Of k := by
  unfold Mem.NoZeros.prove at h
  obtain ⟨_, _, _, h⟩ := Act.bind_eq_ok.1 h
  obtain ⟨_, _, _, h⟩ := Act.bind_eq_ok.1 h
  obtain ⟨inv, _, hi, h⟩ := Act.bind_eq_ok.1 h
  obtain ⟨ps, _, h1, h⟩ := Act.bind_eq_ok.1 h
  obtain ⟨psi, _, h2, h⟩ := Act.bind_eq_ok.1 h
  have e := trackAndCommit_ok hi
  have e1 := mul_ok h1
  have e2 := mul_ok h2
  have : bag.poly.tracker = k := by rw [← e1.2, e2.1, e]
  exact ⟨this, e1.1.symm.trans this⟩

theorem vnoZeros_own {E : Env F C} {bag : BagCommRef} {mem mem' : VMem F C B} (h : Mem.NoZeros.verify E k bag mem = (.ok (), mem')) : bag.Of k := by
  unfold Mem.NoZeros.verify at h
  obtain ⟨_, _, _, h⟩ := Act.bind_eq_ok.1 h
  obtain ⟨inv, _, hi, h⟩ := Act.bind_eq_ok.1 h
  obtain ⟨ps, _, h1, h⟩ := Act.bind_eq_ok.1 h
  obtain ⟨psi, _, h2, h⟩ := Act.bind_eq_ok.1 h
  have e := vtransfer_ok hi
  have e1 := vmul_ok h1
  have e2 := vmul_ok h2
  have : bag.poly.tracker = k := by rw [← e1.2, e2.1, e]
  exact ⟨this, e1.1.symm.trans this⟩

theorem proveSub_own {E : Env F C} {bag : BagRef} {m : PolyRef} {γ : F} {heap heap' : PHeap F C}
    (h : Mem.Multitool.proveSub E k bag m γ heap = (.ok (), heap')) : bag.Of k ∧ m.tracker = k := by
  unfold Mem.Multitool.proveSub at h
  obtain ⟨_, _, _, h⟩ := Act.bind_eq_ok.1 h
  obtain ⟨_, _, _, h⟩ := Act.bind_eq_ok.1 h
  obtain ⟨_, _, _, h⟩ := Act.bind_eq_ok.1 h
  obtain ⟨_, _, _, h⟩ := Act.bind_eq_ok.1 h
  obtain ⟨_, _, _, h⟩ := Act.bind_eq_ok.1 h
  obtain ⟨phat, _, hp, h⟩ := Act.bind_eq_ok.1 h
  obtain ⟨pm, _, h1, h⟩ := Act.bind_eq_ok.1 h
  obtain ⟨sp, _, h2, h⟩ := Act.bind_eq_ok.1 h
  obtain ⟨pp, _, h3, h⟩ := Act.bind_eq_ok.1 h
  have e := trackAndCommit_ok hp
  have e1 := mul_ok h1
  have e2 := mul_ok h2
  have e3 := mul_ok h3
  exact ⟨⟨e3.1.trans e, by rw [← e2.1, e1.2, e]⟩, e1.1.symm.trans e⟩

theorem verifySub_own {E : Env F C} {bag : BagCommRef} {m : CommRef} {γ v : F} {mem mem' : VMem F C B}
    (h : Mem.Multitool.verifySub E k bag m γ mem = (.ok v, mem')) : bag.Of k ∧ m.tracker = k := by
  unfold Mem.Multitool.verifySub at h
  obtain ⟨_, _, _, h⟩ := Act.bind_eq_ok.1 h
  obtain ⟨phat, _, hp, h⟩ := Act.bind_eq_ok.1 h
  obtain ⟨pm, _, h1, h⟩ := Act.bind_eq_ok.1 h
  obtain ⟨sp, _, h2, h⟩ := Act.bind_eq_ok.1 h
  obtain ⟨pp, _, h3, h⟩ := Act.bind_eq_ok.1 h
  have e := vtransfer_ok hp
  have e1 := vmul_ok h1
  have e2 := vmul_ok h2
  have e3 := vmul_ok h3
  exact ⟨⟨e3.1.trans e, by rw [← e2.1, e1.2, e]⟩, e1.1.symm.trans e⟩

theorem proveSubs_own {E : Env F C} {γ : F} : ∀ {xs : List (BagRef × PolyRef)} {heap heap' : PHeap F C},
    Mem.Multitool.proveSubs E k γ xs heap = (.ok (), heap') → ∀ q ∈ xs, q.1.Of k ∧ q.2.tracker = k
  | [], _, _, _, q, hq => (List.not_mem_nil hq).elim
  | (b, m) :: r, _, _, h, q, hq => by
    obtain ⟨_, _, h1, h2⟩ := Act.bind_eq_ok.1 h
    rcases List.mem_cons.1 hq with rfl | hq
    · exact proveSub_own h1
    · exact proveSubs_own h2 q hq

theorem verifySubs_own {E : Env F C} {γ : F} {top : Nat} : ∀ {xs : List (BagCommRef × CommRef)} {acc v : F} {mem mem' : VMem F C B},
    Mem.Multitool.verifySubs E k γ top xs acc mem = (.ok v, mem') → ∀ q ∈ xs, q.1.Of k ∧ q.2.tracker = k
  | [], _, _, _, _, _, q, hq => (List.not_mem_nil hq).elim
  | (b, m) :: r, _, _, _, _, h, q, hq => by
    obtain ⟨_, _, h1, h2⟩ := Act.bind_eq_ok.1 h
    obtain ⟨_, _, _, h2⟩ := Act.bind_eq_ok.1 h2
    rcases List.mem_cons.1 hq with rfl | hq
    · exact verifySub_own h1
    · exact verifySubs_own h2 q hq

theorem multitool_own {E : Env F C} {fxs gxs : List BagRef} {mfxs mgxs : List PolyRef} {heap heap' : PHeap F C}
    (h : Mem.Multitool.prove E k fxs gxs mfxs mgxs heap = (.ok (), heap')) :
    ((∀ b ∈ fxs, b.Of k) ∧ ∀ m ∈ mfxs, m.tracker = k) ∧ (∀ b ∈ gxs, b.Of k) ∧ ∀ m ∈ mgxs, m.tracker = k := by
  unfold Mem.Multitool.prove at h
  split_ifs at h with s1 s2
  · cases h
  · cases h
  · obtain ⟨_, _, _, h⟩ := Act.bind_eq_ok.1 h
    obtain ⟨_, _, h1, h2⟩ := Act.bind_eq_ok.1 h
    simp [Mem.Multitool.shapeOk] at s1 s2
    exact ⟨of_zip s1.1.2 (proveSubs_own h1), of_zip s2.1.2 (proveSubs_own h2)⟩

theorem vmultitool_own {E : Env F C} {fxs gxs : List BagCommRef} {mfxs mgxs : List CommRef} {mem mem' : VMem F C B}
    (h : Mem.Multitool.verify E k fxs gxs mfxs mgxs mem = (.ok (), mem')) :
    ((∀ b ∈ fxs, b.Of k) ∧ ∀ m ∈ mfxs, m.tracker = k) ∧ (∀ b ∈ gxs, b.Of k) ∧ ∀ m ∈ mgxs, m.tracker = k := by
  unfold Mem.Multitool.verify at h
  split_ifs at h with s1 s2
  · cases h
  · cases h
  · obtain ⟨_, _, _, h⟩ := Act.bind_eq_ok.1 h
    obtain ⟨_, _, h1, h⟩ := Act.bind_eq_ok.1 h
    obtain ⟨_, _, h2, h⟩ := Act.bind_eq_ok.1 h
    simp at s1 s2
    exact ⟨of_zip s1.2 (verifySubs_own h1), of_zip s2.2 (verifySubs_own h2)⟩

theorem bagEq_own {E : Env F C} {fx gx : BagRef} {heap heap' : PHeap F C} (h : Mem.BagEq.prove E k fx gx heap = (.ok (), heap')) :
    fx.Of k ∧ gx.Of k := by
  unfold Mem.BagEq.prove at h
  split_ifs at h
  · cases h
  · obtain ⟨_, _, _, h⟩ := Act.bind_eq_ok.1 h
    have := multitool_own h
    exact ⟨this.1.1 _ List.mem_cons_self, this.2.1 _ List.mem_cons_self⟩

theorem vbagEq_own {E : Env F C} {fx gx : BagCommRef} {mem mem' : VMem F C B} (h : Mem.BagEq.verify E k fx gx mem = (.ok (), mem')) :
    fx.Of k ∧ gx.Of k := by
  unfold Mem.BagEq.verify at h
  obtain ⟨_, _, _, h⟩ := Act.bind_eq_ok.1 h
  have := vmultitool_own h
  exact ⟨this.1.1 _ List.mem_cons_self, this.2.1 _ List.mem_cons_self⟩

theorem bagSum_own {E : Env F C} {fx0 fx1 gx : BagRef} {heap heap' : PHeap F C} (h : Mem.BagSum.prove E k fx0 fx1 gx heap = (.ok (), heap')) :
    fx0.Of k ∧ fx1.Of k ∧ gx.Of k := by
  unfold Mem.BagSum.prove at h
  obtain ⟨_, _, _, h⟩ := Act.bind_eq_ok.1 h
  obtain ⟨_, _, _, h⟩ := Act.bind_eq_ok.1 h
  obtain ⟨_, _, _, h⟩ := Act.bind_eq_ok.1 h
  have := multitool_own h
  exact ⟨this.1.1 _ List.mem_cons_self, this.1.1 _ (List.mem_cons_of_mem _ List.mem_cons_self), this.2.1 _ List.mem_cons_self⟩

theorem vbagSum_own {E : Env F C} {fx0 fx1 gx : BagCommRef} {mem mem' : VMem F C B} (h : Mem.BagSum.verify E k fx0 fx1 gx mem = (.ok (), mem')) :
    fx0.Of k ∧ fx1.Of k ∧ gx.Of k := by
  unfold Mem.BagSum.verify at h
  obtain ⟨_, _, _, h⟩ := Act.bind_eq_ok.1 h
  obtain ⟨_, _, _, h⟩ := Act.bind_eq_ok.1 h
  obtain ⟨_, _, _, h⟩ := Act.bind_eq_ok.1 h
  have := vmultitool_own h
  exact ⟨this.1.1 _ List.mem_cons_self, this.1.1 _ (List.mem_cons_of_mem _ List.mem_cons_self), this.2.1 _ List.mem_cons_self⟩

end Zksql
