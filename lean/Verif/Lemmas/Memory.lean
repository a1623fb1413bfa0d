import Verif.Spec.Memory
/-!
Lemmas about programs with several trackers.
-/
set_option linter.unusedSectionVars false
namespace Zksql
open Spec

section Sim
variable {M S : Type} {get : M → Option S} {put : M → S → M} {α β γ δ : Type}

/-- `get` and `put` read and write one part of memory. -/
structure Part (get : M → Option S) (put : M → S → M) : Prop where
  get_put : ∀ mem x y, get mem = some x → get (put mem y) = some y
  put_put : ∀ mem x y, put (put mem x) y = put mem y
  put_get : ∀ mem x, get mem = some x → put mem x = mem

/-- Running `m` on memory is running `s` on the part, with results translated by `f`. -/
def Sim (get : M → Option S) (put : M → S → M) (f : α → β) (m : Act M β) (s : Act S α) : Prop :=
  ∀ mem x, get mem = some x → m mem = ((s x).1.map f, put mem (s x).2)

theorem Sim.within (s : Act S α) : Sim get put id (s.within get put) s := by
  intro mem x h
  simp only [Act.within, h]
  rcases (s x).1 with e | a <;> rfl

theorem Sim.pure (P : Part get put) (f : α → β) (a : α) : Sim get put f (pure (f a)) (pure a) := by
  intro mem x h
  simp [P.put_get mem x h, Except.map]

theorem Sim.lift (P : Part get put) (r : Res α) : Sim get put id (Act.lift r) (Act.lift r) := by
  intro mem x h
  rcases r with e | a <;> simp [P.put_get mem x h, Except.map]

theorem Sim.bind (P : Part get put) {f : α → β} {g : γ → δ} {m : Act M β} {s : Act S α} {m' : β → Act M δ} {s' : α → Act S γ}
    (h : Sim get put f m s) (h' : ∀ a, Sim get put g (m' (f a)) (s' a)) : Sim get put g (m >>= m') (s >>= s') := by
  intro mem x hx
  have h1 := h mem x hx
  rw [Act.bind_run, Act.bind_run, h1]
  rcases hs : s x with ⟨e | a, y⟩
  · simp [Except.map]
  · simp only [Except.map]
    rw [h' a _ y (P.get_put mem x y hx), P.put_put]
    rfl

theorem Sim.map {f : α → β} {g : β → γ} (P : Part get put) {m : Act M β} {s : Act S α} (h : Sim get put f m s) :
    Sim get put (fun a => g (f a)) (m >>= fun b => Pure.pure (g b)) s := by
  intro mem x hx
  rw [Act.bind_run, h mem x hx]
  rcases (s x).1 with e | a <;> simp [Except.map]

end Sim

variable {F C B : Type} [Field F]

theorem heap_part (k : Nat) : Part (M := PHeap F C) (fun heap => heap[k]?) (fun heap t => heap.put k t) := by
  refine ⟨fun mem x y h => ?_, fun mem x y => ?_, fun mem x h => ?_⟩
  · have := List.getElem?_eq_some_iff.1 h
    simp [PHeap.put, this.1]
  · simp [PHeap.put]
  · obtain ⟨hk, rfl⟩ := List.getElem?_eq_some_iff.1 h
    simp [PHeap.put]

theorem vmem_get {k : Nat} {mem : VMem F C B} {s : VSt F C B} : VMem.get k mem = some s ↔
    ∃ a, mem.trackers[k]? = some (s.own, a) ∧ mem.maps[a]? = some s.sh := by
  unfold VMem.get
  rcases h : mem.trackers[k]? with _ | ⟨t, a⟩
  · simp
  · rcases h2 : mem.maps[a]? with _ | sh
    · simp only [h2]
      constructor
      · intro h; cases h
      · rintro ⟨a', e, e'⟩
        injection e with e; injection e with e1 e2; subst e2
        rw [h2] at e'; cases e'
    · simp only [h2]
      constructor
      · intro h; injection h with h; subst h
        exact ⟨a, rfl, h2⟩
      · rintro ⟨a', e, e'⟩
        injection e with e; injection e with e1 e2; subst e2
        rw [h2] at e'; injection e' with e'
        rw [e1, e']

theorem vmem_part (k : Nat) : Part (M := VMem F C B) (VMem.get k) (VMem.put k) := by
  refine ⟨fun mem x y h => ?_, fun mem x y => ?_, fun mem x h => ?_⟩
  · obtain ⟨a, h1, h2⟩ := vmem_get.1 h
    have l1 := (List.getElem?_eq_some_iff.1 h1).1
    have l2 := (List.getElem?_eq_some_iff.1 h2).1
    rw [vmem_get]
    simp only [VMem.put, h1]
    exact ⟨a, List.getElem?_set_self l1, List.getElem?_set_self l2⟩
  · rcases h : mem.trackers[k]? with _ | ⟨t, a⟩
    · simp [VMem.put, h]
    · have l1 := (List.getElem?_eq_some_iff.1 h).1
      simp [VMem.put, h, l1]
  · obtain ⟨a, h1, h2⟩ := vmem_get.1 h
    obtain ⟨l1, e1⟩ := List.getElem?_eq_some_iff.1 h1
    obtain ⟨l2, e2⟩ := List.getElem?_eq_some_iff.1 h2
    rcases mem with ⟨ts, ms⟩
    simp only at h1 l1 e1 l2 e2
    simp only [VMem.put, h1]
    rw [← e1, ← e2]
    simp

/-- Simulation on the prover tracker at address `k`. -/
abbrev PSim {α β : Type} (k : Nat) (f : α → β) (m : Act (PHeap F C) β) (s : Act (PTracker F C) α) : Prop :=
  Sim (fun heap : PHeap F C => heap[k]?) (fun heap t => heap.put k t) f m s

/-- Simulation on the verifier tracker at address `k`. -/
abbrev VSim {α β : Type} (k : Nat) (f : α → β) (m : Act (VMem F C B) β) (s : Act (VSt F C B) α) : Prop :=
  Sim (VMem.get (F := F) (C := C) (B := B) k) (VMem.put k) f m s

theorem psim_on {α : Type} (k : Nat) (s : Act (PTracker F C) α) : PSim k id (PHeap.on k s) s := Sim.within s
theorem vsim_on {α : Type} (k : Nat) (s : Act (VSt F C B) α) : VSim k id (VMem.on k s) s := Sim.within s

theorem psim_of {k : Nat} (s : Act (PTracker F C) TPoly) : PSim k (PolyRef.ofPoly k) (PHeap.on k s >>= fun p => pure (PolyRef.ofPoly k p)) s :=
  Sim.map (f := id) (heap_part k) (psim_on k s)

theorem vsim_of {k : Nat} (s : Act (VSt F C B) Nat) : VSim k (CommRef.ofId k) (VMem.on k s >>= fun i => pure ⟨i, k⟩) s :=
  Sim.map (f := id) (g := CommRef.ofId k) (vmem_part k) (vsim_on k s)

theorem assert_bind {S α : Type} {p : Prop} [Decidable p] (h : p) (f : Unit → Act S α) : (Act.assert p >>= f) = f () := by
  funext s; rw [Act.bind_ok (Act.assert_true h s)]

theorem assert_false {S : Type} {p : Prop} [Decidable p] (h : ¬ p) (s : S) : Act.assert p s = (.error .panic, s) := by simp [Act.assert, h]

theorem same_iff {a b : PolyRef} : a.sameTracker b = true ↔ a.tracker = b.tracker := by simp [PolyRef.sameTracker, trackerEq]
theorem vsame_iff {a b : CommRef} : a.sameTracker b = true ↔ a.tracker = b.tracker := by simp [CommRef.sameTracker, trackerEq]

section
variable {k : Nat} {a b : PolyRef} (ha : a.tracker = k) (hb : b.tracker = k)
include ha

theorem psim_add (hb : b.tracker = k) : PSim (F := F) (C := C) k (PolyRef.ofPoly k) (a.add b) (a.poly.add b.poly) := by
  unfold PolyRef.add PolyRef.assertSameTracker
  rw [assert_bind (same_iff.2 (ha.trans hb.symm)), ha]; exact psim_of _
theorem psim_sub (hb : b.tracker = k) : PSim (F := F) (C := C) k (PolyRef.ofPoly k) (a.sub b) (a.poly.sub b.poly) := by
  unfold PolyRef.sub PolyRef.assertSameTracker
  rw [assert_bind (same_iff.2 (ha.trans hb.symm)), ha]; exact psim_of _
theorem psim_mul (hb : b.tracker = k) : PSim (F := F) (C := C) k (PolyRef.ofPoly k) (a.mul b) (a.poly.mul b.poly) := by
  unfold PolyRef.mul PolyRef.assertSameTracker
  rw [assert_bind (same_iff.2 (ha.trans hb.symm)), ha]; exact psim_of _
theorem psim_addScalar (c : F) : PSim (F := F) (C := C) k (PolyRef.ofPoly k) (a.addScalar c) (a.poly.addScalar c) := by
  unfold PolyRef.addScalar; rw [ha]; exact psim_of _
theorem psim_mulScalar (c : F) : PSim (F := F) (C := C) k (PolyRef.ofPoly k) (a.mulScalar c) (a.poly.mulScalar c) := by
  unfold PolyRef.mulScalar; rw [ha]; exact psim_of _
theorem psim_incFront (n : Nat) : PSim (F := F) (C := C) k (PolyRef.ofPoly k) (a.incFront n) (a.poly.incFront n) := by
  unfold PolyRef.incFront; rw [ha]; exact psim_of _
theorem psim_incBack (n : Nat) : PSim (F := F) (C := C) k (PolyRef.ofPoly k) (a.incBack n) (a.poly.incBack n) := by
  unfold PolyRef.incBack; rw [ha]; exact psim_of _
theorem psim_evaluations : PSim (F := F) (C := C) k id a.evaluations a.poly.evaluations := by
  unfold PolyRef.evaluations; rw [ha]; exact psim_on _ _

end

theorem psim_trackMat (k : Nat) (p : Mle F) : PSim (F := F) (C := C) k (PolyRef.ofPoly k) (PHeap.trackMat k p) (TPoly.trackMat p) := psim_of _
theorem psim_trackAndCommit (commit : Mle F → Res C) (k : Nat) (p : Mle F) :
    PSim (F := F) (C := C) k (PolyRef.ofPoly k) (PHeap.trackAndCommit commit k p) (TPoly.trackAndCommit commit p) := psim_of _

section
variable {k : Nat} {a b : CommRef} (ha : a.tracker = k)
include ha

theorem vsim_add (hb : b.tracker = k) : VSim (F := F) (C := C) (B := B) k (CommRef.ofId k) (a.add b) (VSt.addComms a.id b.id) := by
  unfold CommRef.add CommRef.assertSameTracker
  rw [assert_bind (vsame_iff.2 (ha.trans hb.symm)), ha]; exact vsim_of _
theorem vsim_sub (hb : b.tracker = k) : VSim (F := F) (C := C) (B := B) k (CommRef.ofId k) (a.sub b) (VSt.subComms a.id b.id) := by
  unfold CommRef.sub CommRef.assertSameTracker
  rw [assert_bind (vsame_iff.2 (ha.trans hb.symm)), ha]; exact vsim_of _
theorem vsim_mul (hb : b.tracker = k) : VSim (F := F) (C := C) (B := B) k (CommRef.ofId k) (a.mul b) (VSt.mulComms a.id b.id) := by
  unfold CommRef.mul CommRef.assertSameTracker
  rw [assert_bind (vsame_iff.2 (ha.trans hb.symm)), ha]; exact vsim_of _
theorem vsim_addScalar (c : F) : VSim (F := F) (C := C) (B := B) k (CommRef.ofId k) (a.addScalar c) (VSt.addScalar a.id c) := by
  unfold CommRef.addScalar; rw [ha]; exact vsim_of _
theorem vsim_mulScalar (c : F) : VSim (F := F) (C := C) (B := B) k (CommRef.ofId k) (a.mulScalar c) (VSt.mulScalar a.id c) := by
  unfold CommRef.mulScalar; rw [ha]; exact vsim_of _
theorem vsim_incFront (n : Nat) : VSim (F := F) (C := C) (B := B) k (CommRef.ofId k) (a.incFront n) (VSt.incFront a.id n) := by
  unfold CommRef.incFront; rw [ha]; exact vsim_of _
theorem vsim_incBack (n : Nat) : VSim (F := F) (C := C) (B := B) k (CommRef.ofId k) (a.incBack n) (VSt.incBack a.id n) := by
  unfold CommRef.incBack; rw [ha]; exact vsim_of _

end

theorem vsim_transfer (debug : Bool) (k id : Nat) :
    VSim (F := F) (C := C) (B := B) k (CommRef.ofId k) (VMem.transferComm debug k id) (VSt.transferComm debug id) := vsim_of _
theorem vsim_trackMat (k : Nat) (c : C) :
    VSim (F := F) (C := C) (B := B) k (CommRef.ofId k) (VMem.trackMatComm k c) (VSt.trackMatComm c) := vsim_of _
theorem vsim_trackVirtual (k : Nat) (c : VComm F) :
    VSim (F := F) (C := C) (B := B) k (CommRef.ofId k) (VMem.trackVirtual k c) (VSt.trackVirtual c) := vsim_of _

/-! ### Mixed handles -/

theorem add_mixed {a b : PolyRef} (h : a.tracker ≠ b.tracker) (heap : PHeap F C) : a.add b heap = (.error .panic, heap) :=
  Act.bind_error (assert_false (fun e => h (same_iff.1 e)) heap)
theorem sub_mixed {a b : PolyRef} (h : a.tracker ≠ b.tracker) (heap : PHeap F C) : a.sub b heap = (.error .panic, heap) :=
  Act.bind_error (assert_false (fun e => h (same_iff.1 e)) heap)
theorem mul_mixed {a b : PolyRef} (h : a.tracker ≠ b.tracker) (heap : PHeap F C) : a.mul b heap = (.error .panic, heap) :=
  Act.bind_error (assert_false (fun e => h (same_iff.1 e)) heap)
theorem vadd_mixed {a b : CommRef} (h : a.tracker ≠ b.tracker) (mem : VMem F C B) : a.add b mem = (.error .panic, mem) :=
  Act.bind_error (assert_false (fun e => h (vsame_iff.1 e)) mem)
theorem vsub_mixed {a b : CommRef} (h : a.tracker ≠ b.tracker) (mem : VMem F C B) : a.sub b mem = (.error .panic, mem) :=
  Act.bind_error (assert_false (fun e => h (vsame_iff.1 e)) mem)
theorem vmul_mixed {a b : CommRef} (h : a.tracker ≠ b.tracker) (mem : VMem F C B) : a.mul b mem = (.error .panic, mem) :=
  Act.bind_error (assert_false (fun e => h (vsame_iff.1 e)) mem)

/-! ### Trackers of results -/

theorem of_ok {k : Nat} {s : Act (PTracker F C) TPoly} {heap heap' : PHeap F C} {c : PolyRef}
    (h : (PHeap.on k s >>= fun p => pure (PolyRef.ofPoly k p)) heap = (.ok c, heap')) : c.tracker = k := by
  obtain ⟨p, h1, _, e⟩ := Act.bind_eq_ok.1 h
  injection e with e1 e2; injection e1 with e1; subst e1; rfl

theorem vof_ok {k : Nat} {s : Act (VSt F C B) Nat} {mem mem' : VMem F C B} {c : CommRef}
    (h : (VMem.on k s >>= fun i => pure ⟨i, k⟩) mem = (.ok c, mem')) : c.tracker = k := by
  obtain ⟨p, h1, _, e⟩ := Act.bind_eq_ok.1 h
  injection e with e1 e2; injection e1 with e1; subst e1; rfl

theorem mul_ok {a b c : PolyRef} {heap heap' : PHeap F C} (h : a.mul b heap = (.ok c, heap')) : a.tracker = b.tracker ∧ c.tracker = a.tracker := by
  by_cases e : a.tracker = b.tracker
  · refine ⟨e, ?_⟩
    unfold PolyRef.mul PolyRef.assertSameTracker at h
    rw [assert_bind (same_iff.2 e)] at h; exact of_ok h
  · rw [mul_mixed e] at h; cases h
theorem sub_ok {a b c : PolyRef} {heap heap' : PHeap F C} (h : a.sub b heap = (.ok c, heap')) : a.tracker = b.tracker ∧ c.tracker = a.tracker := by
  by_cases e : a.tracker = b.tracker
  · refine ⟨e, ?_⟩
    unfold PolyRef.sub PolyRef.assertSameTracker at h
    rw [assert_bind (same_iff.2 e)] at h; exact of_ok h
  · rw [sub_mixed e] at h; cases h
theorem vmul_ok {a b c : CommRef} {mem mem' : VMem F C B} (h : a.mul b mem = (.ok c, mem')) : a.tracker = b.tracker ∧ c.tracker = a.tracker := by
  by_cases e : a.tracker = b.tracker
  · refine ⟨e, ?_⟩
    unfold CommRef.mul CommRef.assertSameTracker at h
    rw [assert_bind (vsame_iff.2 e)] at h; exact vof_ok h
  · rw [vmul_mixed e] at h; cases h
theorem vsub_ok {a b c : CommRef} {mem mem' : VMem F C B} (h : a.sub b mem = (.ok c, mem')) : a.tracker = b.tracker ∧ c.tracker = a.tracker := by
  by_cases e : a.tracker = b.tracker
  · refine ⟨e, ?_⟩
    unfold CommRef.sub CommRef.assertSameTracker at h
    rw [assert_bind (vsame_iff.2 e)] at h; exact vof_ok h
  · rw [vsub_mixed e] at h; cases h
theorem trackAndCommit_ok {commit : Mle F → Res C} {k : Nat} {p : Mle F} {c : PolyRef} {heap heap' : PHeap F C}
    (h : PHeap.trackAndCommit commit k p heap = (.ok c, heap')) : c.tracker = k := of_ok h
theorem vtransfer_ok {debug : Bool} {k id : Nat} {c : CommRef} {mem mem' : VMem F C B}
    (h : VMem.transferComm debug k id mem = (.ok c, mem')) : c.tracker = k := vof_ok h

end Zksql
