import Verif.Lemmas.VerifierTracker
import Verif.Spec.Copies
import Verif.Props.ProverTracker
/-!
# Properties C48 and C49: comparing handles and copying trackers
-/
set_option linter.unusedSectionVars false
namespace Zksql
open Spec
variable {F C B : Type} [Field F] {commit : Mle F → Res C} {H : Oracle F C}

/-! ### C48 -/

/-- C48 in full: handles, of either kind, are equal only if they refer to the same identifier in the same tracker. -/
def C48_statement : Prop :=
  (∀ a b : PolyRef, a.eq b = true ↔ a.id = b.id ∧ a.tracker = b.tracker) ∧ ∀ a b : CommRef, a.eq b = true ↔ a.id = b.id ∧ a.tracker = b.tracker

/-- C48, partial: polynomial handles compare by identity; commitment handles are equal exactly when they belong to the same tracker.  Missing:
the identifier of commitment handles is not compared (`C48_violated`). -/
theorem C48_identity_partial : (∀ a b : PolyRef, a.eq b = true ↔ a.id = b.id ∧ a.tracker = b.tracker) ∧
    (∀ a b : CommRef, a.eq b = true ↔ a.tracker = b.tracker) ∧ ∀ a b, trackerEq a b = true ↔ a = b := by
  refine ⟨fun a b => ?_, fun a b => ?_, fun a b => ?_⟩ <;> simp [PolyRef.eq, CommRef.eq, trackerEq]

/-- C48 fails: two different commitment handles of one tracker are equal. -/
theorem C48_violated : ¬ C48_statement := fun h => absurd ((h.2 ⟨0, 5⟩ ⟨1, 5⟩).1 rfl).1 (by decide)

/-- Equal polynomial handles exist, and so do different ones of one tracker and of different trackers. -/
example : PolyRef.eq ⟨3, 2, 7⟩ ⟨3, 2, 7⟩ = true ∧ PolyRef.eq ⟨3, 2, 7⟩ ⟨4, 2, 7⟩ = false ∧ PolyRef.eq ⟨3, 2, 7⟩ ⟨3, 2, 8⟩ = false := by decide

/-! ### C49 -/

theorem pworld_run_at {w w' : PWorld F C} (op : WOp (POp F C)) (h : w.run commit H op = .ok w') (k : Nat) (hk : k < w.heap.length) (hk' : k < w.handles.length)
    (hop : ∀ j o, op = .on j o → j ≠ k) : w'.at k = w.at k ∧ k < w'.heap.length ∧ k < w'.handles.length := by
  cases op with
  | on j o =>
    simp only [PWorld.run] at h
    obtain ⟨t, _, h⟩ := idx_bind_ok h
    obtain ⟨hs, _, h⟩ := idx_bind_ok h
    rcases hr : o.run commit H ⟨t, hs⟩ with e | st
    · rw [hr] at h; simp at h
    · rw [hr, ok_bind] at h
      injection h with h; subst h
      have hj := hop j o rfl
      refine ⟨?_, by simp [PHeap.put, hk], by simp [hk']⟩
      simp only [PWorld.at, PHeap.put]
      rw [List.getElem?_set_ne hj, List.getElem?_set_ne hj]
  | copy j =>
    simp only [PWorld.run, PHeap.copy] at h
    rcases hi : idx w.heap j with e | t
    · rw [hi] at h; simp at h
    · rw [hi, ok_bind, ok_bind] at h
      obtain ⟨hs, _, h⟩ := idx_bind_ok h
      injection h with h; subst h
      refine ⟨?_, by simp; omega, by simp; omega⟩
      simp only [PWorld.at]
      rw [List.getElem?_append_left hk, List.getElem?_append_left hk']

/-- C49 (prover): whatever is done to other trackers, copies of this one or not, this tracker and its handles stay exactly as they are. -/
theorem C49_prover_isolated {w w' : PWorld F C} (ops : List (WOp (POp F C))) (h : w.runAll commit H ops = .ok w') (k : Nat) (hk : k < w.heap.length)
    (hk' : k < w.handles.length) (hops : ∀ j o, WOp.on j o ∈ ops → j ≠ k) : w'.at k = w.at k := by
  induction ops generalizing w with
  | nil =>
    simp only [PWorld.runAll, List.foldlM_nil] at h
    injection h with h; subst h
    rfl
  | cons op ops ih =>
    simp only [PWorld.runAll, List.foldlM_cons] at h
    rcases hr : w.run commit H op with e | w1
    · rw [hr] at h; simp at h
    · rw [hr, ok_bind] at h
      obtain ⟨h1, h2, h3⟩ := pworld_run_at op hr k hk hk' fun j o e => hops j o (by rw [e]; exact List.mem_cons_self)
      exact (ih h h2 h3 fun j o ho => hops j o (List.mem_cons_of_mem _ ho)).trans h1

/-- C49 (prover): a copy starts as the original is. -/
theorem C49_prover_copy {w w' : PWorld F C} (k : Nat) (hl : w.heap.length = w.handles.length) (h : w.run commit H (.copy k) = .ok w') :
    w'.at w.heap.length = w.at k ∧ (w.at k).isSome := by
  simp only [PWorld.run, PHeap.copy] at h
  rcases hi : w.heap[k]? with _ | t
  · rw [idx, hi] at h; simp [unwrap] at h
  · rw [idx, hi, unwrap_some, ok_bind, ok_bind] at h
    obtain ⟨hs, hh, h⟩ := idx_bind_ok h
    injection h with h; subst h
    simp only [PWorld.at, hi]
    rw [hh]
    simp [hl, PTracker.deepCopy]

/-- The original has a committed column; the copy squares it, and the original later does something else: both stay apart. -/
example : ∃ w' : PWorld (ZMod 7) (List (ZMod 7)), PWorld.runAll PEx.com PEx.orc ⟨[PTracker.new], [[]]⟩
    [.on 0 (.commit ⟨1, [3, 5]⟩ rfl), .copy 0, .on 1 (.mul 0 0), .on 0 (.addScalar 0 1), .on 1 (.evaluations 1)] = .ok w' ∧
    w'.heap.length = 2 ∧ w'.handles = [[⟨0, 1⟩, ⟨2, 1⟩], [⟨0, 1⟩, ⟨1, 1⟩]] := by
  refine ⟨_, rfl, rfl, rfl⟩

variable [DecidableEq F] {debug : Bool}

/-- C49 (verifier): a copy starts as the original is, and all other trackers stay where and as they were. -/
theorem C49_verifier_copy {H : Oracle F C} {w w' : VWorld F C B} (k : Nat) (h : w.run debug H (.copy k) = .ok w') :
    w'.heap.get w.heap.owns.length = w.heap.get k ∧ (∀ j < w.heap.owns.length, w'.heap.get j = w.heap.get j) ∧ (∀ j < w.handles.length, w'.handles[j]? = w.handles[j]?) ∧
      w'.handles[w.handles.length]? = w.handles[k]? ∧ k < w.heap.owns.length ∧ w'.heap.owns.length = w.heap.owns.length + 1 := by
  simp only [VWorld.run, VHeap.copy] at h
  rcases hi : w.heap.owns[k]? with _ | t
  · rw [idx, hi] at h; simp [unwrap] at h
  · rw [idx, hi, unwrap_some, ok_bind, ok_bind] at h
    obtain ⟨hs, hh, h⟩ := idx_bind_ok h
    injection h with h; subst h
    refine ⟨?_, fun j hj => ?_, fun j hj => List.getElem?_append_left hj, ?_, ?_, by simp⟩
    · simp [VHeap.get, idx, hi, VTracker.deepCopy, unwrap]
    · simp [VHeap.get, idx, List.getElem?_append_left hj]
    · rw [hh]; simp
    · exact (List.getElem?_eq_some_iff.1 hi).1

/-- C49 (verifier) in full: after copying a reachable tracker and any history on both, a call on one of them does not change what the
handles of the other evaluate to. -/
def C49_statement : Prop :=
  ∀ (F C B : Type) [Field F] [DecidableEq F] (debug : Bool) (H : Oracle F C) (vs : VState F C B), VReachable debug H vs →
    ∀ (ops : List (WOp (VOp F C B))) (w w' : VWorld F C B) (k : Nat) (op : VOp F C B),
      (VWorld.one vs).runAll debug H (.copy 0 :: ops) = .ok w → w.run debug H (.on k op) = .ok w' →
      ∀ j, j ≠ k → ∀ hs, w.handles[j]? = some hs → ∀ id ∈ hs, ∀ x, w'.eval id x = w.eval id x

theorem vrun_queries {H : Oracle F C} {vs vs' : VState F C B} (op : VOp F C B) (hop : op ≠ .transferEvals) (h : op.run debug H vs = .ok vs') :
    vs'.st.sh.queries = vs.st.sh.queries := by
  have tr : ∀ id, vstepHandle vs (VSt.transferComm debug id) = .ok vs' → vs'.st.sh.queries = vs.st.sh.queries := by
    intro id h
    unfold vstepHandle at h
    rcases hr : VSt.transferComm debug id vs.st with ⟨(e | _) | n, s'⟩
    · exact absurd hr transferComm_noerr
    · rw [hr] at h; simp at h
    · rw [hr] at h
      injection h with h; subst h
      obtain ⟨c, _, rfl, rfl⟩ := transferComm_inv hr
      rfl
  cases op with
  | trackComm c =>
    simp only [VOp.run] at h
    rw [vstepHandle_ok (VSt.trackMatComm_run c vs.st)] at h
    injection h with h; subst h; rfl
  | transfer id => exact tr id h
  | transferNext => exact tr vs.st.own.idCounter h
  | virt f =>
    simp only [VOp.run] at h
    rw [vstepHandle_ok (VSt.trackVirtual_run _ vs.st)] at h
    injection h with h; subst h; rfl
  | add i j =>
    simp only [VOp.run] at h
    obtain ⟨a, ha, h⟩ := idx_bind_ok h
    obtain ⟨b, hb, h⟩ := idx_bind_ok h
    rw [VSt.addComms, vstepHandle_ok (VSt.trackVirtual_run _ vs.st)] at h
    injection h with h; subst h; rfl
  | sub i j =>
    simp only [VOp.run] at h
    obtain ⟨a, ha, h⟩ := idx_bind_ok h
    obtain ⟨b, hb, h⟩ := idx_bind_ok h
    rw [VSt.subComms, vstepHandle_ok (VSt.trackVirtual_run _ vs.st)] at h
    injection h with h; subst h; rfl
  | mul i j =>
    simp only [VOp.run] at h
    obtain ⟨a, ha, h⟩ := idx_bind_ok h
    obtain ⟨b, hb, h⟩ := idx_bind_ok h
    rw [VSt.mulComms, vstepHandle_ok (VSt.trackVirtual_run _ vs.st)] at h
    injection h with h; subst h; rfl
  | addScalar i c =>
    simp only [VOp.run] at h
    obtain ⟨a, ha, h⟩ := idx_bind_ok h
    rw [vstepHandle_ok (VSt.addScalar_run _ _ vs.st)] at h
    injection h with h; subst h; rfl
  | mulScalar i c =>
    simp only [VOp.run] at h
    obtain ⟨a, ha, h⟩ := idx_bind_ok h
    rw [VSt.mulScalar, vstepHandle_ok (VSt.trackVirtual_run _ vs.st)] at h
    injection h with h; subst h; rfl
  | incFront i k =>
    simp only [VOp.run] at h
    obtain ⟨a, ha, h⟩ := idx_bind_ok h
    rw [VSt.incFront, vstepHandle_ok (VSt.trackVirtual_run _ vs.st)] at h
    injection h with h; subst h; rfl
  | incBack i k =>
    simp only [VOp.run] at h
    obtain ⟨a, ha, h⟩ := idx_bind_ok h
    rw [VSt.incBack, vstepHandle_ok (VSt.trackVirtual_run _ vs.st)] at h
    injection h with h; subst h; rfl
  | setProof p =>
    simp only [VOp.run] at h
    rw [VSt.setProof, vstepOther_modify] at h
    injection h with h; subst h; rfl
  | transferEvals => exact absurd rfl hop
  | challenge label =>
    simp only [VOp.run, vstepOther, VSt.challenge] at h
    rcases hc : vs.st.own.transcript.challenge H label with e | ⟨c, tr⟩
    · rw [hc] at h
      cases e with
      | panic => simp at h
      | err e =>
        simp only at h
        injection h with h; subst h; rfl
    · rw [hc] at h
      simp only at h
      injection h with h; subst h; rfl
  | append label d =>
    simp only [VOp.run] at h
    rw [VSt.append, vstepOther_modify] at h
    injection h with h; subst h; rfl
  | sumClaim i v =>
    simp only [VOp.run] at h
    obtain ⟨a, ha, h⟩ := idx_bind_ok h
    rw [VSt.addSumClaim, vstepOther_modify] at h
    injection h with h; subst h; rfl
  | proverSum i =>
    simp only [VOp.run] at h
    obtain ⟨a, ha, h⟩ := idx_bind_ok h
    unfold vstepOther at h
    rcases hl : vs.st.own.proof.sumcheckClaims.lookup a with _ | v
    · rw [Act.bind_error (e := .panic) (s' := vs.st) (by simp [VSt.claimedSum, hl])] at h
      simp at h
    · rw [Act.bind_ok (a := v) (s' := vs.st) (by simp [VSt.claimedSum, hl])] at h
      have : VSt.addSumClaim a v vs.st = (.ok (), { vs.st with own := { vs.st.own with sumClaims := vs.st.own.sumClaims ++ [(a, v)] } }) := rfl
      rw [this] at h
      injection h with h; subst h; rfl
  | zeroClaim i =>
    simp only [VOp.run] at h
    obtain ⟨a, ha, h⟩ := idx_bind_ok h
    rw [VSt.addZeroClaim, vstepOther_modify] at h
    injection h with h; subst h; rfl

/-- A history on one address is a history of one tracker. -/
theorem vworld_one_side {H : Oracle F C} {w w' : VWorld F C B} (k : Nat) (ops : List (VOp F C B)) {vs : VState F C B} (h0 : w.heap.owns[k]? = some vs.st.own)
    (h1 : w.handles[k]? = some vs.handles) (h2 : w.heap.sh = vs.st.sh) (h : w.runAll debug H (ops.map (.on k)) = .ok w') :
    ∃ vs', runVOps debug H vs ops = .ok vs' ∧ w'.heap.sh = vs'.st.sh := by
  induction ops generalizing w vs with
  | nil =>
    simp only [List.map_nil, VWorld.runAll, List.foldlM_nil] at h
    injection h with h; subst h
    exact ⟨vs, rfl, h2⟩
  | cons op ops ih =>
    simp only [List.map_cons, VWorld.runAll, List.foldlM_cons] at h
    have e0 : w.heap.get k = .ok vs.st := by
      unfold VHeap.get idx
      rw [h0, unwrap_some, ok_bind, h2]
    have e1 : idx w.handles k = .ok vs.handles := by rw [idx, h1, unwrap_some]
    rcases hr : op.run debug H vs with e | v1
    · have : w.run debug H (.on k op) = .error e := by
        simp only [VWorld.run]
        rw [e0, ok_bind, e1, ok_bind, hr]
        rfl
      rw [this] at h; simp at h
    · have : w.run debug H (.on k op) = .ok ⟨w.heap.put k v1.st, w.handles.set k v1.handles⟩ := by
        simp only [VWorld.run]
        rw [e0, ok_bind, e1, ok_bind, hr, ok_bind]
      rw [this, ok_bind] at h
      have hk : k < w.heap.owns.length := (List.getElem?_eq_some_iff.1 h0).1
      have hk' : k < w.handles.length := (List.getElem?_eq_some_iff.1 h1).1
      obtain ⟨vs', r1, r2⟩ := ih (w := ⟨w.heap.put k v1.st, w.handles.set k v1.handles⟩) (vs := v1) (by simp [VHeap.put, hk]) (by simp [hk']) rfl h
      refine ⟨vs', ?_, r2⟩
      simp only [runVOps, List.foldlM_cons]
      rw [hr, ok_bind]
      exact r1

theorem runVOps_queries {H : Oracle F C} {vs vs' : VState F C B} (ops : List (VOp F C B)) (hops : VOp.transferEvals ∉ ops) (h : runVOps debug H vs ops = .ok vs') :
    vs'.st.sh.queries = vs.st.sh.queries := by
  induction ops generalizing vs with
  | nil =>
    simp only [runVOps, List.foldlM_nil] at h
    injection h with h; subst h; rfl
  | cons op ops ih =>
    simp only [runVOps, List.foldlM_cons] at h
    rcases hr : op.run debug H vs with e | s1
    · rw [hr] at h; simp at h
    · rw [hr, ok_bind] at h
      exact (ih (fun ho => hops (List.mem_cons_of_mem _ ho)) h).trans (vrun_queries op (fun e => hops (by rw [e]; exact List.mem_cons_self)) hr)

/-- C49 (verifier), partial: after copying, a history on one of the two, original or copy, that does not transfer evaluations of a proof leaves
the evaluation of every handle that existed when the copy was made unchanged.  Missing: handles made by one side after the copy, and evaluations
transferred by one side (`C49_violated`). -/
theorem C49_verifier_partial {H : Oracle F C} {vs : VState F C B} (hr : VReachable debug H vs) (k : Nat) (hk : k < 2) (ops : List (VOp F C B))
    (hops : VOp.transferEvals ∉ ops) (w w' : VWorld F C B) (hw : (VWorld.one vs).run debug H (.copy 0) = .ok w)
    (h : w.runAll debug H (ops.map (.on k)) = .ok w') : ∀ id ∈ vs.handles, ∀ x, w'.eval id x = w.eval id x := by
  have hw' : w = ⟨⟨[vs.st.own, vs.st.own], vs.st.sh⟩, [vs.handles, vs.handles]⟩ := by
    have : (VWorld.one vs).run debug H (.copy 0) = .ok ⟨⟨[vs.st.own, vs.st.own], vs.st.sh⟩, [vs.handles, vs.handles]⟩ := rfl
    rw [this] at hw
    injection hw with hw
    exact hw.symm
  subst hw'
  obtain ⟨vs', r1, r2⟩ := vworld_one_side k ops (vs := vs) (by
    have : k = 0 ∨ k = 1 := by omega
    rcases this with rfl | rfl <;> rfl) (by
    have : k = 0 ∨ k = 1 := by omega
    rcases this with rfl | rfl <;> rfl) rfl h
  intro id hid x
  have hs := runVOps_stepOk hr.inv ops r1
  have hq := runVOps_queries ops hops r1
  unfold VWorld.eval VSt.evalVirtual
  rw [r2]
  have e : VSt.queryAns vs'.st.sh = VSt.queryAns vs.st.sh := by
    funext i pt
    unfold VSt.queryAns
    rw [hq]
  rw [e]
  exact VSt.evalC_keep hr.inv.wf hs.keep (hr.inv.known id hid) _ x

/-- A tracker with a closure and a commitment, whose copy adds them. -/
example : ∃ vs : VState (ZMod 7) (List (ZMod 7)) Unit, VReachable true PEx.orc vs ∧ vs.handles = [0, 1] ∧
    ∃ w w', (VWorld.one vs).run true PEx.orc (.copy 0) = .ok w ∧ w.runAll true PEx.orc ([.add 0 1, .zeroClaim 2].map (.on 1)) = .ok w' ∧
      w'.handles = [[0, 1], [0, 1, 2]] ∧ w'.eval 0 [4] = .ok 3 :=
  ⟨_, ⟨[.virt (fun _ => .ok 3), .trackComm [1, 2]], rfl⟩, rfl, _, _, rfl, rfl, rfl, rfl⟩

/-- C49 fails for the verifier: both sides hand out the same next identifier, and the copy's closure replaces the original's. -/
theorem C49_violated : ¬ C49_statement := by
  intro h
  have := h (ZMod 7) (List (ZMod 7)) Unit true PEx.orc VState.init ⟨[], rfl⟩ [.on 0 (.virt fun _ => .ok 1)] _ _ 1 (.virt fun _ => .ok 2) rfl rfl 0 (by decide)
    [0] rfl 0 (by decide) []
  exact absurd this (by
    intro e
    have e' : (Except.ok (2 : ZMod 7) : Res (ZMod 7)) = .ok 1 := e
    injection e' with e'
    exact absurd e' (by decide))

/-- C49 fails for the verifier also when a proof's evaluations are transferred on the copy: a handle of the original that had no answer gets one. -/
theorem C49_violated_evals : ¬ C49_statement := by
  intro h
  have := h (ZMod 7) (List (ZMod 7)) Unit true PEx.orc _ ⟨[.trackComm [1, 2]], rfl⟩
    [.on 1 (.setProof { (CompiledProof.default : CompiledProof (ZMod 7) (List (ZMod 7)) Unit) with queryMap := [((0, [3]), 5)] })] _ _ 1 .transferEvals rfl rfl 0 (by decide)
    [0] rfl 0 (by decide) [3]
  exact absurd this (by
    intro e
    have e' : (Except.ok (5 : ZMod 7) : Res (ZMod 7)) = .error .panic := e
    simp at e')

end Zksql
