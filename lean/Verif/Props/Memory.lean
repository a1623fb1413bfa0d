import Verif.Lemmas.MemoryChecks
import Verif.Lemmas.MemoryRunsV
import Verif.Props.ProverTracker
/-!
# Properties C88 and C89: programs with several trackers
-/
set_option linter.unusedSectionVars false
namespace Zksql
open Spec
variable {F C B : Type} [Field F] {commit : Mle F → Res C} {H : Oracle F C}

/-! ### C88 -/

/-- C88 (mixing): adding, subtracting or multiplying handles of two different trackers panics and changes no tracker, for the prover and for the
verifier. -/
theorem C88_mixed_refused :
    (∀ (a b : PolyRef) (heap : PHeap F C), a.tracker ≠ b.tracker →
      a.add b heap = (.error .panic, heap) ∧ a.sub b heap = (.error .panic, heap) ∧ a.mul b heap = (.error .panic, heap)) ∧
    ∀ (a b : CommRef) (mem : VMem F C B), a.tracker ≠ b.tracker →
      a.add b mem = (.error .panic, mem) ∧ a.sub b mem = (.error .panic, mem) ∧ a.mul b mem = (.error .panic, mem) :=
  ⟨fun _ _ heap h => ⟨add_mixed h heap, sub_mixed h heap, mul_mixed h heap⟩, fun _ _ mem h => ⟨vadd_mixed h mem, vsub_mixed h mem, vmul_mixed h mem⟩⟩

/-- C88 (debug builds): a bag of handles of different trackers or sizes cannot be built; nor can such a table. -/
theorem C88_debug_constructors {S : Type} (s : S) :
    (∀ p q : PolyRef, (BagRef.new true p q s).1 = .ok ⟨p, q⟩ ∧ p.tracker = q.tracker ∧ p.numVars = q.numVars ∨
      (BagRef.new true p q s).1 = .error .panic ∧ ¬ (p.tracker = q.tracker ∧ p.numVars = q.numVars)) ∧
    ∀ (cols : List PolyRef) (q : PolyRef), (TableRef.new true cols q s).1 = .ok ⟨cols, q⟩ ∧ (∀ p ∈ cols, p.tracker = q.tracker ∧ p.numVars = q.numVars) ∨
      (TableRef.new true cols q s).1 = .error .panic ∧ ¬ ∀ p ∈ cols, p.tracker = q.tracker ∧ p.numVars = q.numVars := by
  constructor
  · intro p q
    unfold BagRef.new
    by_cases h1 : p.numVars = q.numVars
    · by_cases h2 : p.tracker = q.tracker
      · exact .inl ⟨by simp [Act.bind_run, Act.assert, h1, same_iff.2 h2], h2, h1⟩
      · have : ¬ p.sameTracker q = true := fun e => h2 (same_iff.1 e)
        exact .inr ⟨by simp [Act.bind_run, Act.assert, h1, this], fun e => h2 e.1⟩
    · exact .inr ⟨by simp [Act.bind_run, Act.assert, h1], fun e => h1 e.2⟩
  · intro cols q
    have key : ∀ cols : List PolyRef, TableRef.checks q cols s = (.ok (), s) ∧ (∀ p ∈ cols, p.tracker = q.tracker ∧ p.numVars = q.numVars) ∨
        TableRef.checks q cols s = (.error .panic, s) ∧ ¬ ∀ p ∈ cols, p.tracker = q.tracker ∧ p.numVars = q.numVars := by
      intro cols
      induction cols with
      | nil => exact .inl ⟨rfl, fun p hp => (List.not_mem_nil hp).elim⟩
      | cons p r ih =>
        unfold TableRef.checks
        by_cases h1 : p.numVars = q.numVars
        · by_cases h2 : p.tracker = q.tracker
          · rw [assert_bind h1, assert_bind (same_iff.2 h2)]
            rcases ih with ⟨ih1, ih2⟩ | ⟨ih1, ih2⟩
            · refine .inl ⟨ih1, fun x hx => ?_⟩
              rcases List.mem_cons.1 hx with rfl | hx
              · exact ⟨h2, h1⟩
              · exact ih2 x hx
            · exact .inr ⟨ih1, fun e => ih2 fun x hx => e x (List.mem_cons_of_mem _ hx)⟩
          · rw [assert_bind h1]
            exact .inr ⟨Act.bind_error (assert_false (fun e => h2 (same_iff.1 e)) s), fun e => h2 (e p List.mem_cons_self).1⟩
        · exact .inr ⟨Act.bind_error (assert_false h1 s), fun e => h1 (e p List.mem_cons_self).2⟩
    unfold TableRef.new
    simp only [if_true]
    rcases key cols with ⟨h1, h2⟩ | ⟨h1, h2⟩
    · exact .inl ⟨by rw [Act.bind_ok h1]; rfl, h2⟩
    · exact .inr ⟨by rw [Act.bind_error h1], h2⟩

/-- C88 (prover): after any history of calls on any number of trackers, whatever the interleaving, every tracker is in a state it reaches alone,
and the handles it returned are the handles it returns alone.  For a tracker made by `deep_copy` the handles the original had at that moment come
first. -/
theorem C88_prover_alone {w : MState F C} (ops : List (MOp F C)) (h : MState.init.runAll commit H ops = .ok w) (k : Nat) (t : PTracker F C)
    (hk : w.heap[k]? = some t) :
    ∃ before, ((∀ j, MOp.copy j ∉ ops) → before = []) ∧ Reachable commit H ⟨t, before ++ w.handlesOf k⟩ :=
  (Alone.init (nc := ∀ j, MOp.copy j ∉ ops) |>.runAll ops id h).reach k t hk

/-- C88 (verifier): the same for verifier trackers; copies are excluded because they share maps with the original (see C49). -/
theorem C88_verifier_alone [DecidableEq F] {debug : Bool} {w : MVState F C B} (ops : List (MVOp F C B)) (h : MVState.init.runAll debug H ops = .ok w)
    (k : Nat) (s : VSt F C B) (hk : VMem.get k w.mem = some s) : VReachable debug H ⟨s, w.handlesOf k⟩ :=
  (VAlone.init.runAll ops h).reach k s hk

/-- C88 (copies): `deep_copy` makes a tracker at a new address with the contents of the original, for the prover and for the verifier, and no
other tracker changes. -/
theorem C88_copies :
    (∀ (heap heap' : PHeap F C) (k : Nat), heap.copy k = .ok heap' →
      k < heap.length ∧ heap'[heap.length]? = heap[k]? ∧ ∀ j < heap.length, heap'[j]? = heap[j]?) ∧
    ∀ (mem mem' : VMem F C B) (k : Nat), VMem.copy k mem = .ok mem' →
      k < mem.trackers.length ∧ VMem.get mem.trackers.length mem' = VMem.get k mem ∧ ∀ j < mem.trackers.length, VMem.get j mem' = VMem.get j mem := by
  constructor
  · intro heap heap' k h
    unfold PHeap.copy at h
    rcases hk : heap[k]? with _ | t
    · rw [idx, hk] at h; simp [unwrap] at h
    · rw [idx, hk, unwrap_some, ok_bind] at h
      injection h with h; subst h
      exact ⟨(List.getElem?_eq_some_iff.1 hk).1, by simp [PTracker.deepCopy], fun j hj => List.getElem?_append_left hj⟩
  · intro mem mem' k h
    unfold VMem.copy at h
    rcases hk : mem.trackers[k]? with _ | ⟨t, a⟩
    · rw [idx, hk] at h; simp [unwrap] at h
    · rw [idx, hk, unwrap_some, ok_bind] at h
      injection h with h; subst h
      refine ⟨(List.getElem?_eq_some_iff.1 hk).1, ?_, fun j hj => ?_⟩
      · simp [VMem.get, hk, VTracker.deepCopy]
      · simp [VMem.get, List.getElem?_append_left hj]

/-- C88: every handle belongs to a tracker in memory, so its values are those of the one-tracker theorems (C33 to C40).  For instance the handle
`a.add b` evaluates to the sum, whatever other trackers do in between. -/
theorem C88_handles_live {w : MState F C} (ops : List (MOp F C)) (h : MState.init.runAll commit H ops = .ok w) (a : PolyRef) (ha : a ∈ w.handles) :
    ∃ t, w.heap[a.tracker]? = some t ∧ a.poly ∈ w.handlesOf a.tracker :=
  ⟨_, List.getElem?_eq_getElem ((Alone.init (nc := False) |>.runAll ops (fun h => h.elim) h).valid a ha), List.mem_map.2 ⟨a, by simp [ha], rfl⟩⟩

namespace MemEx

/-- Two trackers, columns in both, arithmetic in both, a copy and a claim. -/
def history : List (MOp (ZMod 7) (List (ZMod 7))) :=
  [.new, .new, .commit 0 ⟨1, [3, 5]⟩ rfl, .track 1 ⟨1, [2, 3]⟩ rfl, .mul 0 0, .addScalar 1 4, .copy 0, .zeroClaim 2, .track 2 ⟨1, [1, 1]⟩ rfl, .add 4 4]

end MemEx

/-- The history runs; the three trackers have the handles they returned. -/
example : ∃ w, MState.init.runAll PEx.com PEx.orc MemEx.history = .ok w ∧ w.heap.length = 3 ∧
    w.handlesOf 0 = [⟨0, 1⟩, ⟨1, 1⟩] ∧ w.handlesOf 1 = [⟨0, 1⟩, ⟨2, 1⟩] ∧ w.handlesOf 2 = [⟨2, 1⟩, ⟨3, 1⟩] := by
  refine ⟨_, rfl, rfl, ?_, ?_, ?_⟩ <;> decide +kernel

/-- Mixing the first handles of both trackers stops the program. -/
example : (match MState.init.runAll PEx.com PEx.orc (MemEx.history ++ [.mul 0 1]) with | .error .panic => true | _ => false) = true := by
  decide +kernel

/-- Two verifier trackers. -/
example : ∃ w, MVState.init.runAll (B := Unit) true PEx.orc
    [.new, .new, .trackComm 0 [3, 5], .virt 1 (fun _ => .ok 2), .mul 0 0, .addScalar 1 4, .zeroClaim 2] = .ok w ∧
    w.handlesOf 0 = [0, 1] ∧ w.handlesOf 1 = [0, 2] := by
  refine ⟨_, rfl, ?_, ?_⟩ <;> decide +kernel

/-! ### C89 -/

/-- What it means for the checks other than the selector check to refuse foreign handles: if `prove` or `verify` with tracker `k` succeeds, all
handles it was given are handles of tracker `k`. -/
def RefusesForeign (F C B : Type) [Field F] [DecidableEq F] (E : Env F C) (k : Nat) : Prop :=
  ((∀ bag (heap heap' : PHeap F C), Mem.NoZeros.prove E k bag heap = (.ok (), heap') → bag.Of k) ∧
    ∀ bag (mem mem' : VMem F C B), Mem.NoZeros.verify E k bag mem = (.ok (), mem') → bag.Of k) ∧
  ((∀ fxs gxs mfxs mgxs (heap heap' : PHeap F C), Mem.Multitool.prove E k fxs gxs mfxs mgxs heap = (.ok (), heap') →
      ((∀ b ∈ fxs, b.Of k) ∧ ∀ m ∈ mfxs, m.tracker = k) ∧ (∀ b ∈ gxs, b.Of k) ∧ ∀ m ∈ mgxs, m.tracker = k) ∧
    ∀ fxs gxs mfxs mgxs (mem mem' : VMem F C B), Mem.Multitool.verify E k fxs gxs mfxs mgxs mem = (.ok (), mem') →
      ((∀ b ∈ fxs, b.Of k) ∧ ∀ m ∈ mfxs, m.tracker = k) ∧ (∀ b ∈ gxs, b.Of k) ∧ ∀ m ∈ mgxs, m.tracker = k) ∧
  ((∀ fx gx (heap heap' : PHeap F C), Mem.BagEq.prove E k fx gx heap = (.ok (), heap') → fx.Of k ∧ gx.Of k) ∧
    ∀ fx gx (mem mem' : VMem F C B), Mem.BagEq.verify E k fx gx mem = (.ok (), mem') → fx.Of k ∧ gx.Of k) ∧
  (∀ fx0 fx1 gx (heap heap' : PHeap F C), Mem.BagSum.prove E k fx0 fx1 gx heap = (.ok (), heap') → fx0.Of k ∧ fx1.Of k ∧ gx.Of k) ∧
    ∀ fx0 fx1 gx (mem mem' : VMem F C B), Mem.BagSum.verify E k fx0 fx1 gx mem = (.ok (), mem') → fx0.Of k ∧ fx1.Of k ∧ gx.Of k

/-- C89 in full: no check accepts handles of another tracker than the one it is given. -/
def C89_statement : Prop :=
  ∀ (F C B : Type) [Field F] [DecidableEq F] (E : Env F C) (k : Nat), RefusesForeign F C B E k ∧
    (∀ sel (heap heap' : PHeap F C), Mem.SelectorValid.prove k sel heap = (.ok (), heap') → sel.tracker = k) ∧
    ∀ sel (mem mem' : VMem F C B), Mem.SelectorValid.verify k sel mem = (.ok (), mem') → sel.tracker = k

/-- C89, partial: the multiset check, equality, sum and no-zeros refuse foreign handles, as prover and as verifier.  Missing: the selector check
(`C89_violated`). -/
theorem C89_refuses_partial [DecidableEq F] (E : Env F C) (k : Nat) : RefusesForeign F C B E k :=
  ⟨⟨fun _ _ _ h => noZeros_own h, fun _ _ _ h => vnoZeros_own h⟩, ⟨fun _ _ _ _ _ _ h => multitool_own h, fun _ _ _ _ _ _ h => vmultitool_own h⟩,
    ⟨fun _ _ _ _ h => bagEq_own h, fun _ _ _ _ h => vbagEq_own h⟩, fun _ _ _ _ _ h => bagSum_own h, fun _ _ _ _ _ h => vbagSum_own h⟩

/-- C89: on handles of tracker `k` every check with tracker `k`, in a program with any number of trackers, has the outcome of the one-tracker
model and changes only tracker `k`, as in the one-tracker model. -/
theorem C89_own_handles [DecidableEq F] (E : Env F C) (k : Nat) (heap : PHeap F C) (t : PTracker F C) (hk : heap[k]? = some t) :
    (∀ sel : PolyRef, sel.tracker = k →
      Mem.SelectorValid.prove k sel heap = ((SelectorValid.prove sel.poly t).1, heap.set k (SelectorValid.prove sel.poly t).2)) ∧
    (∀ bag : BagRef, bag.Of k → Mem.NoZeros.prove E k bag heap = ((NoZeros.prove E bag.bag t).1, heap.set k (NoZeros.prove E bag.bag t).2)) ∧
    (∀ fx gx : BagRef, fx.Of k → gx.Of k →
      Mem.BagEq.prove E k fx gx heap = ((BagEq.prove E fx.bag gx.bag t).1, heap.set k (BagEq.prove E fx.bag gx.bag t).2)) ∧
    ∀ fx0 fx1 gx : BagRef, fx0.Of k → fx1.Of k → gx.Of k →
      Mem.BagSum.prove E k fx0 fx1 gx heap = ((BagSum.prove E fx0.bag fx1.bag gx.bag t).1, heap.set k (BagSum.prove E fx0.bag fx1.bag gx.bag t).2) := by
  have idm : ∀ r : Res Unit, r.map id = r := fun r => by cases r <;> rfl
  refine ⟨fun sel h => ?_, fun bag h => ?_, fun fx gx h h' => ?_, fun fx0 fx1 gx h h' h'' => ?_⟩
  · exact (psim_selectorValid h heap t hk).trans (by rw [idm]; rfl)
  · exact (psim_noZeros E h heap t hk).trans (by rw [idm]; rfl)
  · exact (psim_bagEq E h h' heap t hk).trans (by rw [idm]; rfl)
  · exact (psim_bagSum E h h' h'' heap t hk).trans (by rw [idm]; rfl)

/-- C89: the same for verifiers.  `VMem.put k mem s` is memory with the tracker at address `k` and its maps replaced. -/
theorem C89_own_handles_verifier [DecidableEq F] (E : Env F C) (k : Nat) (mem : VMem F C B) (s : VSt F C B) (hk : VMem.get k mem = some s) :
    (∀ sel : CommRef, sel.tracker = k →
      Mem.SelectorValid.verify k sel mem = ((SelectorValid.verify sel.id s).1, VMem.put k mem (SelectorValid.verify sel.id s).2)) ∧
    (∀ bag : BagCommRef, bag.Of k → Mem.NoZeros.verify E k bag mem = ((NoZeros.verify E bag.bag s).1, VMem.put k mem (NoZeros.verify E bag.bag s).2)) ∧
    (∀ fx gx : BagCommRef, fx.Of k → gx.Of k →
      Mem.BagEq.verify E k fx gx mem = ((BagEq.verify E fx.bag gx.bag s).1, VMem.put k mem (BagEq.verify E fx.bag gx.bag s).2)) ∧
    ∀ fx0 fx1 gx : BagCommRef, fx0.Of k → fx1.Of k → gx.Of k →
      Mem.BagSum.verify E k fx0 fx1 gx mem = ((BagSum.verify E fx0.bag fx1.bag gx.bag s).1, VMem.put k mem (BagSum.verify E fx0.bag fx1.bag gx.bag s).2) := by
  have idm : ∀ r : Res Unit, r.map id = r := fun r => by cases r <;> rfl
  refine ⟨fun sel h => ?_, fun bag h => ?_, fun fx gx h h' => ?_, fun fx0 fx1 gx h h' h'' => ?_⟩
  · exact (vsim_selectorValid h mem s hk).trans (by rw [idm])
  · exact (vsim_noZeros E h mem s hk).trans (by rw [idm])
  · exact (vsim_bagEq E h h' mem s hk).trans (by rw [idm])
  · exact (vsim_bagSum E h h' h'' mem s hk).trans (by rw [idm])

namespace MemEx

/-- Tracker 1 has the column 2, 3, which is not a selector; tracker 0 has columns of zeros. -/
def setup : List (MOp (ZMod 7) (List (ZMod 7))) :=
  [.new, .new, .track 1 ⟨1, [2, 3]⟩ rfl, .track 0 ⟨1, [0, 0]⟩ rfl, .track 0 ⟨1, [0, 0]⟩ rfl, .track 0 ⟨1, [0, 0]⟩ rfl, .track 0 ⟨1, [0, 0]⟩ rfl,
    .track 0 ⟨1, [0, 0]⟩ rfl]

/-- The handle of the column. -/
def badSel : PolyRef := ⟨0, 1, 1⟩

/-- The state after it. -/
def setupState : MState (ZMod 7) (List (ZMod 7)) := match MState.init.runAll PEx.com PEx.orc setup with | .ok w => w | .error _ => MState.init

/-- Memory after the selector check of tracker 0 on the handle of tracker 1. -/
def afterCheck : PHeap (ZMod 7) (List (ZMod 7)) := (Mem.SelectorValid.prove 0 badSel setupState.heap).2

end MemEx

/-- C89: the selector check accepts a column of another tracker that is not a selector: the claim it records on the tracker it was given is about
an unrelated polynomial of that tracker, here zero everywhere, so the claim is true. -/
theorem C89_selector_foreign :
    MState.init.runAll PEx.com PEx.orc MemEx.setup = .ok MemEx.setupState ∧
    (MemEx.setupState.handles.head?.map fun h => (h.id, h.numVars, h.tracker)) = some (0, 1, 1) ∧
    Mem.SelectorValid.prove 0 MemEx.badSel MemEx.setupState.heap = (.ok (), MemEx.afterCheck) ∧
    ((MemEx.badSel.evaluations MemEx.setupState.heap).1.toOption = some [2, 3]) ∧
    (MemEx.afterCheck.map (·.zeroClaims) = [[4], []]) ∧
    (MemEx.afterCheck.head?.map fun t => ((⟨4, 1⟩ : TPoly).evaluations t).1.toOption) = some (some [0, 0]) := by
  refine ⟨rfl, rfl, rfl, ?_, ?_, ?_⟩ <;> decide +kernel

/-- C89 fails for the selector check. -/
theorem C89_violated : ¬ C89_statement := fun h => absurd ((h (ZMod 7) (List (ZMod 7)) Unit ⟨PEx.com, PEx.orc, true, fun x => x.val⟩ 0).2.1
  MemEx.badSel _ _ C89_selector_foreign.2.2.1) (by decide)

/-- The no-zeros check on the same kind of foreign bag panics; on its own tracker it succeeds. -/
example : (match Mem.NoZeros.prove ⟨PEx.com, PEx.orc, true, fun x => x.val⟩ 0 ⟨MemEx.badSel, MemEx.badSel⟩ MemEx.setupState.heap with
      | (.error .panic, _) => true | _ => false) = true ∧
    (match Mem.NoZeros.prove ⟨PEx.com, PEx.orc, true, fun x => x.val⟩ 1 ⟨MemEx.badSel, MemEx.badSel⟩ MemEx.setupState.heap with
      | (.ok (), _) => true | _ => false) = true := by
  decide +kernel

end Zksql
