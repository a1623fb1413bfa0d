import Verif.Lemmas.ProverTracker3
import Verif.Props.Arith
/-!
# Properties C33-C37, C39, C40: the prover's tracker

`Spec.POp` (Verif/Spec/Tracker.lean) is one call of the handle API, `Reachable` says that a history of calls leads to a state, and
`evalsOf` is what `evaluations()` of a handle returns.  Handles in `st.handles` are exactly those returned so far.
-/
set_option linter.unusedSectionVars false
namespace Zksql
open Spec PTracker
variable {F C : Type} [Field F] {commit : Mle F → Res C} {H : Oracle F C} {st st' : PState F C}

/-! ### A concrete history, used to show that hypotheses are met -/

namespace PEx

/-- A commitment function that refuses more than two variables. -/
def com (p : Mle (ZMod 7)) : Res (List (ZMod 7)) := if p.numVars ≤ 2 then .ok p.evals else .error (.err .invalidParameters)

/-- A constant oracle. -/
def orc : Oracle (ZMod 7) (List (ZMod 7)) := fun _ _ => 3

/-- Two columns, their product, its sum with a committed column, a constant added, and the sum read. -/
def ops : List (POp (ZMod 7) (List (ZMod 7))) :=
  [.track ⟨1, [1, 2]⟩ rfl, .commit ⟨1, [3, 5]⟩ rfl, .mul 0 1, .add 2 0, .addScalar 3 6, .commit ⟨3, [0, 0, 0, 0, 0, 0, 0, 0]⟩ rfl, .evaluations 3,
    .challenge "x", .incBack 2 1]

/-- The state it leads to. -/
def state : PState (ZMod 7) (List (ZMod 7)) :=
  match runOps com orc PState.init ops with
  | .ok s => s
  | .error _ => PState.init

theorem reach : Reachable com orc state := ⟨ops, by decide +kernel⟩

theorem handles : state.handles = [⟨0, 1⟩, ⟨1, 1⟩, ⟨2, 1⟩, ⟨3, 1⟩, ⟨5, 1⟩, ⟨6, 2⟩] := by decide +kernel

end PEx

/-! ### C33 -/

/-- C33 (prover): any further history keeps the old handles in place, only adds handles whose identifiers are larger than all earlier
ones and pairwise different, and every old handle still denotes the same table. -/
theorem C33_prover_ids_fresh (hr : Reachable commit H st) (ops : List (POp F C)) (h : runOps commit H st ops = .ok st') :
    ∃ new : List TPoly, st'.handles = st.handles ++ new ∧
      (st'.handles.map (·.id)).Pairwise (· < ·) ∧ (st'.handles.map (·.id)).Nodup ∧
      (∀ a ∈ st.handles, ∀ b ∈ new, a.id < b.id) ∧ ∀ a ∈ st.handles, evalsOf st' a = evalsOf st a := by
  have hs := runOps_stepOk hr.inv ops h
  obtain ⟨new, e, _, hlt⟩ := hs.handles
  have hp : (st'.handles.map (·.id)).Pairwise (· < ·) := by
    obtain ⟨ops', h'⟩ := hr.step h
    obtain ⟨n', e', p', _⟩ := (runOps_stepOk stInv_init ops' h').handles
    rw [e']; simpa [PState.init] using p'
  refine ⟨new, e, hp, hp.imp (fun h => Nat.ne_of_lt h), ?_, ?_⟩
  · intro a ha b hb
    exact lt_of_lt_of_le ((hr.inv.known a ha).lt hr.inv.inv) (hlt b hb).1
  · intro a ha
    have hk := hr.inv.known a ha
    rw [evalsOf_eq hr.inv hk, evalsOf_eq hs.inv (hs.pres.nv _ _ hk)]
    congr 1
    apply List.map_congr_left
    intro b hb
    exact hs.pres.cube _ _ b hk (List.mem_range.1 hb)

/-- The identifiers of the example history (4 is the constant tracked by `add_scalar`). -/
example : Reachable PEx.com PEx.orc PEx.state ∧ PEx.state.handles.map (·.id) = [0, 1, 2, 3, 5, 6] :=
  ⟨PEx.reach, by rw [PEx.handles]; rfl⟩

/-! ### C34 -/

/-- C34, the state: every identifier is material or virtual and not both, virtual polynomials mention only material identifiers, all of the
same number of variables, and every handle is known. -/
theorem C34_material_or_virtual (hr : Reachable commit H st) :
    (∀ id, ¬ ((st.tracker.mats.lookup id).isSome ∧ (st.tracker.virts.lookup id).isSome)) ∧
    (∀ id v, st.tracker.virts.lookup id = some v → v ≠ [] ∧ ∀ q ∈ v, q.2 ≠ [] ∧ ∀ m ∈ q.2,
      (st.tracker.mats.lookup m).isSome ∧ st.tracker.virts.lookup m = none) ∧
    (∀ a ∈ st.handles, (st.tracker.mats.lookup a.id).isSome ∨ (st.tracker.virts.lookup a.id).isSome) := by
  have hI := hr.inv.inv
  have hno : ∀ id a, st.tracker.mats.lookup id = some a → st.tracker.virts.lookup id = none := by
    intro id a ha
    rcases hv : st.tracker.virts.lookup id with _ | v
    · rfl
    · have := (hI.virtOk id v hv).2.1
      rw [ha] at this; simp at this
  refine ⟨?_, ?_, ?_⟩
  · rintro id ⟨h1, h2⟩
    obtain ⟨a, ha⟩ := Option.isSome_iff_exists.1 h1
    rw [hno id a ha] at h2; simp at h2
  · intro id v hv
    obtain ⟨_, _, nv, h1, h2⟩ := hI.virtOk id v hv
    refine ⟨h1, fun q hq => ⟨(h2 q hq).1, fun m hm => ?_⟩⟩
    obtain ⟨a, ha, _⟩ := (h2 q hq).2 m hm
    exact ⟨by simp [ha], hno m a ha⟩
  · intro a ha
    rcases hr.inv.known a ha with ⟨x, h, _⟩ | ⟨_, v, h, _⟩
    · exact Or.inl (by simp [h])
    · exact Or.inr (by simp [h])

/-- C34, the operations: on handles the tracker handed out, of equal size where two are used, no operation panics or fails. -/
theorem C34_operations_total (hr : Reachable commit H st) {a b : TPoly} (ha : a ∈ st.handles) (hb : b ∈ st.handles) :
    (a.numVars = b.numVars → ∃ h1 h2 h3, (a.add b st.tracker).1 = .ok h1 ∧ (a.sub b st.tracker).1 = .ok h2 ∧ (a.mul b st.tracker).1 = .ok h3) ∧
    (∀ c, ∃ h1 h2, (a.addScalar c st.tracker).1 = .ok h1 ∧ (a.mulScalar c st.tracker).1 = .ok h2) ∧
    (∀ k, ∃ h1 h2, (a.incFront k st.tracker).1 = .ok h1 ∧ (a.incBack k st.tracker).1 = .ok h2) ∧
    (∃ l, (a.evaluations st.tracker).1 = .ok l) ∧ (∃ vp, a.toArith st.tracker = .ok vp) ∧
    (∀ x : List F, x.length = a.numVars → ∃ y, a.evaluate st.tracker x = .ok (some y)) := by
  have hI := hr.inv.inv
  have ka := hr.inv.known a ha
  have kb := hr.inv.known b hb
  refine ⟨fun hab => ?_, fun c => ?_, fun k => ?_, ?_, ?_, fun x hx => ?_⟩
  · obtain ⟨_, e1, _⟩ := newOk_add hI ka kb hab
    obtain ⟨_, e2, _⟩ := newOk_sub hI ka kb hab
    obtain ⟨_, e3, _⟩ := newOk_mul hI ka kb hab
    exact ⟨_, _, _, by rw [e1], by rw [e2], by rw [e3]⟩
  · obtain ⟨_, e1, _⟩ := newOk_addScalar hI ka c
    obtain ⟨_, e2, _⟩ := newOk_mulScalar hI ka c
    exact ⟨_, _, by rw [e1], by rw [e2]⟩
  · obtain ⟨_, e1, _⟩ := newOk_incFront hI ka k
    obtain ⟨_, e2, _⟩ := newOk_incBack hI ka k
    exact ⟨_, _, by rw [e1], by rw [e2]⟩
  · exact ⟨_, by unfold TPoly.evaluations; rw [evaluations_run hI ka]⟩
  · obtain ⟨vp, h, _⟩ := toArith_spec hI ka
    exact ⟨vp, h⟩
  · exact ⟨_, evaluate_spec hI ka x hx⟩

/-- The example state has a virtual handle (5) and material ones. -/
example : (PEx.state.tracker.virts.lookup 5).isSome ∧ (PEx.state.tracker.mats.lookup 0).isSome ∧ (⟨5, 1⟩ : TPoly) ∈ PEx.state.handles ∧
    (⟨0, 1⟩ : TPoly) ∈ PEx.state.handles := by decide +kernel

/-! ### C35 -/

/-- C35 (reading back): a tracked table is returned unchanged. -/
theorem C35_tracked_table (hr : Reachable commit H st) (p : Mle F) (hp : p.WF) :
    Yields commit H st (.track p hp) p.numVars p.evals ∧
    ∀ c, commit p = .ok c → Yields commit H st (.commit p hp) p.numVars p.evals := by
  have hI := hr.inv
  constructor
  · refine yields_of (h := ⟨st.tracker.idCounter, p.numVars⟩) hI (t' := st.tracker.pushMat p) rfl (newOk_pushMat hI.inv hp) ?_
    rw [evals_eq_range p hp]
    apply List.map_congr_left
    intro b _
    exact (gval_pushMat st.tracker p (fun p => p.tbl b)).symm
  · intro c hc
    have e : TPoly.trackAndCommit commit p st.tracker = (.ok ⟨st.tracker.idCounter, p.numVars⟩, st.tracker.pushComm p c) := by
      unfold TPoly.trackAndCommit
      rw [Act.bind_ok (trackAndCommit_ok hc)]; rfl
    refine yields_of (h := ⟨st.tracker.idCounter, p.numVars⟩) hI (t' := st.tracker.pushComm p c) (stepHandle_ok e) (newOk_pushComm hI.inv hp hc) ?_
    rw [evals_eq_range p hp]
    apply List.map_congr_left
    intro b _
    exact (gval_pushMat st.tracker p (fun p => p.tbl b)).symm

/-- C35 (sum, difference, product): the evaluations of the result are the entry by entry results, whatever mixture of material and virtual
polynomials the operands are. -/
theorem C35_pointwise (hr : Reachable commit H st) {i j : Nat} {a b : TPoly} (ha : st.handles[i]? = some a) (hb : st.handles[j]? = some b)
    (hab : a.numVars = b.numVars) :
    ∃ ea eb, evalsOf st a = .ok ea ∧ evalsOf st b = .ok eb ∧ ea.length = 2 ^ a.numVars ∧ eb.length = 2 ^ a.numVars ∧
      Yields commit H st (.add i j) a.numVars (List.zipWith (· + ·) ea eb) ∧
      Yields commit H st (.sub i j) a.numVars (List.zipWith (· - ·) ea eb) ∧
      Yields commit H st (.mul i j) a.numVars (List.zipWith (· * ·) ea eb) := by
  have hI := hr.inv
  have ka := hI.known a (List.mem_of_getElem? ha)
  have kb := hI.known b (List.mem_of_getElem? hb)
  refine ⟨_, _, evalsOf_eq hI ka, evalsOf_eq hI kb, by simp, by simp [hab], ?_, ?_, ?_⟩
  · obtain ⟨t', e, hn, _, hv⟩ := newOk_add hI.inv ka kb hab
    refine yields_of (h := ⟨st.tracker.idCounter, a.numVars⟩) hI (t' := t') ?_ hn ?_
    · simp only [POp.run, idx_eq ha, idx_eq hb, ok_bind]
      exact stepHandle_ok e
    · rw [← hab, zipWith_range]
      exact List.map_congr_left fun b _ => (hv _).symm
  · obtain ⟨t', e, hn, _, hv⟩ := newOk_sub hI.inv ka kb hab
    refine yields_of (h := ⟨st.tracker.idCounter, a.numVars⟩) hI (t' := t') ?_ hn ?_
    · simp only [POp.run, idx_eq ha, idx_eq hb, ok_bind]
      exact stepHandle_ok e
    · rw [← hab, zipWith_range]
      exact List.map_congr_left fun b _ => (hv _).symm
  · obtain ⟨t', e, hn, _, hv⟩ := newOk_mul hI.inv ka kb hab
    refine yields_of (h := ⟨st.tracker.idCounter, a.numVars⟩) hI (t' := t') ?_ hn ?_
    · simp only [POp.run, idx_eq ha, idx_eq hb, ok_bind]
      exact stepHandle_ok e
    · rw [← hab, zipWith_range]
      exact List.map_congr_left fun b _ => (hv _).symm

/-- Operands of different sizes are refused with a panic. -/
theorem C35_sizes_checked (st : PState F C) {i j : Nat} {a b : TPoly} (ha : st.handles[i]? = some a) (hb : st.handles[j]? = some b)
    (hab : a.numVars ≠ b.numVars) :
    POp.run commit H st (.add i j) = .error .panic ∧ POp.run commit H st (.sub i j) = .error .panic ∧
      POp.run commit H st (.mul i j) = .error .panic := by
  have hs : ∀ m : Act (PTracker F C) TPoly, m st.tracker = (.error .panic, st.tracker) → stepHandle st m = .error .panic := by
    intro m hm
    unfold stepHandle
    rw [hm]
  refine ⟨?_, ?_, ?_⟩ <;> simp only [POp.run, idx_eq ha, idx_eq hb, ok_bind] <;> apply hs
  · unfold TPoly.add; rw [Act.bind_error (assert_false_run hab _)]
  · unfold TPoly.sub; rw [Act.bind_error (assert_false_run hab _)]
  · unfold TPoly.mul; rw [Act.bind_error (assert_false_run hab _)]

/-- C35 (scalar sum and scalar product). -/
theorem C35_scalar_pointwise (hr : Reachable commit H st) {i : Nat} {a : TPoly} (ha : st.handles[i]? = some a) (c : F) :
    ∃ ea, evalsOf st a = .ok ea ∧ Yields commit H st (.addScalar i c) a.numVars (ea.map (· + c)) ∧
      Yields commit H st (.mulScalar i c) a.numVars (ea.map (c * ·)) := by
  have hI := hr.inv
  have ka := hI.known a (List.mem_of_getElem? ha)
  refine ⟨_, evalsOf_eq hI ka, ?_, ?_⟩
  · obtain ⟨t', e, hn, _, hv⟩ := newOk_addScalar hI.inv ka c
    refine yields_of (h := ⟨st.tracker.idCounter + 1, a.numVars⟩) hI (t' := t') ?_ hn ?_
    · simp only [POp.run, idx_eq ha, ok_bind]
      exact stepHandle_ok e
    · rw [List.map_map]
      apply List.map_congr_left
      intro b hb
      simp only [Function.comp]
      rw [hv, constMle_tbl _ _ _ (List.mem_range.1 hb)]
  · obtain ⟨t', e, hn, _, hv⟩ := newOk_mulScalar hI.inv ka c
    refine yields_of (h := ⟨st.tracker.idCounter, a.numVars⟩) hI (t' := t') ?_ hn ?_
    · simp only [POp.run, idx_eq ha, ok_bind]
      exact stepHandle_ok e
    · rw [List.map_map]
      apply List.map_congr_left
      intro b _
      exact (hv _).symm

/-- C35 (added variables): entry `i*2^k + j` (front) and entry `i` (back) of the result are entries `i` and `i mod 2^nv` of the operand. -/
theorem C35_increase_nv (hr : Reachable commit H st) {i : Nat} {a : TPoly} (ha : st.handles[i]? = some a) (k : Nat) :
    ∃ ea, evalsOf st a = .ok ea ∧ ea.length = 2 ^ a.numVars ∧
      Yields commit H st (.incFront i k) (a.numVars + k) ((List.range (2 ^ (a.numVars + k))).map fun b => ea.getD (b / 2 ^ k) 0) ∧
      Yields commit H st (.incBack i k) (a.numVars + k) ((List.range (2 ^ (a.numVars + k))).map fun b => ea.getD (b % 2 ^ a.numVars) 0) := by
  have hI := hr.inv
  have ka := hI.known a (List.mem_of_getElem? ha)
  refine ⟨_, evalsOf_eq hI ka, by simp, ?_, ?_⟩
  · obtain ⟨t', e, hn, hv⟩ := newOk_incFront hI.inv ka k
    refine yields_of (h := ⟨st.tracker.idCounter, a.numVars + k⟩) hI (t' := t') ?_ hn ?_
    · simp only [POp.run, idx_eq ha, ok_bind]
      exact stepHandle_ok e
    · apply List.map_congr_left
      intro b hb
      have hb := List.mem_range.1 hb
      have h1 : b / 2 ^ k < 2 ^ a.numVars := by
        rw [Nat.div_lt_iff_lt_mul (by positivity), ← pow_add]; exact hb
      rw [getD_map_range _ _ _ _ h1, ← hv (b / 2 ^ k) (b % 2 ^ k) h1 (Nat.mod_lt _ (by positivity))]
      congr 2
      rw [Nat.div_add_mod']
  · obtain ⟨t', e, hn, hv⟩ := newOk_incBack hI.inv ka k
    refine yields_of (h := ⟨st.tracker.idCounter, a.numVars + k⟩) hI (t' := t') ?_ hn ?_
    · simp only [POp.run, idx_eq ha, ok_bind]
      exact stepHandle_ok e
    · apply List.map_congr_left
      intro b hb
      rw [getD_map_range _ _ _ _ (Nat.mod_lt _ (by positivity)), ← hv b (List.mem_range.1 hb)]

/-- C35 (stability): whatever is done later, the evaluations of an existing handle stay the same. -/
theorem C35_stable (hr : Reachable commit H st) (ops : List (POp F C)) (h : runOps commit H st ops = .ok st') :
    ∀ a ∈ st.handles, a ∈ st'.handles ∧ evalsOf st' a = evalsOf st a := by
  obtain ⟨new, h1, _, _, _, h2⟩ := C33_prover_ids_fresh hr ops h
  intro a ha
  exact ⟨by rw [h1]; exact List.mem_append_left _ ha, h2 a ha⟩

/-- All four combinations of material and virtual operands occur in the example state, with these tables. -/
example : (PEx.state.tracker.virts.lookup 2) = none ∧ evalsOf PEx.state ⟨2, 1⟩ = .ok [3, 3] ∧ evalsOf PEx.state ⟨3, 1⟩ = .ok [4, 5] ∧
    (PEx.state.tracker.virts.lookup 5).isSome ∧ evalsOf PEx.state ⟨5, 1⟩ = .ok [3, 4] ∧ evalsOf PEx.state ⟨6, 2⟩ = .ok [3, 3, 3, 3] := by decide +kernel

/-! ### C36 -/

/-- C36: at every point of the right length, `evaluate` of a tracked table is the value of its multilinear extension, and `evaluate` of a sum,
difference, product, scalar sum and scalar product is that combination of the operands' `evaluate`. -/
theorem C36_evaluate_pointwise (hr : Reachable commit H st) :
    (∀ p hp, YieldsFn commit H st (.track p hp) p.numVars fun x => mle p.tbl x) ∧
    ∀ (i : Nat) (a : TPoly), st.handles[i]? = some a → ∃ va : List F → F,
      (∀ x : List F, x.length = a.numVars → a.evaluate st.tracker x = .ok (some (va x))) ∧
      (∀ c, YieldsFn commit H st (.addScalar i c) a.numVars fun x => va x + c) ∧
      (∀ c, YieldsFn commit H st (.mulScalar i c) a.numVars fun x => c * va x) ∧
      ∀ (j : Nat) (b : TPoly), st.handles[j]? = some b → a.numVars = b.numVars → ∃ vb : List F → F,
        (∀ x : List F, x.length = b.numVars → b.evaluate st.tracker x = .ok (some (vb x))) ∧
        YieldsFn commit H st (.add i j) a.numVars (fun x => va x + vb x) ∧
        YieldsFn commit H st (.sub i j) a.numVars (fun x => va x - vb x) ∧
        YieldsFn commit H st (.mul i j) a.numVars (fun x => va x * vb x) := by
  have hI := hr.inv
  refine ⟨fun p hp => ?_, fun i a ha => ?_⟩
  · refine yieldsFn_of (h := ⟨st.tracker.idCounter, p.numVars⟩) (t' := st.tracker.pushMat p) rfl (newOk_pushMat hI.inv hp) ?_
    intro x _
    exact gval_pushMat _ _ _
  have ka := hI.known a (List.mem_of_getElem? ha)
  refine ⟨_, fun x hx => evaluate_spec hI.inv ka x hx, fun c => ?_, fun c => ?_, fun j b hb hab => ?_⟩
  · obtain ⟨t', e, hn, _, hv⟩ := newOk_addScalar hI.inv ka c
    refine yieldsFn_of (h := ⟨st.tracker.idCounter + 1, a.numVars⟩) (t' := t') ?_ hn ?_
    · simp only [POp.run, idx_eq ha, ok_bind]
      exact stepHandle_ok e
    · intro x hx
      rw [hv, constMle_eval _ _ _ hx]
  · obtain ⟨t', e, hn, _, hv⟩ := newOk_mulScalar hI.inv ka c
    refine yieldsFn_of (h := ⟨st.tracker.idCounter, a.numVars⟩) (t' := t') ?_ hn ?_
    · simp only [POp.run, idx_eq ha, ok_bind]
      exact stepHandle_ok e
    · intro x hx
      exact hv _
  have kb := hI.known b (List.mem_of_getElem? hb)
  refine ⟨_, fun x hx => evaluate_spec hI.inv kb x hx, ?_, ?_, ?_⟩
  · obtain ⟨t', e, hn, _, hv⟩ := newOk_add hI.inv ka kb hab
    refine yieldsFn_of (h := ⟨st.tracker.idCounter, a.numVars⟩) (t' := t') ?_ hn fun x _ => hv _
    simp only [POp.run, idx_eq ha, idx_eq hb, ok_bind]
    exact stepHandle_ok e
  · obtain ⟨t', e, hn, _, hv⟩ := newOk_sub hI.inv ka kb hab
    refine yieldsFn_of (h := ⟨st.tracker.idCounter, a.numVars⟩) (t' := t') ?_ hn fun x _ => hv _
    simp only [POp.run, idx_eq ha, idx_eq hb, ok_bind]
    exact stepHandle_ok e
  · obtain ⟨t', e, hn, _, hv⟩ := newOk_mul hI.inv ka kb hab
    refine yieldsFn_of (h := ⟨st.tracker.idCounter, a.numVars⟩) (t' := t') ?_ hn fun x _ => hv _
    simp only [POp.run, idx_eq ha, idx_eq hb, ok_bind]
    exact stepHandle_ok e

/-- At a point outside the hypercube (5): columns 1+x and 3+2x, and the virtual handle. -/
example : (⟨0, 1⟩ : TPoly).evaluate PEx.state.tracker [5] = .ok (some 6) ∧ (⟨1, 1⟩ : TPoly).evaluate PEx.state.tracker [5] = .ok (some 6) ∧
    (⟨5, 1⟩ : TPoly).evaluate PEx.state.tracker [5] = .ok (some 6) := by decide +kernel

/-! ### C37 -/

/-- C37 as stated. -/
def C37_statement : Prop :=
  ∀ (F C : Type) [Field F] (commit : Mle F → Res C) (H : Oracle F C) (st : PState F C), Reachable commit H st →
    ∀ a ∈ st.handles, ∀ x : List F, x.length = a.numVars → a.evaluate (afterEvaluations st a) x = a.evaluate st.tracker x

/-- C37 fails: for the product of two columns, reading the evaluations replaces the quadratic polynomial by the multilinear extension of its table. -/
theorem C37_violated : ¬ C37_statement := by
  intro h
  have hr : Reachable PEx.com PEx.orc
      (match runOps PEx.com PEx.orc PState.init [.track ⟨1, [1, 2]⟩ rfl, .mul 0 0] with | .ok s => s | .error _ => PState.init) :=
    ⟨[.track ⟨1, [1, 2]⟩ rfl, .mul 0 0], by decide +kernel⟩
  have := h (ZMod 7) _ PEx.com PEx.orc _ hr ⟨1, 1⟩ (by decide +kernel) [5] rfl
  revert this
  decide +kernel

/-- C37, the part that holds (1): no other handle is affected at any point, and the handle itself is unaffected at hypercube points. -/
theorem C37_evaluations_partial (hr : Reachable commit H st) {a : TPoly} (ha : a ∈ st.handles) :
    (∀ b ∈ st.handles, b.id ≠ a.id → ∀ x : List F, x.length = b.numVars →
      b.evaluate (afterEvaluations st a) x = b.evaluate st.tracker x) ∧
    ∀ i < 2 ^ a.numVars, a.evaluate (afterEvaluations st a) (boolPt a.numVars i) = a.evaluate st.tracker (boolPt a.numVars i) := by
  have hI := hr.inv
  have ka := hI.known a ha
  obtain ⟨hI', hp, _⟩ := matSt_spec hI.inv ka
  have e : afterEvaluations st a = st.tracker.matSt a.id a.numVars := by
    unfold afterEvaluations TPoly.evaluations
    rw [evaluations_run hI.inv ka]
  rw [e]
  refine ⟨fun b hb hne x hx => ?_, fun i hi => ?_⟩
  · have kb := hI.known b hb
    unfold TPoly.evaluate
    rw [evaluate_spec hI' (hp.nv _ _ kb) x hx, evaluate_spec hI.inv kb x hx, gval_matSt_other ka kb hne]
  · unfold TPoly.evaluate
    have hl : (boolPt (F := F) a.numVars i).length = a.numVars := by simp [boolPt]
    rw [evaluate_spec hI' (hp.nv _ _ ka) _ hl, evaluate_spec hI.inv ka _ hl]
    have h1 := hp.cube _ _ i ka hi
    simp only [mle_boolPt _ _ _ hi]
    rw [h1]

/-- C37, the part that holds (2): after a history without products of polynomials, reading evaluations changes no `evaluate` at all. -/
theorem C37_linear_partial (ops : List (POp F C)) (hops : ∀ op ∈ ops, NotMul op) (h : runOps commit H PState.init ops = .ok st)
    {a : TPoly} (ha : a ∈ st.handles) :
    ∀ b ∈ st.handles, ∀ x : List F, x.length = b.numVars → b.evaluate (afterEvaluations st a) x = b.evaluate st.tracker x := by
  intro b hb x hx
  have hr : Reachable commit H st := ⟨ops, h⟩
  by_cases hne : b.id = a.id
  swap
  · exact (C37_evaluations_partial hr ha).1 b hb hne x hx
  have hI := hr.inv
  have hl : Lin st.tracker := lin_runOps stInv_init (by intro id v hv; simp [PState.init, PTracker.new] at hv) ops hops h
  have ka := hI.known a ha
  have kb := hI.known b hb
  have hnv : b.numVars = a.numVars := by rw [hne] at kb; exact kb.unique ka
  obtain ⟨hI', hp, _⟩ := matSt_spec hI.inv ka
  have e : afterEvaluations st a = st.tracker.matSt a.id a.numVars := by
    unfold afterEvaluations TPoly.evaluations
    rw [evaluations_run hI.inv ka]
  unfold TPoly.evaluate
  rw [e, evaluate_spec hI' (hp.nv _ _ kb) x hx, evaluate_spec hI.inv kb x hx, hne]
  congr 2
  rcases ka with ⟨p, h1, h2⟩ | ⟨h0, v, h1, h2⟩
  · simp only [matSt, h1]
  · have e : st.tracker.matSt a.id a.numVars = st.tracker.setMat a.id (st.tracker.repMle a.numVars v) := by simp only [matSt, h0, h1]
    rw [e]
    simp only [gval, setMat_lookup, if_true, h0, h1]
    exact gval_lin h2 (hl _ _ h1) x (by omega)

/-- A history without products whose result is virtual. -/
example : (∀ op ∈ ([.track ⟨1, [1, 2]⟩ rfl, .add 0 0] : List (POp (ZMod 7) (List (ZMod 7)))), NotMul op) ∧
    ∃ st, runOps PEx.com PEx.orc PState.init [.track ⟨1, [1, 2]⟩ rfl, .add 0 0] = .ok st ∧ (st.tracker.virts.lookup 1).isSome := by
  refine ⟨by intro op h; simp at h; rcases h with rfl | rfl <;> trivial, _, rfl, by decide +kernel⟩

/-! ### C39 -/

/-- C39: the polynomial handed to the sumcheck prover has the handle's number of variables, evaluates like the handle at every point, and none of
its products has more factors than the recorded degree. -/
theorem C39_to_arith_faithful (hr : Reachable commit H st) {a : TPoly} (ha : a ∈ st.handles) :
    ∃ vp, a.toArith st.tracker = .ok vp ∧ vp.numVariables = a.numVars ∧ (∀ q ∈ vp.products, q.2.length ≤ vp.maxDegree) ∧
      ∀ x : List F, x.length = a.numVars → ∃ y, vp.evaluate x = .ok y ∧ a.evaluate st.tracker x = .ok (some y) := by
  have hI := hr.inv
  have ka := hI.known a ha
  obtain ⟨vp, h1, h2, h3, h4⟩ := toArith_spec hI.inv ka
  refine ⟨vp, h1, h3, h2.deg_ok, fun x hx => ⟨vp.polyVal x, VirtPoly.evaluate_ok h2 x (by omega), ?_⟩⟩
  unfold TPoly.evaluate
  rw [evaluate_spec hI.inv ka x hx, h4]

/-- A virtual handle with a product of degree 2: the converted polynomial evaluates like it at 5. -/
example : ((⟨5, 1⟩ : TPoly).toArith PEx.state.tracker).toOption.map (fun vp => (vp.maxDegree, vp.products.length, vp.evaluate [5])) =
    some (2, 3, .ok 6) := by decide +kernel

/-! ### C40 -/

/-- C40: when committing fails, the call returns the failure and the tracker (identifiers, polynomials, commitments, transcript, claims) is
exactly as before; when it succeeds, one identifier, one polynomial, one commitment and one transcript message are added. -/
theorem C40_commit_atomic (t : PTracker F C) (p : Mle F) :
    (∀ e, commit p = .error e → TPoly.trackAndCommit commit p t = (.error e, t)) ∧
    (∀ e, (TPoly.trackAndCommit commit p t).1 = .error e → commit p = .error e ∧ (TPoly.trackAndCommit commit p t).2 = t) ∧
    (∀ c, commit p = .ok c → ∃ t', TPoly.trackAndCommit commit p t = (.ok ⟨t.idCounter, p.numVars⟩, t') ∧
      t'.idCounter = t.idCounter + 1 ∧ t'.comms.lookup t.idCounter = some c ∧
      (∀ i, i ≠ t.idCounter → t'.comms.lookup i = t.comms.lookup i ∧ t'.mats.lookup i = t.mats.lookup i) ∧
      (t'.mats.lookup t.idCounter).map (·.mle) = some p ∧ t'.virts = t.virts ∧
      t'.transcript = t.transcript.append "comm" (.comm c) ∧ t'.sumClaims = t.sumClaims ∧ t'.zeroClaims = t.zeroClaims) := by
  have he : ∀ e, commit p = .error e → TPoly.trackAndCommit commit p t = (.error e, t) := by
    intro e h
    unfold TPoly.trackAndCommit
    rw [Act.bind_error (trackAndCommit_error h)]
  have ho : ∀ c, commit p = .ok c → TPoly.trackAndCommit commit p t = (.ok ⟨t.idCounter, p.numVars⟩, t.pushComm p c) := by
    intro c h
    unfold TPoly.trackAndCommit
    rw [Act.bind_ok (trackAndCommit_ok h)]; rfl
  refine ⟨he, fun e h => ?_, fun c h => ⟨_, ho c h, rfl, ?_, ?_, ?_, rfl, rfl, rfl, rfl⟩⟩
  · rcases hc : commit p with e' | c
    · rw [he e' hc] at h ⊢
      simp only at h
      injection h with h; subst h
      exact ⟨rfl, rfl⟩
    · rw [ho c hc] at h; simp at h
  · simp [pushComm, lookup_amInsert]
  · intro i hi
    simp [pushComm, pushMat, pushArc, lookup_amInsert, hi]
  · have : (t.pushComm p c).mats.lookup t.idCounter = some ⟨t.heap, p⟩ := pushMat_lookup p t
    rw [this]; rfl

/-- In the example history the commitment to a table of 8 entries is refused. -/
example : PEx.com ⟨3, [0, 0, 0, 0, 0, 0, 0, 0]⟩ = .error (.err .invalidParameters) ∧ PEx.com ⟨1, [3, 5]⟩ = .ok [3, 5] := by decide +kernel

end Zksql
