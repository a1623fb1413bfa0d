import Verif.Lemmas.Frame
import Verif.Spec.Joint
import Verif.Spec.Closures
/-! Helper lemmas about the verifier tracker. -/
set_option linter.unusedSectionVars false
namespace Zksql
open Spec
variable {F C B : Type} [Field F]

theorem refs1 {P : Nat → Prop} {i : Nat} (hi : P i) : ∀ r ∈ [i], P r := by
  intro r hr
  obtain rfl : r = i := by simpa using hr
  exact hi

theorem refs2 {P : Nat → Prop} {i j : Nat} (hi : P i) (hj : P j) : ∀ r ∈ [i, j], P r := by
  intro r hr
  rcases List.mem_cons.1 hr with rfl | hr
  · exact hi
  · exact refs1 hj r hr

namespace VSt
variable {ans : Nat → List F → Res F} {s s' : VSt F C B}

/-- Evaluation of one closure given the evaluation of smaller identifiers. -/
def evalStep (ans : Nat → List F → Res F) (rec : Nat → List F → Res F) (c : VComm F) (pt : List F) : Res F :=
  match c with
  | .query i => ans i pt
  | .fn f => f pt
  | .add i j => do
    let x ← rec i pt
    let y ← rec j pt
    .ok (x + y)
  | .sub i j => do
    let x ← rec i pt
    let y ← rec j pt
    .ok (x - y)
  | .mul i j => do
    let x ← rec i pt
    let y ← rec j pt
    .ok (x * y)
  | .addScalar i c => do
    let x ← rec i pt
    .ok (x + c)
  | .mulScalar i c => do
    let x ← rec i pt
    .ok (c * x)
  | .incFront i k => if pt.length < k then .error .panic else rec i (pt.drop k)
  | .incBack i k => if pt.length < k then .error .panic else rec i (pt.take k)

theorem evalC_succ (comms : List (Nat × VComm F)) (n id : Nat) (x : List F) :
    evalC comms ans (n + 1) id x = match comms.lookup id with
      | some c => evalStep ans (evalC comms ans n) c x
      | none => .error .panic := by
  rw [evalC]
  rcases comms.lookup id with _ | c
  · rfl
  · simp only [unwrap_some, ok_bind]
    cases c <;> rfl

theorem evalStep_congr {rec rec' : Nat → List F → Res F} {c : VComm F} (h : ∀ r ∈ c.refs, ∀ x, rec r x = rec' r x) (x : List F) :
    evalStep ans rec c x = evalStep ans rec' c x := by
  cases c with
  | query i => rfl
  | fn f => rfl
  | add i j => simp only [evalStep, h i (by simp [VComm.refs]), h j (by simp [VComm.refs])]
  | sub i j => simp only [evalStep, h i (by simp [VComm.refs]), h j (by simp [VComm.refs])]
  | mul i j => simp only [evalStep, h i (by simp [VComm.refs]), h j (by simp [VComm.refs])]
  | addScalar i c => simp only [evalStep, h i (by simp [VComm.refs])]
  | mulScalar i c => simp only [evalStep, h i (by simp [VComm.refs])]
  | incFront i k => simp only [evalStep, h i (by simp [VComm.refs])]
  | incBack i k => simp only [evalStep, h i (by simp [VComm.refs])]

theorem evalC_fuel {comms : List (Nat × VComm F)} (hw : CWf comms) (id n m : Nat) (hn : id < n) (hm : id < m) (x : List F) :
    evalC comms ans n id x = evalC comms ans m id x := by
  induction id using Nat.strong_induction_on generalizing n m x with
  | _ id ih =>
    obtain ⟨n, rfl⟩ : ∃ k, n = k + 1 := ⟨n - 1, by omega⟩
    obtain ⟨m, rfl⟩ : ∃ k, m = k + 1 := ⟨m - 1, by omega⟩
    rw [evalC_succ, evalC_succ]
    rcases hl : comms.lookup id with _ | c
    · rfl
    · apply evalStep_congr
      intro r hr y
      have := (hw id c hl r hr).1
      exact ih r this n m (by omega) (by omega) y

/-- Unfolding an evaluation once. -/
theorem evalC_unfold {comms : List (Nat × VComm F)} (hw : CWf comms) {id : Nat} {c : VComm F} (h : comms.lookup id = some c) (x : List F) :
    evalC comms ans (id + 1) id x = evalStep ans (fun r => evalC comms ans (r + 1) r) c x := by
  rw [evalC_succ, h]
  apply evalStep_congr
  intro r hr y
  exact evalC_fuel hw r id (r + 1) (hw id c h r hr).1 (Nat.lt_succ_self r) y

/-- Adding closures does not change known ones. -/
theorem evalC_mono {comms comms' : List (Nat × VComm F)} (hw : CWf comms) (hk : ∀ i c, comms.lookup i = some c → comms'.lookup i = some c)
    (n id : Nat) (h : (comms.lookup id).isSome) (x : List F) : evalC comms' ans n id x = evalC comms ans n id x := by
  induction n generalizing id x with
  | zero => rfl
  | succ n ih =>
    rw [evalC_succ, evalC_succ]
    obtain ⟨c, hc⟩ := Option.isSome_iff_exists.1 h
    rw [hc, hk id c hc]
    apply evalStep_congr
    intro r hr y
    exact ih r (hw id c hc r hr).2 y

/-! ### State changes -/

/-- The state after storing a closure under a fresh identifier. -/
def push (s : VSt F C B) (c : VComm F) : VSt F C B :=
  ⟨{ s.own with idCounter := s.own.idCounter + 1 }, { s.sh with comms := amInsert s.own.idCounter c s.sh.comms }⟩

/-- The state after skipping an identifier. -/
def skip (s : VSt F C B) : VSt F C B := ⟨{ s.own with idCounter := s.own.idCounter + 1 }, s.sh⟩

/-- The state after tracking a commitment. -/
def pushMat (s : VSt F C B) (c : C) : VSt F C B :=
  ⟨{ s.own with
      idCounter := s.own.idCounter + 1
      transcript := s.own.transcript.append "comm" (.comm c)
      matComms := amInsert s.own.idCounter c s.own.matComms },
    { s.sh with comms := amInsert s.own.idCounter (.query s.own.idCounter) s.sh.comms }⟩

theorem trackVirtual_run (c : VComm F) (s : VSt F C B) : trackVirtual c s = (.ok s.own.idCounter, s.push c) := rfl
theorem trackMatComm_run (c : C) (s : VSt F C B) : trackMatComm c s = (.ok s.own.idCounter, s.pushMat c) := rfl
theorem addScalar_run (i : Nat) (c : F) (s : VSt F C B) : addScalar i c s = (.ok (s.own.idCounter + 1), s.skip.push (.addScalar i c)) := rfl

/-- Nothing known is forgotten or changed. -/
structure VKeep (s s' : VSt F C B) : Prop where
  cnt : s.own.idCounter ≤ s'.own.idCounter
  comms : ∀ i c, s.sh.comms.lookup i = some c → s'.sh.comms.lookup i = some c

theorem VKeep.refl (s : VSt F C B) : VKeep s s := ⟨le_refl _, fun _ _ h => h⟩
theorem VKeep.trans {a b c : VSt F C B} (h1 : VKeep a b) (h2 : VKeep b c) : VKeep a c :=
  ⟨h1.cnt.trans h2.cnt, fun i x h => h2.comms i x (h1.comms i x h)⟩

theorem Wf.fresh (hw : Wf s) : s.sh.comms.lookup s.own.idCounter = none := by
  rcases h : s.sh.comms.lookup s.own.idCounter with _ | c
  · rfl
  · exact absurd (hw.lt _ c h) (lt_irrefl _)

theorem push_lookup (s : VSt F C B) (c : VComm F) (i : Nat) :
    (s.push c).sh.comms.lookup i = if i = s.own.idCounter then some c else s.sh.comms.lookup i := by
  simp only [push, lookup_amInsert]

theorem pushMat_lookup (s : VSt F C B) (c : C) (i : Nat) :
    (s.pushMat c).sh.comms.lookup i = if i = s.own.idCounter then some (.query s.own.idCounter) else s.sh.comms.lookup i := by
  simp only [pushMat, lookup_amInsert]

theorem cwf_insert {comms : List (Nat × VComm F)} (hw : CWf comms) {n : Nat} (hn : comms.lookup n = none) {c : VComm F}
    (hc : ∀ r ∈ c.refs, r < n ∧ (comms.lookup r).isSome) : CWf (amInsert n c comms) := by
  have hk : ∀ r, (comms.lookup r).isSome → ((amInsert n c comms).lookup r).isSome := by
    intro r hr
    rw [lookup_amInsert]
    split
    · rfl
    · exact hr
  intro id d h r hr
  rw [lookup_amInsert] at h
  split at h
  · injection h with h; subst h
    rename_i e; subst e
    exact ⟨(hc r hr).1, hk r (hc r hr).2⟩
  · exact ⟨(hw id d h r hr).1, hk r (hw id d h r hr).2⟩

theorem wf_push (hw : Wf s) {c : VComm F} (hc : ∀ r ∈ c.refs, (s.sh.comms.lookup r).isSome) : Wf (s.push c) := by
  refine ⟨cwf_insert hw.refs hw.fresh fun r hr => ⟨?_, hc r hr⟩, ?_⟩
  · obtain ⟨d, hd⟩ := Option.isSome_iff_exists.1 (hc r hr)
    exact hw.lt r d hd
  · intro id d h
    rw [push_lookup] at h
    show id < s.own.idCounter + 1
    split at h
    · omega
    · exact Nat.lt_succ_of_lt (hw.lt id d h)

theorem keep_push (hw : Wf s) (c : VComm F) : VKeep s (s.push c) := by
  refine ⟨Nat.le_succ _, fun i d h => ?_⟩
  rw [push_lookup, if_neg]
  · exact h
  · rintro rfl; rw [hw.fresh] at h; simp at h

theorem wf_pushMat (hw : Wf s) (c : C) : Wf (s.pushMat c) := by
  refine ⟨cwf_insert hw.refs hw.fresh (by simp [VComm.refs]), ?_⟩
  intro id d h
  rw [pushMat_lookup] at h
  show id < s.own.idCounter + 1
  split at h
  · omega
  · exact Nat.lt_succ_of_lt (hw.lt id d h)

theorem keep_pushMat (hw : Wf s) (c : C) : VKeep s (s.pushMat c) := by
  refine ⟨Nat.le_succ _, fun i d h => ?_⟩
  rw [pushMat_lookup, if_neg]
  · exact h
  · rintro rfl; rw [hw.fresh] at h; simp at h

theorem wf_skip (hw : Wf s) : Wf s.skip := ⟨hw.refs, fun id c h => Nat.lt_succ_of_lt (hw.lt id c h)⟩

theorem evalC_keep (hw : Wf s) (hk : VKeep s s') {id : Nat} (h : (s.sh.comms.lookup id).isSome) (n : Nat) (x : List F) :
    evalC s'.sh.comms ans n id x = evalC s.sh.comms ans n id x := evalC_mono hw.refs hk.comms n id h x

theorem VKeep.known (hk : VKeep s s') {id : Nat} (h : (s.sh.comms.lookup id).isSome) : (s'.sh.comms.lookup id).isSome := by
  obtain ⟨c, hc⟩ := Option.isSome_iff_exists.1 h
  rw [hk.comms id c hc]; rfl

/-- Evaluating the closure just stored. -/
theorem evalC_push (hw : Wf s) {c : VComm F} (hc : ∀ r ∈ c.refs, (s.sh.comms.lookup r).isSome) (x : List F) :
    evalC (s.push c).sh.comms ans (s.own.idCounter + 1) s.own.idCounter x = evalStep ans (fun r => evalC s.sh.comms ans (r + 1) r) c x := by
  rw [evalC_unfold (wf_push hw hc).refs (c := c) (by rw [push_lookup, if_pos rfl])]
  apply evalStep_congr
  intro r hr y
  exact evalC_keep hw (keep_push hw c) (hc r hr) _ y

theorem evalC_pushMat (hw : Wf s) (c : C) (x : List F) :
    evalC (s.pushMat c).sh.comms ans (s.own.idCounter + 1) s.own.idCounter x = ans s.own.idCounter x := by
  rw [evalC_unfold (wf_pushMat hw c).refs (c := .query s.own.idCounter) (by rw [pushMat_lookup, if_pos rfl])]
  rfl

end VSt

open VSt

/-! ### Histories -/

/-- Every claim is about a known closure. -/
def ClaimsKnown (own : VTracker F C B) (comms : List (Nat × VComm F)) : Prop :=
  (∀ c ∈ own.sumClaims, (comms.lookup c.1).isSome) ∧ ∀ c ∈ own.zeroClaims, (comms.lookup c).isSome

/-- The invariant of a verifier state with handles. -/
structure VInv (vs : VState F C B) : Prop where
  wf : Wf vs.st
  known : ∀ h ∈ vs.handles, (vs.st.sh.comms.lookup h).isSome
  claims : ClaimsKnown vs.st.own vs.st.sh.comms

/-- What a call does: at most one new handle, with a fresh identifier; nothing known changes. -/
structure VStepOk (vs vs' : VState F C B) : Prop where
  inv : VInv vs'
  keep : VKeep vs.st vs'.st
  mats : ∀ i c, i < vs.st.own.idCounter → (vs'.st.own.matComms.lookup i = some c ↔ vs.st.own.matComms.lookup i = some c)
  handles : ∃ new : List Nat, vs'.handles = vs.handles ++ new ∧ new.Pairwise (· < ·) ∧
    ∀ h ∈ new, vs.st.own.idCounter ≤ h ∧ h < vs'.st.own.idCounter

theorem vstepHandle_ok {vs : VState F C B} {a : Act (VSt F C B) Nat} {h : Nat} {s' : VSt F C B} (e : a vs.st = (.ok h, s')) :
    vstepHandle vs a = .ok ⟨s', vs.handles ++ [h]⟩ := by
  unfold vstepHandle; rw [e]

theorem vstepOther_ok {α : Type} {vs : VState F C B} {a : Act (VSt F C B) α} {h : α} {s' : VSt F C B} (e : a vs.st = (.ok h, s')) :
    vstepOther vs a = .ok ⟨s', vs.handles⟩ := by
  unfold vstepOther; rw [e]

theorem vstepOther_modify (vs : VState F C B) (f : VSt F C B → VSt F C B) : vstepOther vs (Act.modify f) = .ok ⟨f vs.st, vs.handles⟩ := rfl

variable {vs vs' : VState F C B}

theorem claims_keep (hI : VInv vs) {s' : VSt F C B} (hk : VKeep vs.st s') (h1 : s'.own.sumClaims = vs.st.own.sumClaims)
    (h2 : s'.own.zeroClaims = vs.st.own.zeroClaims) : ClaimsKnown s'.own s'.sh.comms := by
  refine ⟨fun c h => ?_, fun c h => ?_⟩
  · rw [h1] at h; exact hk.known (hI.claims.1 c h)
  · rw [h2] at h; exact hk.known (hI.claims.2 c h)

theorem vstep_push (hI : VInv vs) {c : VComm F} (hc : ∀ r ∈ c.refs, (vs.st.sh.comms.lookup r).isSome) :
    VStepOk vs ⟨vs.st.push c, vs.handles ++ [vs.st.own.idCounter]⟩ := by
  refine ⟨⟨wf_push hI.wf hc, ?_, claims_keep hI (keep_push hI.wf c) rfl rfl⟩, keep_push hI.wf c, fun _ _ _ => Iff.rfl, [vs.st.own.idCounter], rfl, by simp, by simp [push]⟩
  intro h hh
  rcases List.mem_append.1 hh with hh | hh
  · exact (keep_push hI.wf c).known (hI.known h hh)
  · obtain rfl : h = _ := by simpa using hh
    simp only [push_lookup, if_true, Option.isSome_some]

theorem vstep_addScalar (hI : VInv vs) {i : Nat} {c : F} (hc : (vs.st.sh.comms.lookup i).isSome) :
    VStepOk vs ⟨vs.st.skip.push (.addScalar i c), vs.handles ++ [vs.st.own.idCounter + 1]⟩ := by
  have hw := wf_skip hI.wf
  have hk : VKeep vs.st (vs.st.skip.push (.addScalar i c)) := by
    have := keep_push hw (.addScalar i c)
    exact ⟨le_trans (Nat.le_succ _) this.cnt, this.comms⟩
  refine ⟨⟨wf_push hw (refs1 (P := fun r => (vs.st.sh.comms.lookup r).isSome = true) hc), ?_, claims_keep hI hk rfl rfl⟩, hk, fun _ _ _ => Iff.rfl, [vs.st.own.idCounter + 1], rfl, by simp, by simp [push, skip]⟩
  intro h hh
  rcases List.mem_append.1 hh with hh | hh
  · exact hk.known (hI.known h hh)
  · obtain rfl : h = _ := by simpa using hh
    have := push_lookup vs.st.skip (.addScalar i c) (vs.st.own.idCounter + 1)
    rw [if_pos (show vs.st.own.idCounter + 1 = vs.st.skip.own.idCounter from rfl)] at this
    simp only [this, Option.isSome_some]

theorem vstep_pushMat (hI : VInv vs) (c : C) : VStepOk vs ⟨vs.st.pushMat c, vs.handles ++ [vs.st.own.idCounter]⟩ := by
  refine ⟨⟨wf_pushMat hI.wf c, ?_, claims_keep hI (keep_pushMat hI.wf c) rfl rfl⟩, keep_pushMat hI.wf c, ?_, [vs.st.own.idCounter], rfl, by simp, by simp [pushMat]⟩
  · intro h hh
    rcases List.mem_append.1 hh with hh | hh
    · exact (keep_pushMat hI.wf c).known (hI.known h hh)
    · obtain rfl : h = _ := by simpa using hh
      simp only [pushMat_lookup, if_true, Option.isSome_some]
  · intro i d hi
    simp only [pushMat, lookup_amInsert]
    rw [if_neg (by omega)]

theorem vstep_own (hI : VInv vs) {own' : VTracker F C B} {q' : List ((Nat × List F) × F)} (h1 : own'.idCounter = vs.st.own.idCounter)
    (h2 : own'.matComms = vs.st.own.matComms) (h3 : ClaimsKnown own' vs.st.sh.comms) : VStepOk vs ⟨⟨own', ⟨vs.st.sh.comms, q'⟩⟩, vs.handles⟩ :=
  ⟨⟨⟨hI.wf.refs, fun id c h => by show id < own'.idCounter; rw [h1]; exact hI.wf.lt id c h⟩, hI.known, h3⟩,
    ⟨le_of_eq h1.symm, fun _ _ h => h⟩, fun i c _ => by show own'.matComms.lookup i = _ ↔ _; rw [h2], [], by simp, by simp, by simp⟩

theorem claims_snoc {l : List (Nat × F)} {comms : List (Nat × VComm F)} {a : Nat} {v : F} (h : ∀ c ∈ l, (comms.lookup c.1).isSome)
    (ha : (comms.lookup a).isSome) : ∀ c ∈ l ++ [(a, v)], (comms.lookup c.1).isSome := by
  intro c hc
  rcases List.mem_append.1 hc with hc | hc
  · exact h c hc
  · obtain rfl : c = _ := by simpa using hc
    exact ha

theorem claims_snoc' {l : List Nat} {comms : List (Nat × VComm F)} {a : Nat} (h : ∀ c ∈ l, (comms.lookup c).isSome)
    (ha : (comms.lookup a).isSome) : ∀ c ∈ l ++ [a], (comms.lookup c).isSome := by
  intro c hc
  rcases List.mem_append.1 hc with hc | hc
  · exact h c hc
  · obtain rfl : c = _ := by simpa using hc
    exact ha

theorem vstep_refl (hI : VInv vs) : VStepOk vs vs := vstep_own hI rfl rfl hI.claims

/-- A successful transfer. -/
theorem transferComm_run {debug : Bool} {s : VSt F C B} {id : Nat} {c : C} (h : s.own.proof.comms.lookup id = some c)
    (hd : debug = true → id = s.own.idCounter) : transferComm debug id s = (.ok s.own.idCounter, s.pushMat c) := by
  unfold transferComm
  rw [Act.bind_ok (a := c) (s' := s) (by simp [h]), Act.bind_ok (Act.expect_ok (trackMatComm_run c s)), Act.bind_ok (Act.assert_true hd _), Act.pure_run]

theorem transferComm_inv {debug : Bool} {s s' : VSt F C B} {id n : Nat} (h : transferComm debug id s = (.ok n, s')) :
    ∃ c, s.own.proof.comms.lookup id = some c ∧ n = s.own.idCounter ∧ s' = s.pushMat c := by
  unfold transferComm at h
  obtain ⟨c, s1, h1, h⟩ := Act.bind_eq_ok.1 h
  obtain ⟨e1, rfl⟩ := Prod.mk.inj h1
  beta_reduce at e1
  rw [Act.bind_ok (Act.expect_ok (trackMatComm_run c s))] at h
  obtain ⟨_, s2, h2, h⟩ := Act.bind_eq_ok.1 h
  unfold Act.assert at h2
  split at h2
  · obtain ⟨-, rfl⟩ := Prod.mk.inj h2
    obtain ⟨e3, rfl⟩ := Prod.mk.inj h
    refine ⟨c, ?_, by injection e3 with e3; exact e3.symm, rfl⟩
    rcases hl : s.own.proof.comms.lookup id with _ | d
    · rw [hl] at e1; simp at e1
    · rw [hl] at e1; simpa using e1
  · simp at h2

theorem transferComm_noerr {debug : Bool} {s s' : VSt F C B} {id : Nat} {e : ErrKind} : transferComm debug id s ≠ (.error (.err e), s') := by
  intro h
  unfold transferComm at h
  rcases hl : s.own.proof.comms.lookup id with _ | c
  · rw [Act.bind_error (e := .panic) (s' := s) (by simp [hl])] at h
    simp at h
  · rw [Act.bind_ok (a := c) (s' := s) (by simp [hl]), Act.bind_ok (Act.expect_ok (trackMatComm_run c s))] at h
    by_cases hp : debug = true → id = s.own.idCounter
    · rw [Act.bind_ok (Act.assert_true hp _), Act.pure_run] at h
      simp at h
    · rw [Act.bind_error (assert_false_run hp _)] at h
      simp at h

theorem vrun_stepOk [DecidableEq F] {debug : Bool} {H : Oracle F C} (hI : VInv vs) (op : VOp F C B) (h : op.run debug H vs = .ok vs') : VStepOk vs vs' := by
  have mem : ∀ {i a : Nat}, vs.handles[i]? = some a → (vs.st.sh.comms.lookup a).isSome := fun {i a} e => hI.known a (List.mem_of_getElem? e)
  have tr : ∀ id, vstepHandle vs (transferComm debug id) = .ok vs' → VStepOk vs vs' := by
    intro id h
    unfold vstepHandle at h
    rcases hr : transferComm debug id vs.st with ⟨(e | _) | n, s'⟩
    · exact absurd hr transferComm_noerr
    · rw [hr] at h; simp at h
    · rw [hr] at h
      injection h with h; subst h
      obtain ⟨c, _, rfl, rfl⟩ := transferComm_inv hr
      exact vstep_pushMat hI c
  cases op with
  | trackComm c =>
    simp only [VOp.run] at h
    rw [vstepHandle_ok (trackMatComm_run c vs.st)] at h
    injection h with h; subst h
    exact vstep_pushMat hI c
  | transfer id => exact tr id h
  | transferNext => exact tr vs.st.own.idCounter h
  | virt f =>
    simp only [VOp.run] at h
    rw [vstepHandle_ok (trackVirtual_run _ vs.st)] at h
    injection h with h; subst h
    exact vstep_push hI (by simp [VComm.refs])
  | add i j =>
    simp only [VOp.run] at h
    obtain ⟨a, ha, h⟩ := idx_bind_ok h
    obtain ⟨b, hb, h⟩ := idx_bind_ok h
    rw [addComms, vstepHandle_ok (trackVirtual_run _ vs.st)] at h
    injection h with h; subst h
    exact vstep_push hI (refs2 (P := fun r => (vs.st.sh.comms.lookup r).isSome = true) (mem ha) (mem hb))
  | sub i j =>
    simp only [VOp.run] at h
    obtain ⟨a, ha, h⟩ := idx_bind_ok h
    obtain ⟨b, hb, h⟩ := idx_bind_ok h
    rw [subComms, vstepHandle_ok (trackVirtual_run _ vs.st)] at h
    injection h with h; subst h
    exact vstep_push hI (refs2 (P := fun r => (vs.st.sh.comms.lookup r).isSome = true) (mem ha) (mem hb))
  | mul i j =>
    simp only [VOp.run] at h
    obtain ⟨a, ha, h⟩ := idx_bind_ok h
    obtain ⟨b, hb, h⟩ := idx_bind_ok h
    rw [mulComms, vstepHandle_ok (trackVirtual_run _ vs.st)] at h
    injection h with h; subst h
    exact vstep_push hI (refs2 (P := fun r => (vs.st.sh.comms.lookup r).isSome = true) (mem ha) (mem hb))
  | addScalar i c =>
    simp only [VOp.run] at h
    obtain ⟨a, ha, h⟩ := idx_bind_ok h
    rw [vstepHandle_ok (addScalar_run _ _ vs.st)] at h
    injection h with h; subst h
    exact vstep_addScalar hI (mem ha)
  | mulScalar i c =>
    simp only [VOp.run] at h
    obtain ⟨a, ha, h⟩ := idx_bind_ok h
    rw [VSt.mulScalar, vstepHandle_ok (trackVirtual_run _ vs.st)] at h
    injection h with h; subst h
    exact vstep_push hI (refs1 (P := fun r => (vs.st.sh.comms.lookup r).isSome = true) (mem ha))
  | incFront i k =>
    simp only [VOp.run] at h
    obtain ⟨a, ha, h⟩ := idx_bind_ok h
    rw [VSt.incFront, vstepHandle_ok (trackVirtual_run _ vs.st)] at h
    injection h with h; subst h
    exact vstep_push hI (refs1 (P := fun r => (vs.st.sh.comms.lookup r).isSome = true) (mem ha))
  | incBack i k =>
    simp only [VOp.run] at h
    obtain ⟨a, ha, h⟩ := idx_bind_ok h
    rw [VSt.incBack, vstepHandle_ok (trackVirtual_run _ vs.st)] at h
    injection h with h; subst h
    exact vstep_push hI (refs1 (P := fun r => (vs.st.sh.comms.lookup r).isSome = true) (mem ha))
  | setProof p =>
    simp only [VOp.run] at h
    rw [vstepOther_ok (h := ()) (s' := { vs.st with own := { vs.st.own with proof := p } }) rfl] at h
    injection h with h; subst h
    exact vstep_own hI rfl rfl hI.claims
  | transferEvals =>
    simp only [VOp.run] at h
    rw [transferEvals, vstepOther_modify] at h
    injection h with h; subst h
    exact vstep_own hI rfl rfl hI.claims
  | challenge label =>
    simp only [VOp.run, vstepOther, VSt.challenge] at h
    rcases hc : vs.st.own.transcript.challenge H label with e | ⟨c, tr⟩
    · rw [hc] at h
      cases e with
      | panic => simp at h
      | err e =>
        simp only at h
        injection h with h; subst h
        exact vstep_refl hI
    · rw [hc] at h
      simp only at h
      injection h with h; subst h
      exact vstep_own hI rfl rfl hI.claims
  | append label d =>
    simp only [VOp.run] at h
    rw [VSt.append, vstepOther_modify] at h
    injection h with h; subst h
    exact vstep_own hI rfl rfl hI.claims
  | sumClaim i v =>
    simp only [VOp.run] at h
    obtain ⟨a, ha, h⟩ := idx_bind_ok h
    rw [VSt.addSumClaim, vstepOther_modify] at h
    injection h with h; subst h
    exact vstep_own hI rfl rfl ⟨claims_snoc hI.claims.1 (mem ha), hI.claims.2⟩
  | proverSum i =>
    simp only [VOp.run] at h
    obtain ⟨a, ha, h⟩ := idx_bind_ok h
    unfold vstepOther at h
    rcases hl : vs.st.own.proof.sumcheckClaims.lookup a with _ | v
    · rw [Act.bind_error (e := .panic) (s' := vs.st) (by simp [claimedSum, hl])] at h
      simp at h
    · rw [Act.bind_ok (a := v) (s' := vs.st) (by simp [claimedSum, hl])] at h
      have : addSumClaim a v vs.st = (.ok (), { vs.st with own := { vs.st.own with sumClaims := vs.st.own.sumClaims ++ [(a, v)] } }) := rfl
      rw [this] at h
      injection h with h; subst h
      exact vstep_own hI rfl rfl ⟨claims_snoc hI.claims.1 (mem ha), hI.claims.2⟩
  | zeroClaim i =>
    simp only [VOp.run] at h
    obtain ⟨a, ha, h⟩ := idx_bind_ok h
    rw [VSt.addZeroClaim, vstepOther_modify] at h
    injection h with h; subst h
    exact vstep_own hI rfl rfl ⟨hI.claims.1, claims_snoc' hI.claims.2 (mem ha)⟩

theorem VStepOk.trans {a b c : VState F C B} (h1 : VStepOk a b) (h2 : VStepOk b c) : VStepOk a c := by
  obtain ⟨n1, e1, p1, l1⟩ := h1.handles
  obtain ⟨n2, e2, p2, l2⟩ := h2.handles
  refine ⟨h2.inv, h1.keep.trans h2.keep, fun i x hi => (h2.mats i x (lt_of_lt_of_le hi h1.keep.cnt)).trans (h1.mats i x hi),
    n1 ++ n2, by rw [e2, e1, List.append_assoc], ?_, ?_⟩
  · rw [List.pairwise_append]
    exact ⟨p1, p2, fun x hx y hy => lt_of_lt_of_le (l1 x hx).2 (l2 y hy).1⟩
  · intro h hh
    rcases List.mem_append.1 hh with hh | hh
    · exact ⟨(l1 h hh).1, lt_of_lt_of_le (l1 h hh).2 h2.keep.cnt⟩
    · exact ⟨h1.keep.cnt.trans (l2 h hh).1, (l2 h hh).2⟩

theorem runVOps_stepOk [DecidableEq F] {debug : Bool} {H : Oracle F C} (hI : VInv vs) (ops : List (VOp F C B)) (h : runVOps debug H vs ops = .ok vs') :
    VStepOk vs vs' := by
  induction ops generalizing vs with
  | nil =>
    simp only [runVOps, List.foldlM_nil] at h
    injection h with h; subst h
    exact vstep_refl hI
  | cons op ops ih =>
    simp only [runVOps, List.foldlM_cons] at h
    rcases hr : op.run debug H vs with e | s1
    · rw [hr] at h; simp at h
    · rw [hr, ok_bind] at h
      have h1 := vrun_stepOk hI op hr
      exact h1.trans (ih h1.inv h)

theorem vinv_init : VInv (VState.init : VState F C B) :=
  ⟨⟨by intro id c h; simp [VState.init, VSt.new] at h, by intro id c h; simp [VState.init, VSt.new] at h⟩, by simp [VState.init],
    by simp [VState.init, VSt.new], by simp [VState.init, VSt.new]⟩

theorem Spec.VReachable.inv [DecidableEq F] {debug : Bool} {H : Oracle F C} (h : VReachable debug H vs) : VInv vs := by
  obtain ⟨ops, h⟩ := h
  exact (runVOps_stepOk vinv_init ops h).inv

end Zksql
