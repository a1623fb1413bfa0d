import Verif.Lemmas.VerifierTracker
/-! Helper lemmas about prover and verifier running the same history. -/
set_option linter.unusedSectionVars false
namespace Zksql
open Spec PTracker
variable {F C B : Type} [Field F] {commit : Mle F → Res C} {H : Oracle F C} {st st' : PState F C}

/-! ### Effects of a prover call on commitments and claims -/

/-- Every commitment went into the transcript. -/
def Absorbed (t : PTracker F C) : Prop := t.comms ≠ [] → t.transcript.isEmpty = false

/-- Commitments are kept and absorbed, claims are only added, for known handles. -/
structure Effect (st st' : PState F C) : Prop where
  comms : ∀ id c, st.tracker.comms.lookup id = some c → st'.tracker.comms.lookup id = some c
  sums : ∃ new, st'.tracker.sumClaims = st.tracker.sumClaims ++ new ∧ ∀ e ∈ new, ∃ h ∈ st.handles, h.id = e.1
  zeros : ∃ new, st'.tracker.zeroClaims = st.tracker.zeroClaims ++ new ∧ ∀ e ∈ new, ∃ h ∈ st.handles, h.id = e
  handles : ∃ new, st'.handles = st.handles ++ new
  absorbed : Absorbed st.tracker → Absorbed st'.tracker

theorem Effect.refl (st : PState F C) : Effect st st := ⟨fun _ _ h => h, ⟨[], by simp⟩, ⟨[], by simp⟩, ⟨[], by simp⟩, fun h => h⟩

theorem effect_eff {α : Type} {k : Nat} {m : Act (PTracker F C) α} (he : Eff k m) {a : α} {t' : PTracker F C} (e : m st.tracker = (.ok a, t'))
    (new : List TPoly) : Effect st ⟨t', st.handles ++ new⟩ := by
  obtain ⟨_, h0, h1, h2, h3⟩ := he _ _ _ e
  refine ⟨fun id c h => by show t'.comms.lookup id = _; rw [h1]; exact h, ⟨[], by simp [h2]⟩, ⟨[], by simp [h3]⟩, ⟨new, rfl⟩, fun h => ?_⟩
  show Absorbed t'
  unfold Absorbed
  rw [h0, h1]; exact h

theorem effect_triv {t' : PTracker F C} (h1 : t'.comms = st.tracker.comms) (h2 : t'.sumClaims = st.tracker.sumClaims)
    (h3 : t'.zeroClaims = st.tracker.zeroClaims) (h4 : t'.transcript.isEmpty = false) : Effect st ⟨t', st.handles⟩ :=
  ⟨fun id c h => by show t'.comms.lookup id = _; rw [h1]; exact h, ⟨[], by simp [h2]⟩, ⟨[], by simp [h3]⟩, ⟨[], by simp⟩, fun _ _ => h4⟩

theorem assert_panic {α : Type} {p : Prop} [Decidable p] {k : Unit → Act (PTracker F C) α} (hp : ¬ p) (t : PTracker F C) :
    ((Act.assert p : Act (PTracker F C) Unit) >>= k) t = (.error .panic, t) := by
  rw [Act.bind_error (assert_false_run hp _)]

theorem comms_fresh (hI : StInv commit st) : st.tracker.comms.lookup st.tracker.idCounter = none := by
  rcases h : st.tracker.comms.lookup st.tracker.idCounter with _ | c
  · rfl
  · obtain ⟨a, ha, _⟩ := hI.inv.commOk _ _ h
    exact absurd (hI.inv.matOk _ _ ha).1 (lt_irrefl _)

theorem run_effect (hI : StInv commit st) (op : POp F C) (h : op.run commit H st = .ok st') : Effect st st' := by
  have mem : ∀ {i : Nat} {a : TPoly}, st.handles[i]? = some a → st.tracker.HasNv a.id a.numVars := fun {i a} e =>
    hI.known a (List.mem_of_getElem? e)
  cases op with
  | track p hp =>
    have e : TPoly.trackMat p st.tracker = (.ok ⟨st.tracker.idCounter, p.numVars⟩, st.tracker.pushMat p) := rfl
    simp only [POp.run] at h
    rw [stepHandle_ok e] at h
    injection h with h; subst h
    exact effect_eff (TPoly.eff_trackMat p) e _
  | commit p hp =>
    simp only [POp.run] at h
    rcases hc : commit p with er | c
    · have e : TPoly.trackAndCommit commit p st.tracker = (.error er, st.tracker) := by
        unfold TPoly.trackAndCommit
        rw [Act.bind_error (trackAndCommit_error hc)]
      unfold stepHandle at h
      rw [e] at h
      rcases er with er | _
      · simp only at h
        injection h with h; subst h
        exact Effect.refl _
      · simp at h
    · have e : TPoly.trackAndCommit commit p st.tracker = (.ok ⟨st.tracker.idCounter, p.numVars⟩, st.tracker.pushComm p c) := by
        unfold TPoly.trackAndCommit
        rw [Act.bind_ok (trackAndCommit_ok hc)]; rfl
      rw [stepHandle_ok e] at h
      injection h with h; subst h
      refine ⟨fun id d hd => ?_, ⟨[], by simp [pushComm, pushMat, pushArc]⟩, ⟨[], by simp [pushComm, pushMat, pushArc]⟩, ⟨_, rfl⟩, fun _ _ => rfl⟩
      simp only [pushComm, lookup_amInsert]
      rw [if_neg]
      · exact hd
      · rintro rfl; rw [comms_fresh hI] at hd; simp at hd
  | add i j =>
    simp only [POp.run] at h
    obtain ⟨a, ha, h⟩ := idx_bind_ok h
    obtain ⟨b, hb, h⟩ := idx_bind_ok h
    by_cases hab : a.numVars = b.numVars
    · obtain ⟨t', e, hn, _⟩ := newOk_add hI.inv (mem ha) (mem hb) hab
      rw [stepHandle_ok e] at h
      injection h with h; subst h
      exact effect_eff (TPoly.eff_add a b) e _
    · unfold stepHandle TPoly.add at h
      rw [assert_panic hab] at h; simp at h
  | sub i j =>
    simp only [POp.run] at h
    obtain ⟨a, ha, h⟩ := idx_bind_ok h
    obtain ⟨b, hb, h⟩ := idx_bind_ok h
    by_cases hab : a.numVars = b.numVars
    · obtain ⟨t', e, hn, _⟩ := newOk_sub hI.inv (mem ha) (mem hb) hab
      rw [stepHandle_ok e] at h
      injection h with h; subst h
      exact effect_eff (TPoly.eff_sub a b) e _
    · unfold stepHandle TPoly.sub at h
      rw [assert_panic hab] at h; simp at h
  | mul i j =>
    simp only [POp.run] at h
    obtain ⟨a, ha, h⟩ := idx_bind_ok h
    obtain ⟨b, hb, h⟩ := idx_bind_ok h
    by_cases hab : a.numVars = b.numVars
    · obtain ⟨t', e, hn, _⟩ := newOk_mul hI.inv (mem ha) (mem hb) hab
      rw [stepHandle_ok e] at h
      injection h with h; subst h
      exact effect_eff (TPoly.eff_mul a b) e _
    · unfold stepHandle TPoly.mul at h
      rw [assert_panic hab] at h; simp at h
  | addScalar i c =>
    simp only [POp.run] at h
    obtain ⟨a, ha, h⟩ := idx_bind_ok h
    obtain ⟨t', e, hn, _⟩ := newOk_addScalar hI.inv (mem ha) c
    rw [stepHandle_ok e] at h
    injection h with h; subst h
    exact effect_eff (TPoly.eff_addScalar a c) e _
  | mulScalar i c =>
    simp only [POp.run] at h
    obtain ⟨a, ha, h⟩ := idx_bind_ok h
    obtain ⟨t', e, hn, _⟩ := newOk_mulScalar hI.inv (mem ha) c
    rw [stepHandle_ok e] at h
    injection h with h; subst h
    exact effect_eff (TPoly.eff_mulScalar a c) e _
  | incFront i k =>
    simp only [POp.run] at h
    obtain ⟨a, ha, h⟩ := idx_bind_ok h
    obtain ⟨t', e, hn, _⟩ := newOk_incFront hI.inv (mem ha) k
    rw [stepHandle_ok e] at h
    injection h with h; subst h
    exact effect_eff (TPoly.eff_incFront a k) e _
  | incBack i k =>
    simp only [POp.run] at h
    obtain ⟨a, ha, h⟩ := idx_bind_ok h
    obtain ⟨t', e, hn, _⟩ := newOk_incBack hI.inv (mem ha) k
    rw [stepHandle_ok e] at h
    injection h with h; subst h
    exact effect_eff (TPoly.eff_incBack a k) e _
  | evaluations i =>
    simp only [POp.run] at h
    obtain ⟨a, ha, h⟩ := idx_bind_ok h
    have e : a.evaluations st.tracker = _ := evaluations_run hI.inv (mem ha)
    rw [stepOther_ok e] at h
    injection h with h; subst h
    have := effect_eff (TPoly.eff_evaluations a) e []
    simpa using this
  | challenge label =>
    simp only [POp.run] at h
    rcases hc : st.tracker.transcript.challenge H label with er | ⟨c, tr⟩
    · have e : PTracker.challenge H label st.tracker = (.error er, st.tracker) := by unfold PTracker.challenge; rw [hc]
      unfold stepOther at h
      rw [e] at h
      rcases er with er | _
      · simp only at h
        injection h with h; subst h
        exact Effect.refl _
      · simp at h
    · have e : PTracker.challenge H label st.tracker = (.ok c, { st.tracker with transcript := tr }) := by
        unfold PTracker.challenge; rw [hc]
      rw [stepOther_ok e] at h
      injection h with h; subst h
      refine effect_triv rfl rfl rfl ?_
      unfold Transcript.challenge at hc
      split at hc
      · simp at hc
      · injection hc with hc
        injection hc with _ hc; subst hc; rfl
  | append label d =>
    simp only [POp.run] at h
    rw [stepOther_ok (h := ()) (t' := { st.tracker with transcript := st.tracker.transcript.append label d }) rfl] at h
    injection h with h; subst h
    exact effect_triv rfl rfl rfl rfl
  | sumClaim i v =>
    simp only [POp.run] at h
    obtain ⟨a, ha, h⟩ := idx_bind_ok h
    rw [stepOther_ok (h := ()) (t' := { st.tracker with sumClaims := st.tracker.sumClaims ++ [(a.id, v)] }) rfl] at h
    injection h with h; subst h
    refine ⟨fun _ _ h => h, ⟨[(a.id, v)], rfl, ?_⟩, ⟨[], by simp⟩, ⟨[], by simp⟩, fun h => h⟩
    intro e he
    obtain rfl : e = _ := by simpa using he
    exact ⟨a, List.mem_of_getElem? ha, rfl⟩
  | zeroClaim i =>
    simp only [POp.run] at h
    obtain ⟨a, ha, h⟩ := idx_bind_ok h
    rw [stepOther_ok (h := ()) (t' := { st.tracker with zeroClaims := st.tracker.zeroClaims ++ [a.id] }) rfl] at h
    injection h with h; subst h
    refine ⟨fun _ _ h => h, ⟨[], by simp⟩, ⟨[a.id], rfl, ?_⟩, ⟨[], by simp⟩, fun h => h⟩
    intro e he
    obtain rfl : e = _ := by simpa using he
    exact ⟨a, List.mem_of_getElem? ha, rfl⟩

/-- Every claim is about a handle. -/
def Claimed (st : PState F C) : Prop :=
  (∀ e ∈ st.tracker.sumClaims, ∃ h ∈ st.handles, h.id = e.1) ∧ ∀ e ∈ st.tracker.zeroClaims, ∃ h ∈ st.handles, h.id = e

theorem Effect.claimed (he : Effect st st') (h : Claimed st) : Claimed st' := by
  obtain ⟨n1, e1, f1⟩ := he.sums
  obtain ⟨n2, e2, f2⟩ := he.zeros
  obtain ⟨n3, e3⟩ := he.handles
  have up : ∀ {h : TPoly}, h ∈ st.handles → h ∈ st'.handles := fun hh => by rw [e3]; exact List.mem_append_left _ hh
  constructor
  · intro e hm
    rw [e1] at hm
    obtain ⟨x, hx, hx'⟩ := (List.mem_append.1 hm).elim (h.1 e) (f1 e)
    exact ⟨x, up hx, hx'⟩
  · intro e hm
    rw [e2] at hm
    obtain ⟨x, hx, hx'⟩ := (List.mem_append.1 hm).elim (h.2 e) (f2 e)
    exact ⟨x, up hx, hx'⟩

theorem runOps_cons {op : POp F C} {ops : List (POp F C)} (h : runOps commit H st (op :: ops) = .ok st') :
    ∃ s1, op.run commit H st = .ok s1 ∧ runOps commit H s1 ops = .ok st' := by
  simp only [runOps, List.foldlM_cons] at h
  rcases hr : op.run commit H st with e | s1
  · rw [hr] at h; simp at h
  · rw [hr, ok_bind] at h
    exact ⟨s1, rfl, h⟩

theorem runOps_effect (hI : StInv commit st) (ops : List (POp F C)) (h : runOps commit H st ops = .ok st') :
    (∀ id c, st.tracker.comms.lookup id = some c → st'.tracker.comms.lookup id = some c) ∧
    (∀ e ∈ st.tracker.sumClaims, e ∈ st'.tracker.sumClaims) ∧ (Claimed st → Claimed st') := by
  induction ops generalizing st with
  | nil =>
    simp only [runOps, List.foldlM_nil] at h
    injection h with h; subst h
    exact ⟨fun _ _ h => h, fun _ h => h, fun h => h⟩
  | cons op ops ih =>
    obtain ⟨s1, h1, h2⟩ := runOps_cons h
    have he := run_effect hI op h1
    obtain ⟨a, b, c⟩ := ih (run_stepOk hI op h1).inv h2
    refine ⟨fun id x hx => a id x (he.comms id x hx), fun e hm => b e ?_, fun hc => c (he.claimed hc)⟩
    obtain ⟨n, e1, _⟩ := he.sums
    rw [e1]; exact List.mem_append_left _ hm

theorem Spec.Reachable.claimed (hr : Reachable commit H st) : Claimed st := by
  obtain ⟨ops, h⟩ := hr
  exact (runOps_effect stInv_init ops h).2.2 ⟨by simp [PState.init, PTracker.new], by simp [PState.init, PTracker.new]⟩

theorem runOps_absorbed (hI : StInv commit st) (ops : List (POp F C)) (h : runOps commit H st ops = .ok st') (ha : Absorbed st.tracker) :
    Absorbed st'.tracker := by
  induction ops generalizing st with
  | nil =>
    simp only [runOps, List.foldlM_nil] at h
    injection h with h; subst h
    exact ha
  | cons op ops ih =>
    obtain ⟨s1, h1, h2⟩ := runOps_cons h
    exact ih (run_stepOk hI op h1).inv h2 ((run_effect hI op h1).absorbed ha)

theorem Spec.Reachable.absorbed (hr : Reachable commit H st) : Absorbed st.tracker := by
  obtain ⟨ops, h⟩ := hr
  exact runOps_absorbed stInv_init ops h fun hc => absurd rfl hc

/-! ### Evaluation agreement -/

open VSt

/-- A choice of points at which polynomials with a number of variables are evaluated; further coordinates are ignored. -/
structure Points (Q : Nat → List F → Prop) : Prop where
  le : ∀ {n x}, Q n x → n ≤ x.length
  drop : ∀ {n k x}, Q (n + k) x → Q n (x.drop k)
  take : ∀ {n k x}, Q (n + k) x → Q n (x.take n)

/-- Exactly as many coordinates as variables. -/
theorem Points.exact : Points (F := F) fun n x => x.length = n :=
  ⟨fun h => h.ge, fun h => by rw [List.length_drop]; omega, fun h => by rw [List.length_take]; omega⟩

/-- At least as many. -/
theorem Points.long : Points (F := F) fun n x => n ≤ x.length :=
  ⟨id, fun h => by rw [List.length_drop]; omega, fun h => by rw [List.length_take]; omega⟩

theorem Points.len {Q : Nat → List F → Prop} (hQ : Points Q) {n : Nat} {x : List F} (h : Q n x) : (x.take n).length = n := by
  rw [List.length_take]; exact Nat.min_eq_left (hQ.le h)

/-- The closed forms are right at these points. -/
def PubAt (Q : Nat → List F → Prop) (pub : Mle F → List F → Res F) : Prop :=
  ∀ p : Mle F, p.WF → ∀ x : List F, Q p.numVars x → pub p x = .ok (mle p.tbl (x.take p.numVars))

/-- Queries are answered truthfully at these points. -/
def TruthfulAt (Q : Nat → List F → Prop) (ans : Nat → List F → Res F) (ps : PState F C) : Prop :=
  ∀ id c, ps.tracker.comms.lookup id = some c → ∀ nv x y, Q nv x → ps.tracker.evaluate id (x.take nv) = .ok (some y) → ans id x = .ok y

theorem Spec.PubOk.at {pub : Mle F → List F → Res F} (h : PubOk pub) : PubAt (fun n x => x.length = n) pub := fun p hp x hx => by
  rw [List.take_of_length_le hx.le]; exact h p hp x hx

theorem Spec.Truthful.at {ans : Nat → List F → Res F} {ps : PState F C} (h : Truthful ans ps) : TruthfulAt (fun n x => x.length = n) ans ps :=
  fun id c hc nv x y hx hy => h id c hc x y (by rwa [List.take_of_length_le hx.le] at hy)

/-- The verifier evaluates every handle as the prover does. -/
def Agree (Q : Nat → List F → Prop) (ans : Nat → List F → Res F) (ps : PState F C) (vs : VState F C B) : Prop :=
  ∀ h ∈ ps.handles, ∀ x : List F, Q h.numVars x →
    evalC vs.st.sh.comms ans (h.id + 1) h.id x = .ok (ps.tracker.gval (fun p => mle p.tbl (x.take h.numVars)) h.id)

/-- The prover's evaluations of old handles are unchanged. -/
def OldSame (ps : PState F C) (t' : PTracker F C) : Prop :=
  ∀ h ∈ ps.handles, ∀ x : List F, x.length = h.numVars → t'.gval (fun p => mle p.tbl x) h.id = ps.tracker.gval (fun p => mle p.tbl x) h.id

variable {ps ps' : PState F C} {vs vs' : VState F C B}

theorem oldSame_keep (hI : StInv commit ps) {t' : PTracker F C} (hk : Keep ps.tracker t') : OldSame ps t' :=
  fun h hh x _ => gval_keep hI.inv hk (hI.known h hh) _

theorem InStep.known (hV : VInv vs) (hS : InStep ps vs) {a : TPoly} (h : a ∈ ps.handles) : (vs.st.sh.comms.lookup a.id).isSome := by
  apply hV.known
  rw [hS.handles]
  exact List.mem_map_of_mem h

theorem agree_old {Q : Nat → List F → Prop} (hQ : Points Q) {ans : Nat → List F → Res F} (hV : VInv vs) (hS : InStep ps vs) (hA : Agree Q ans ps vs) {t' : PTracker F C}
    (ho : OldSame ps t') {s' : VSt F C B} (hk : VKeep vs.st s') {h : TPoly} (hh : h ∈ ps.handles) (x : List F) (hx : Q h.numVars x) :
    evalC s'.sh.comms ans (h.id + 1) h.id x = .ok (t'.gval (fun p => mle p.tbl (x.take h.numVars)) h.id) := by
  rw [evalC_keep hV.wf hk (InStep.known hV hS hh), ho h hh _ (hQ.len hx)]
  exact hA h hh x hx

/-- A new handle on both sides. -/
theorem joint_new {Q : Nat → List F → Prop} (hQ : Points Q) {ans : Nat → List F → Res F} (hV : VInv vs) (hS : InStep ps vs) {t' : PTracker F C} {h : TPoly} {s' : VSt F C B}
    (hk : VKeep vs.st s') (ho : OldSame ps t')
    (hnew : Agree Q ans ps vs → ∀ x : List F, Q h.numVars x →
      evalC s'.sh.comms ans (h.id + 1) h.id x = .ok (t'.gval (fun p => mle p.tbl (x.take h.numVars)) h.id)) (hA : Agree Q ans ps vs) :
    Agree Q ans ⟨t', ps.handles ++ [h]⟩ (⟨s', vs.handles ++ [h.id]⟩ : VState F C B) := by
  intro a ha x hx
  rcases List.mem_append.1 ha with ha | ha
  · exact agree_old hQ hV hS hA ho hk ha x hx
  · obtain rfl : a = h := by simpa using ha
    exact hnew hA x hx

theorem idx_map {α β : Type} {l : List α} {i : Nat} {a : α} (f : α → β) (h : l[i]? = some a) : idx (l.map f) i = .ok (f a) := by
  apply idx_eq
  simp [h]

end Zksql
