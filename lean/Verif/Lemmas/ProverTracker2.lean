import Verif.Lemmas.ProverTracker
/-! Helper lemmas about handles and histories of the prover tracker. -/
set_option linter.unusedSectionVars false
namespace Zksql
open Spec VirtPoly
variable {F C : Type} [Field F]

namespace PTracker
variable {commit : Mle F → Res C} {R : Mle F → C → Prop} {t t' : PTracker F C}

/-- A new handle was produced and everything known was kept. -/
structure NewOk (R : Mle F → C → Prop) (t t' : PTracker F C) (h : TPoly) : Prop where
  inv : Inv R t'
  pres : Pres t t'
  nv : t'.HasNv h.id h.numVars
  ge : t.idCounter ≤ h.id
  lt : h.id < t'.idCounter

theorem newOk_pushVirt (hI : Inv R t) {v : VRep F} {nv : Nat} (hv : t.AllNv nv v) :
    NewOk R t (t.pushVirt v) ⟨t.idCounter, nv⟩ :=
  ⟨inv_pushVirt hI v hv, (keep_pushVirt hI v).pres hI, hasNv_pushVirt hI hv, le_refl _, Nat.lt_succ_self _⟩

theorem newOk_pushMat (hI : Inv R t) {p : Mle F} (hp : p.WF) : NewOk R t (t.pushMat p) ⟨t.idCounter, p.numVars⟩ :=
  ⟨inv_pushMat hI p hp, (keep_pushMat hI p).pres hI, hasNv_pushMat t p, le_refl _, Nat.lt_succ_self _⟩

/-- The state after tracking and committing. -/
def pushComm (t : PTracker F C) (p : Mle F) (c : C) : PTracker F C :=
  { t.pushMat p with comms := amInsert t.idCounter c t.comms, transcript := t.transcript.append "comm" (.comm c) }

theorem trackAndCommit_ok {p : Mle F} {c : C} (h : commit p = .ok c) :
    trackAndCommit commit p t = (.ok t.idCounter, t.pushComm p c) := by
  unfold trackAndCommit
  rw [Act.bind_ok (a := c) (s' := t) (by simp [h]), Act.bind_ok (trackMat_run p t)]
  rfl

theorem trackAndCommit_error {p : Mle F} {e : Fail} (h : commit p = .error e) :
    trackAndCommit commit p t = (.error e, t) := by
  unfold trackAndCommit
  rw [Act.bind_error (s' := t) (e := e) (by simp [h])]

theorem newOk_pushComm (hI : Inv R t) {p : Mle F} (hp : p.WF) {c : C} (h : R p c) :
    NewOk R t (t.pushComm p c) ⟨t.idCounter, p.numVars⟩ := by
  have hn := newOk_pushMat (R := R) hI hp
  refine ⟨⟨hn.inv.matOk, hn.inv.virtOk, hn.inv.ptrs, ?_⟩, ⟨hn.pres.cnt, hn.pres.nv, hn.pres.cube, hn.pres.mats⟩, hn.nv, hn.ge, hn.lt⟩
  intro id c' hc
  simp only [pushComm, lookup_amInsert] at hc
  split at hc
  · injection hc with hc; subst hc
    rename_i e; subst e
    exact ⟨_, pushMat_lookup p t, h⟩
  · exact hn.inv.commOk id c' hc

theorem newOk_add (hI : Inv R t) {a b : TPoly} (ha : t.HasNv a.id a.numVars) (hb : t.HasNv b.id b.numVars)
    (hab : a.numVars = b.numVars) :
    ∃ t', a.add b t = (.ok ⟨t.idCounter, a.numVars⟩, t') ∧ NewOk R t t' ⟨t.idCounter, a.numVars⟩ ∧ Keep t t' ∧
      ∀ f, t'.gval f t.idCounter = t.gval f a.id + t.gval f b.id := by
  obtain ⟨v, h1, h2, h3⟩ := addSubPolys_run hI ha (hab ▸ hb) false
  refine ⟨t.pushVirt v, ?_, newOk_pushVirt hI h2, keep_pushVirt hI v, fun f => ?_⟩
  · unfold TPoly.add
    rw [Act.bind_ok (Act.assert_true hab t), Act.bind_ok h1]
    rfl
  · rw [gval_pushVirt hI, h3]; simp

theorem newOk_sub (hI : Inv R t) {a b : TPoly} (ha : t.HasNv a.id a.numVars) (hb : t.HasNv b.id b.numVars)
    (hab : a.numVars = b.numVars) :
    ∃ t', a.sub b t = (.ok ⟨t.idCounter, a.numVars⟩, t') ∧ NewOk R t t' ⟨t.idCounter, a.numVars⟩ ∧ Keep t t' ∧
      ∀ f, t'.gval f t.idCounter = t.gval f a.id - t.gval f b.id := by
  obtain ⟨v, h1, h2, h3⟩ := addSubPolys_run hI ha (hab ▸ hb) true
  refine ⟨t.pushVirt v, ?_, newOk_pushVirt hI h2, keep_pushVirt hI v, fun f => ?_⟩
  · unfold TPoly.sub
    rw [Act.bind_ok (Act.assert_true hab t), Act.bind_ok h1]
    rfl
  · rw [gval_pushVirt hI, h3]; simp

theorem newOk_mul (hI : Inv R t) {a b : TPoly} (ha : t.HasNv a.id a.numVars) (hb : t.HasNv b.id b.numVars)
    (hab : a.numVars = b.numVars) :
    ∃ t', a.mul b t = (.ok ⟨t.idCounter, a.numVars⟩, t') ∧ NewOk R t t' ⟨t.idCounter, a.numVars⟩ ∧ Keep t t' ∧
      ∀ f, t'.gval f t.idCounter = t.gval f a.id * t.gval f b.id := by
  obtain ⟨v, h1, h2, h3⟩ := mulPolys_run hI ha (hab ▸ hb)
  refine ⟨t.pushVirt v, ?_, newOk_pushVirt hI h2, keep_pushVirt hI v, fun f => ?_⟩
  · unfold TPoly.mul
    rw [Act.bind_ok (Act.assert_true hab t), Act.bind_ok h1]
    rfl
  · rw [gval_pushVirt hI, h3]

theorem newOk_mulScalar (hI : Inv R t) {a : TPoly} (ha : t.HasNv a.id a.numVars) (c : F) :
    ∃ t', a.mulScalar c t = (.ok ⟨t.idCounter, a.numVars⟩, t') ∧ NewOk R t t' ⟨t.idCounter, a.numVars⟩ ∧ Keep t t' ∧
      ∀ f, t'.gval f t.idCounter = c * t.gval f a.id := by
  obtain ⟨v, h1, h2, h3⟩ := mulScalar_run hI ha c
  refine ⟨t.pushVirt v, ?_, newOk_pushVirt hI h2, keep_pushVirt hI v, fun f => ?_⟩
  · unfold TPoly.mulScalar
    rw [Act.bind_ok h1]
    rfl
  · rw [gval_pushVirt hI, h3]

theorem newOk_addScalar (hI : Inv R t) {a : TPoly} (ha : t.HasNv a.id a.numVars) (c : F) :
    ∃ t', a.addScalar c t = (.ok ⟨t.idCounter + 1, a.numVars⟩, t') ∧ NewOk R t t' ⟨t.idCounter + 1, a.numVars⟩ ∧ Keep t t' ∧
      ∀ f, t'.gval f (t.idCounter + 1) = t.gval f a.id + f (constMle a.numVars c) := by
  obtain ⟨v, h1, h2, h3⟩ := addScalar_run hI ha c
  have hI' := inv_pushMat hI _ (constMle_wf a.numVars c)
  have hk := keep_pushMat hI (constMle a.numVars c)
  have hn := newOk_pushVirt hI' h2
  refine ⟨_, ?_, ⟨hn.inv, (hk.pres hI).trans hn.pres, hn.nv, Nat.le_succ _, hn.lt⟩, hk.trans (keep_pushVirt hI' v), fun f => ?_⟩
  · unfold TPoly.addScalar
    rw [Act.bind_ok h1]
    rfl
  · rw [← h3]
    exact gval_pushVirt hI' f

theorem newOk_inc (hI : Inv R t) {a : TPoly} (ha : t.HasNv a.id a.numVars) (inc : Mle F → Nat → Res (Mle F)) (k : Nat)
    (hinc0 : ∀ p : Mle F, inc p p.numVars = .ok p)
    (hinc : ∀ p : Mle F, p.WF → ∃ q, inc p (p.numVars + k) = .ok q ∧ q.WF ∧ q.numVars = p.numVars + k) :
    ∃ t' p q, increaseNv inc a.id k t = (.ok t.idCounter, t') ∧ NewOk R t t' ⟨t.idCounter, a.numVars + k⟩ ∧
      p.WF ∧ p.numVars = a.numVars ∧ (∀ b < 2 ^ a.numVars, p.tbl b = t.gval (fun p => p.tbl b) a.id) ∧
      inc p (p.numVars + k) = .ok q ∧ ∀ f, t'.gval f t.idCounter = f q := by
  obtain ⟨t', p, q, h1, h2, h3, h4, h5, _, h6, h7, h8, h9, h10, _⟩ := increaseNv_run hI ha inc k hinc0 hinc
  obtain ⟨hI1, hp1, _⟩ := matSt_spec hI ha
  exact ⟨t', p, q, h1, ⟨h6, hp1.trans (h7.pres hI1), h9, le_refl _, by rw [h8]; exact Nat.lt_succ_self _⟩, h2, h3, h4, h3 ▸ h5, h10⟩

theorem incFront_ok (p : Mle F) : increaseNvFront p p.numVars = .ok p := by simp [increaseNvFront]
theorem incBack_ok (p : Mle F) : increaseNvBack p p.numVars = .ok p := by simp [increaseNvBack]

theorem incFront_wf (k : Nat) (p : Mle F) (hp : p.WF) : ∃ q, increaseNvFront p (p.numVars + k) = .ok q ∧ q.WF ∧ q.numVars = p.numVars + k := by
  obtain ⟨q, h1, h2, h3, _⟩ := increaseNvFront_spec p k
  exact ⟨q, h1, h2 hp, h3⟩

theorem incBack_wf (k : Nat) (p : Mle F) (hp : p.WF) : ∃ q, increaseNvBack p (p.numVars + k) = .ok q ∧ q.WF ∧ q.numVars = p.numVars + k := by
  obtain ⟨q, h1, h2, h3, _⟩ := increaseNvBack_spec p k
  exact ⟨q, h1, h2 hp, h3⟩

theorem newOk_incFront (hI : Inv R t) {a : TPoly} (ha : t.HasNv a.id a.numVars) (k : Nat) :
    ∃ t', a.incFront k t = (.ok ⟨t.idCounter, a.numVars + k⟩, t') ∧ NewOk R t t' ⟨t.idCounter, a.numVars + k⟩ ∧
      ∀ i j, i < 2 ^ a.numVars → j < 2 ^ k →
        t'.gval (fun p => p.tbl (i * 2 ^ k + j)) t.idCounter = t.gval (fun p => p.tbl i) a.id := by
  obtain ⟨t', p, q, h1, h2, h3, h4, h5, h6, h7⟩ := newOk_inc hI ha increaseNvFront k incFront_ok (incFront_wf k)
  refine ⟨t', ?_, h2, fun i j hi hj => ?_⟩
  · unfold TPoly.incFront
    rw [Act.bind_ok h1]; rfl
  · obtain ⟨q', e1, _, _, e4⟩ := increaseNvFront_spec p k
    rw [h6] at e1; injection e1 with e1; subst e1
    rw [h7, e4 i j (h4 ▸ hi) hj, h5 i hi]

theorem newOk_incBack (hI : Inv R t) {a : TPoly} (ha : t.HasNv a.id a.numVars) (k : Nat) :
    ∃ t', a.incBack k t = (.ok ⟨t.idCounter, a.numVars + k⟩, t') ∧ NewOk R t t' ⟨t.idCounter, a.numVars + k⟩ ∧
      ∀ i, i < 2 ^ (a.numVars + k) →
        t'.gval (fun p => p.tbl i) t.idCounter = t.gval (fun p => p.tbl (i % 2 ^ a.numVars)) a.id := by
  obtain ⟨t', p, q, h1, h2, h3, h4, h5, h6, h7⟩ := newOk_inc hI ha increaseNvBack k incBack_ok (incBack_wf k)
  refine ⟨t', ?_, h2, fun i hi => ?_⟩
  · unfold TPoly.incBack
    rw [Act.bind_ok h1]; rfl
  · obtain ⟨q', e1, _, _, e4⟩ := increaseNvBack_spec p k
    rw [h6] at e1; injection e1 with e1; subst e1
    rw [h7, e4 i (h4 ▸ hi), h4, h5 _ (Nat.mod_lt _ (by positivity))]

/-! ### Conversion to a sumcheck polynomial -/

open Classical in
/-- The polynomial behind an address. -/
noncomputable def ptrMle (t : PTracker F C) (ptr : Nat) : Mle F :=
  if h : ∃ a, (∃ id, t.mats.lookup id = some a) ∧ a.ptr = ptr then h.choose.mle else ⟨0, []⟩

theorem ptrMle_spec (hI : Inv R t) {id : Nat} {a : ArcMle F} (h : t.mats.lookup id = some a) : a.mle = t.ptrMle a.ptr := by
  have hex : ∃ a', (∃ id', t.mats.lookup id' = some a') ∧ a'.ptr = a.ptr := ⟨a, ⟨id, h⟩, rfl⟩
  unfold ptrMle
  rw [dif_pos hex]
  obtain ⟨⟨id', h'⟩, he⟩ := hex.choose_spec
  exact hI.ptrs id a id' _ h h' he.symm

theorem toArith_loop (hI : Inv R t) {nv : Nat} (v : VRep F)
    (hv : ∀ q ∈ v, q.2 ≠ [] ∧ ∀ m ∈ q.2, ∃ a, t.mats.lookup m = some a ∧ a.mle.numVars = nv) (vp : VirtPoly F)
    (hvp : VirtPoly.Inv t.ptrMle vp) (hn : vp.numVariables = nv) :
    ∃ vp', (v.foldlM (init := vp) fun vp q => do
        let l ← q.2.mapM fun m => unwrap (t.mats.lookup m)
        expectState (vp.addMleList l q.1)) = .ok vp' ∧ VirtPoly.Inv t.ptrMle vp' ∧ vp'.numVariables = nv ∧
      (∀ pt, vp'.polyVal pt = vp.polyVal pt + prodsVal (t.matVal fun p => mle p.tbl pt) v) ∧
      vp'.maxDegree = v.foldl (fun d q => max d q.2.length) vp.maxDegree := by
  induction v generalizing vp with
  | nil => exact ⟨vp, rfl, hvp, hn, fun pt => by simp [prodsVal], rfl⟩
  | cons q v ih =>
    obtain ⟨hq1, hq2⟩ := hv q List.mem_cons_self
    have hex : ∃ l : List (ArcMle F), (q.2.mapM fun m => unwrap (t.mats.lookup m)) = .ok l ∧ l.length = q.2.length ∧
        (∀ a ∈ l, (∃ m, t.mats.lookup m = some a) ∧ a.mle.numVars = nv) ∧
        ∀ pt, (l.map fun a => mle a.mle.tbl pt) = q.2.map (t.matVal fun p => mle p.tbl pt) := by
      clear hq1
      generalize q.2 = ms at hq2
      induction ms with
      | nil => exact ⟨[], rfl, rfl, by simp, by simp⟩
      | cons m ms ih2 =>
        obtain ⟨a, e1, e2⟩ := hq2 m List.mem_cons_self
        obtain ⟨l, f1, f2, f3, f4⟩ := ih2 fun m' hm' => hq2 m' (List.mem_cons_of_mem _ hm')
        refine ⟨a :: l, by rw [List.mapM_cons, e1, unwrap_some, ok_bind, f1, ok_bind]; rfl, by simp [f2], ?_, ?_⟩
        · intro b hb
          rcases List.mem_cons.1 hb with rfl | hb
          · exact ⟨⟨m, e1⟩, e2⟩
          · exact f3 b hb
        · intro pt
          rw [List.map_cons, List.map_cons, f4]
          simp only [matVal, e1]
    obtain ⟨l, f1, f2, f3, f4⟩ := hex
    have hne : l ≠ [] := by
      intro e; subst e
      exact hq1 (List.length_eq_zero_iff.1 f2.symm)
    obtain ⟨s1, s2, s3, _⟩ := addMleList_spec l vp q.1 hvp (fun a ha => by
      obtain ⟨⟨m, hm⟩, _⟩ := f3 a ha
      exact ⟨ptrMle_spec hI hm, (hI.matOk m a hm).2.1⟩)
    obtain ⟨r1, r2, r3⟩ := s3 ⟨hne, fun a ha => by rw [(f3 a ha).2, hn]⟩
    obtain ⟨vp', g1, g2, g3, g4, g5⟩ := ih (fun q' hq' => hv q' (List.mem_cons_of_mem _ hq')) _ s1 (s2.trans hn)
    refine ⟨vp', ?_, g2, g3, fun pt => ?_, ?_⟩
    · rw [List.foldlM_cons]
      have e : expectState (vp.addMleList l q.1) = .ok (vp.addMleList l q.1).2 := by
        rcases hh : vp.addMleList l q.1 with ⟨r, s⟩
        rw [hh] at r1
        simp only at r1
        rw [r1]; rfl
      rw [f1, ok_bind, e, ok_bind]
      exact g1
    · rw [g4, r3, f4]
      simp only [prodsVal, List.map_cons, List.sum_cons]
      ring
    · rw [g5, r2, f2, List.foldl_cons]

/-- The largest number of factors in a product. -/
def repDegree (v : VRep F) : Nat := v.foldl (fun d q => max d q.2.length) 0

theorem toArith_spec (hI : Inv R t) {id nv : Nat} (h : t.HasNv id nv) :
    ∃ vp, t.toArith id = .ok vp ∧ VirtPoly.Inv t.ptrMle vp ∧ vp.numVariables = nv ∧
      (∀ pt, vp.polyVal pt = t.gval (fun p => mle p.tbl pt) id) := by
  rcases h with ⟨a, h1, h2⟩ | ⟨h0, v, h1, h2⟩
  · refine ⟨newFromMle a 1, by simp only [toArith, h1], inv_newFromMle 1 ⟨ptrMle_spec hI h1, (hI.matOk id a h1).2.1⟩, h2, fun pt => ?_⟩
    simp [VirtPoly.polyVal, VirtPoly.prodsVal, VirtPoly.newFromMle, VirtPoly.tblAt, gval, h1]
  · obtain ⟨vp', g1, g2, g3, g4, _⟩ := toArith_loop hI v h2.2 (VirtPoly.new nv) (inv_new _ _) rfl
    refine ⟨vp', ?_, g2, g3, fun pt => ?_⟩
    · simp only [toArith, h0, h1]
      rw [repNv_spec h2, ok_bind]
      exact g1
    · rw [g4]
      simp only [gval, h0, h1]
      simp [VirtPoly.polyVal, VirtPoly.prodsVal, VirtPoly.new]

end PTracker

/-! ### Histories -/
open PTracker

/-- A polynomial and its commitment. -/
abbrev commR (commit : Mle F → Res C) : Mle F → C → Prop := fun p c => commit p = .ok c

/-- The invariant of a state with handles. -/
structure StInv (commit : Mle F → Res C) (st : PState F C) : Prop where
  inv : Inv (commR commit) st.tracker
  known : ∀ h ∈ st.handles, st.tracker.HasNv h.id h.numVars

variable {commit : Mle F → Res C} {H : Oracle F C} {st st' : PState F C}

/-- What a call does to the handles: at most one is added, with a fresh identifier. -/
structure StepOk (commit : Mle F → Res C) (st st' : PState F C) : Prop where
  inv : StInv commit st'
  pres : Pres st.tracker st'.tracker
  handles : ∃ new : List TPoly, st'.handles = st.handles ++ new ∧ (new.map (·.id)).Pairwise (· < ·) ∧
    (∀ h ∈ new, st.tracker.idCounter ≤ h.id ∧ h.id < st'.tracker.idCounter)

theorem stepOk_new (hI : StInv commit st) {h : TPoly} {t' : PTracker F C} (hn : NewOk (commR commit) st.tracker t' h) :
    StepOk commit st ⟨t', st.handles ++ [h]⟩ := by
  refine ⟨⟨hn.inv, ?_⟩, hn.pres, [h], rfl, by simp, by simp [hn.ge, hn.lt]⟩
  intro h' hh'
  rcases List.mem_append.1 hh' with e | e
  · exact hn.pres.nv _ _ (hI.known h' e)
  · obtain rfl : h' = h := by simpa using e
    exact hn.nv

theorem stepOk_same (hI : StInv commit st) {t' : PTracker F C} (hi : Inv (commR commit) t') (hp : Pres st.tracker t') :
    StepOk commit st ⟨t', st.handles⟩ :=
  ⟨⟨hi, fun h hh => hp.nv _ _ (hI.known h hh)⟩, hp, [], by simp, by simp, by simp⟩

theorem stepOk_trivial (hI : StInv commit st) {t' : PTracker F C} (h1 : t'.idCounter = st.tracker.idCounter)
    (h2 : t'.heap = st.tracker.heap) (h3 : t'.mats = st.tracker.mats) (h4 : t'.virts = st.tracker.virts) (h5 : t'.comms = st.tracker.comms) :
    StepOk commit st ⟨t', st.handles⟩ := by
  obtain ⟨tr, i, hp, m, v, c, s, z⟩ := t'
  simp only at h1 h2 h3 h4 h5
  subst h1 h2 h3 h4 h5
  exact stepOk_same hI ⟨hI.inv.matOk, hI.inv.virtOk, hI.inv.ptrs, hI.inv.commOk⟩
    ⟨le_refl _, fun _ _ h => h, fun _ _ _ _ _ => rfl, fun _ _ h => h⟩

theorem stepHandle_ok {a : Act (PTracker F C) TPoly} {h : TPoly} {t' : PTracker F C} (e : a st.tracker = (.ok h, t')) :
    stepHandle st a = .ok ⟨t', st.handles ++ [h]⟩ := by
  unfold stepHandle; rw [e]

theorem stepOther_ok {α : Type} {a : Act (PTracker F C) α} {h : α} {t' : PTracker F C} (e : a st.tracker = (.ok h, t')) :
    stepOther st a = .ok ⟨t', st.handles⟩ := by
  unfold stepOther; rw [e]

theorem assert_false_run {S : Type} {p : Prop} [Decidable p] (h : ¬ p) (s : S) : Act.assert p s = (.error .panic, s) := by
  simp [Act.assert, h]

theorem idx_eq {α : Type} {l : List α} {i : Nat} {a : α} (h : l[i]? = some a) : idx l i = .ok a := by
  unfold idx; rw [h]; rfl

theorem idx_inv {α : Type} {l : List α} {i : Nat} {a : α} (h : idx l i = .ok a) : l[i]? = some a := by
  unfold idx at h
  rcases hh : l[i]? with _ | b
  · rw [hh] at h; simp at h
  · rw [hh] at h; simpa using h

theorem idx_bind_ok {α β : Type} {l : List α} {i : Nat} {f : α → Res β} {b : β} (h : (do let a ← idx l i; f a) = .ok b) :
    ∃ a, l[i]? = some a ∧ f a = .ok b := by
  rcases hh : l[i]? with _ | a
  · simp [idx, hh] at h
  · rw [idx_eq hh, ok_bind] at h
    exact ⟨a, rfl, h⟩

theorem run_stepOk (hI : StInv commit st) (op : POp F C) (h : op.run commit H st = .ok st') : StepOk commit st st' := by
  have mem : ∀ {i : Nat} {a : TPoly}, st.handles[i]? = some a → st.tracker.HasNv a.id a.numVars := fun {i a} e =>
    hI.known a (List.mem_of_getElem? e)
  cases op with
  | track p hp =>
    have e : TPoly.trackMat p st.tracker = (.ok ⟨st.tracker.idCounter, p.numVars⟩, st.tracker.pushMat p) := rfl
    simp only [POp.run] at h
    rw [stepHandle_ok e] at h
    injection h with h; subst h
    exact stepOk_new hI (newOk_pushMat hI.inv hp)
  | commit p hp =>
    simp only [POp.run] at h
    rcases hc : commit p with er | c
    · have e : TPoly.trackAndCommit commit p st.tracker = (.error er, st.tracker) := by
        unfold TPoly.trackAndCommit
        rw [Act.bind_error (trackAndCommit_error hc)]
      unfold stepHandle at h
      rw [e] at h
      rcases er with er | _
      · simp only at h
        injection h with h; subst h
        exact stepOk_same hI hI.inv (Pres.refl _)
      · simp at h
    · have e : TPoly.trackAndCommit commit p st.tracker = (.ok ⟨st.tracker.idCounter, p.numVars⟩, st.tracker.pushComm p c) := by
        unfold TPoly.trackAndCommit
        rw [Act.bind_ok (trackAndCommit_ok hc)]; rfl
      rw [stepHandle_ok e] at h
      injection h with h; subst h
      exact stepOk_new hI (newOk_pushComm hI.inv hp hc)
  | add i j =>
    simp only [POp.run] at h
    obtain ⟨a, ha, h⟩ := idx_bind_ok h
    obtain ⟨b, hb, h⟩ := idx_bind_ok h
    by_cases hab : a.numVars = b.numVars
    · obtain ⟨t', e, hn, _⟩ := newOk_add hI.inv (mem ha) (mem hb) hab
      rw [stepHandle_ok e] at h
      injection h with h; subst h
      exact stepOk_new hI hn
    · have e : a.add b st.tracker = (.error .panic, st.tracker) := by
        unfold TPoly.add
        rw [Act.bind_error (assert_false_run hab _)]
      unfold stepHandle at h
      rw [e] at h; simp at h
  | sub i j =>
    simp only [POp.run] at h
    obtain ⟨a, ha, h⟩ := idx_bind_ok h
    obtain ⟨b, hb, h⟩ := idx_bind_ok h
    by_cases hab : a.numVars = b.numVars
    · obtain ⟨t', e, hn, _⟩ := newOk_sub hI.inv (mem ha) (mem hb) hab
      rw [stepHandle_ok e] at h
      injection h with h; subst h
      exact stepOk_new hI hn
    · have e : a.sub b st.tracker = (.error .panic, st.tracker) := by
        unfold TPoly.sub
        rw [Act.bind_error (assert_false_run hab _)]
      unfold stepHandle at h
      rw [e] at h; simp at h
  | mul i j =>
    simp only [POp.run] at h
    obtain ⟨a, ha, h⟩ := idx_bind_ok h
    obtain ⟨b, hb, h⟩ := idx_bind_ok h
    by_cases hab : a.numVars = b.numVars
    · obtain ⟨t', e, hn, _⟩ := newOk_mul hI.inv (mem ha) (mem hb) hab
      rw [stepHandle_ok e] at h
      injection h with h; subst h
      exact stepOk_new hI hn
    · have e : a.mul b st.tracker = (.error .panic, st.tracker) := by
        unfold TPoly.mul
        rw [Act.bind_error (assert_false_run hab _)]
      unfold stepHandle at h
      rw [e] at h; simp at h
  | addScalar i c =>
    simp only [POp.run] at h
    obtain ⟨a, ha, h⟩ := idx_bind_ok h
    obtain ⟨t', e, hn, _⟩ := newOk_addScalar hI.inv (mem ha) c
    rw [stepHandle_ok e] at h
    injection h with h; subst h
    exact stepOk_new hI hn
  | mulScalar i c =>
    simp only [POp.run] at h
    obtain ⟨a, ha, h⟩ := idx_bind_ok h
    obtain ⟨t', e, hn, _⟩ := newOk_mulScalar hI.inv (mem ha) c
    rw [stepHandle_ok e] at h
    injection h with h; subst h
    exact stepOk_new hI hn
  | incFront i k =>
    simp only [POp.run] at h
    obtain ⟨a, ha, h⟩ := idx_bind_ok h
    obtain ⟨t', e, hn, _⟩ := newOk_incFront hI.inv (mem ha) k
    rw [stepHandle_ok e] at h
    injection h with h; subst h
    exact stepOk_new hI hn
  | incBack i k =>
    simp only [POp.run] at h
    obtain ⟨a, ha, h⟩ := idx_bind_ok h
    obtain ⟨t', e, hn, _⟩ := newOk_incBack hI.inv (mem ha) k
    rw [stepHandle_ok e] at h
    injection h with h; subst h
    exact stepOk_new hI hn
  | evaluations i =>
    simp only [POp.run] at h
    obtain ⟨a, ha, h⟩ := idx_bind_ok h
    unfold TPoly.evaluations at h
    rw [stepOther_ok (evaluations_run hI.inv (mem ha))] at h
    injection h with h; subst h
    obtain ⟨h1, h2, _⟩ := matSt_spec hI.inv (mem ha)
    exact stepOk_same hI h1 h2
  | challenge label =>
    simp only [POp.run] at h
    rcases hc : st.tracker.transcript.challenge H label with er | ⟨c, tr⟩
    · have e : PTracker.challenge H label st.tracker = (.error er, st.tracker) := by unfold PTracker.challenge; rw [hc]
      unfold stepOther at h
      rw [e] at h
      rcases er with er | _
      · simp only at h
        injection h with h; subst h
        exact stepOk_same hI hI.inv (Pres.refl _)
      · simp at h
    · have e : PTracker.challenge H label st.tracker = (.ok c, { st.tracker with transcript := tr }) := by
        unfold PTracker.challenge; rw [hc]
      rw [stepOther_ok e] at h
      injection h with h; subst h
      exact stepOk_trivial hI rfl rfl rfl rfl rfl
  | append label d =>
    simp only [POp.run] at h
    rw [stepOther_ok (h := ()) (t' := { st.tracker with transcript := st.tracker.transcript.append label d }) rfl] at h
    injection h with h; subst h
    exact stepOk_trivial hI rfl rfl rfl rfl rfl
  | sumClaim i v =>
    simp only [POp.run] at h
    obtain ⟨a, ha, h⟩ := idx_bind_ok h
    rw [stepOther_ok (h := ()) (t' := { st.tracker with sumClaims := st.tracker.sumClaims ++ [(a.id, v)] }) rfl] at h
    injection h with h; subst h
    exact stepOk_trivial hI rfl rfl rfl rfl rfl
  | zeroClaim i =>
    simp only [POp.run] at h
    obtain ⟨a, ha, h⟩ := idx_bind_ok h
    rw [stepOther_ok (h := ()) (t' := { st.tracker with zeroClaims := st.tracker.zeroClaims ++ [a.id] }) rfl] at h
    injection h with h; subst h
    exact stepOk_trivial hI rfl rfl rfl rfl rfl

theorem StepOk.refl (hI : StInv commit st) : StepOk commit st st := ⟨hI, Pres.refl _, [], by simp, by simp, by simp⟩

theorem StepOk.trans {a b c : PState F C} (h1 : StepOk commit a b) (h2 : StepOk commit b c) : StepOk commit a c := by
  obtain ⟨n1, e1, p1, l1⟩ := h1.handles
  obtain ⟨n2, e2, p2, l2⟩ := h2.handles
  refine ⟨h2.inv, h1.pres.trans h2.pres, n1 ++ n2, by rw [e2, e1, List.append_assoc], ?_, ?_⟩
  · rw [List.map_append, List.pairwise_append]
    refine ⟨p1, p2, ?_⟩
    intro x hx y hy
    obtain ⟨hx', hx1, rfl⟩ := List.mem_map.1 hx
    obtain ⟨hy', hy1, rfl⟩ := List.mem_map.1 hy
    exact lt_of_lt_of_le (l1 hx' hx1).2 (l2 hy' hy1).1
  · intro h hh
    rcases List.mem_append.1 hh with e | e
    · exact ⟨(l1 h e).1, lt_of_lt_of_le (l1 h e).2 h2.pres.cnt⟩
    · exact ⟨le_trans h1.pres.cnt (l2 h e).1, (l2 h e).2⟩

theorem runOps_stepOk (hI : StInv commit st) (ops : List (POp F C)) (h : runOps commit H st ops = .ok st') : StepOk commit st st' := by
  induction ops generalizing st with
  | nil =>
    simp only [runOps, List.foldlM_nil] at h
    injection h with h; subst h
    exact StepOk.refl hI
  | cons op ops ih =>
    simp only [runOps, List.foldlM_cons] at h
    rcases hs : op.run commit H st with e | s
    · rw [hs, error_bind] at h; simp at h
    · rw [hs, ok_bind] at h
      have h1 := run_stepOk hI op hs
      exact h1.trans (ih h1.inv h)

theorem stInv_init : StInv commit (PState.init : PState F C) :=
  ⟨⟨by simp [PState.init, PTracker.new], by simp [PState.init, PTracker.new], by simp [PState.init, PTracker.new],
    by simp [PState.init, PTracker.new]⟩, by simp [PState.init]⟩

theorem Spec.Reachable.inv (h : Reachable commit H st) : StInv commit st := by
  obtain ⟨ops, h⟩ := h
  exact (runOps_stepOk stInv_init ops h).inv

theorem runOps_append (ops ops' : List (POp F C)) :
    runOps commit H st (ops ++ ops') = (runOps commit H st ops) >>= fun s => runOps commit H s ops' := by
  simp only [runOps, List.foldlM_append]

theorem Spec.Reachable.step (h : Reachable commit H st) {ops : List (POp F C)} (hs : runOps commit H st ops = .ok st') : Reachable commit H st' := by
  obtain ⟨ops0, h0⟩ := h
  exact ⟨ops0 ++ ops, by rw [runOps_append, h0, ok_bind, hs]⟩

theorem evalsOf_eq (hI : StInv commit st) {h : TPoly} (hk : st.tracker.HasNv h.id h.numVars) :
    evalsOf st h = .ok ((List.range (2 ^ h.numVars)).map fun b => st.tracker.gval (fun p => p.tbl b) h.id) := by
  unfold evalsOf TPoly.evaluations
  rw [evaluations_run hI.inv hk]

end Zksql
