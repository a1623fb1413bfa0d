import Verif.Lemmas.ProverTracker2
/-! Helper lemmas for the properties of the prover's tracker: results of calls, and histories without products. -/
set_option linter.unusedSectionVars false
namespace Zksql
open Spec VirtPoly PTracker
variable {F C : Type} [Field F] {commit : Mle F → Res C} {H : Oracle F C} {st st' : PState F C}

theorem zipWith_range (n : Nat) (f g : Nat → F) (op : F → F → F) :
    List.zipWith op ((List.range n).map f) ((List.range n).map g) = (List.range n).map fun b => op (f b) (g b) := by
  apply List.ext_getElem <;> simp

theorem yields_of (hI : StInv commit st) {op : POp F C} {t' : PTracker F C} {h : TPoly} {l : List F}
    (e : op.run commit H st = .ok ⟨t', st.handles ++ [h]⟩) (hn : NewOk (commR commit) st.tracker t' h)
    (hl : l = (List.range (2 ^ h.numVars)).map fun b => t'.gval (fun p => p.tbl b) h.id) : Yields commit H st op h.numVars l := by
  refine ⟨_, h, e, rfl, rfl, ?_⟩
  have hs := stepOk_new hI hn
  rw [evalsOf_eq hs.inv hn.nv, hl]

theorem constMle_eval (nv : Nat) (c : F) (x : List F) (hx : x.length = nv) : mle (constMle nv c).tbl x = c := by
  rw [mle_congr (g := fun _ => c) x (fun b hb => constMle_tbl nv c b (hx ▸ hb)), mle_const]

theorem yieldsFn_of {op : POp F C} {t' : PTracker F C} {h : TPoly} {v : List F → F}
    (e : op.run commit H st = .ok ⟨t', st.handles ++ [h]⟩) (hn : NewOk (commR commit) st.tracker t' h)
    (hl : ∀ x : List F, x.length = h.numVars → t'.gval (fun p => mle p.tbl x) h.id = v x) : YieldsFn commit H st op h.numVars v := by
  refine ⟨_, h, e, rfl, rfl, fun x hx => ?_⟩
  unfold TPoly.evaluate
  rw [evaluate_spec hn.inv hn.nv x hx, hl x hx]

theorem gval_matSt_other {id nv id' nv' : Nat} (h : st.tracker.HasNv id nv) (h' : st.tracker.HasNv id' nv')
    (hne : id' ≠ id) (f : Mle F → F) : (st.tracker.matSt id nv).gval f id' = st.tracker.gval f id' := by
  rcases h with ⟨a, h1, h2⟩ | ⟨h0, v, h1, h2⟩
  · simp only [matSt, h1]
  · have e : st.tracker.matSt id nv = st.tracker.setMat id (st.tracker.repMle nv v) := by simp only [matSt, h0, h1]
    rw [e]
    rcases h' with ⟨a, g1, g2⟩ | ⟨g0, w, g1, g2⟩
    · simp only [gval, g1, setMat_mono h0 _ id' a g1]
    · simp only [gval, setMat_lookup, setMat_virts, if_neg hne, g0, g1]
      exact matVal_mono g2 (setMat_mono h0 _) _

/-- No product of two or more polynomials occurs. -/
def Lin (t : PTracker F C) : Prop := ∀ id v, t.virts.lookup id = some v → ∀ q ∈ v, q.2.length = 1

theorem lin_pushVirt {t : PTracker F C} (h : Lin t) {v : VRep F} (hv : ∀ q ∈ v, q.2.length = 1) : Lin (t.pushVirt v) := by
  intro id w hw
  simp only [pushVirt, lookup_amInsert] at hw
  split at hw
  · injection hw with hw; subst hw; exact hv
  · exact h id w hw

theorem lin_setMat {t : PTracker F C} (h : Lin t) (id : Nat) (p : Mle F) : Lin (t.setMat id p) := by
  intro i w hw
  rw [setMat_virts] at hw
  split at hw
  · simp at hw
  · exact h i w hw

theorem lin_matSt {t : PTracker F C} (h : Lin t) (id nv : Nat) : Lin (t.matSt id nv) := by
  unfold matSt
  split
  · exact h
  · split
    · exact lin_setMat h _ _
    · exact h

theorem lin_addSub {t : PTracker F C} (h : Lin t) (i j : Nat) (s : Bool) (v : VRep F) (hv : t.addSubRep i j s = .ok v) :
    ∀ q ∈ v, q.2.length = 1 := by
  unfold addSubRep at hv
  dsimp only at hv
  split at hv <;> try (simp at hv; done)
  · injection hv with hv; subst hv
    intro q hq; simp at hq; rcases hq with rfl | rfl <;> rfl
  · rename_i v2 _ _ _ e2
    injection hv with hv; subst hv
    intro q hq
    rcases List.mem_cons.1 hq with rfl | hq
    · rfl
    · obtain ⟨q', hq', rfl⟩ := List.mem_map.1 hq
      exact h _ _ e2 q' hq'
  · rename_i v1 _ _ e1 _ _
    injection hv with hv; subst hv
    intro q hq
    rcases List.mem_append.1 hq with hq | hq
    · exact h _ _ e1 q hq
    · obtain rfl : q = _ := List.mem_singleton.1 hq
      rfl
  · rename_i v1 v2 _ e1 _ e2
    injection hv with hv; subst hv
    intro q hq
    rcases List.mem_append.1 hq with hq | hq
    · exact h _ _ e1 q hq
    · obtain ⟨q', hq', rfl⟩ := List.mem_map.1 hq
      exact h _ _ e2 q' hq'

theorem lin_increase {t t' : PTracker F C} {inc : Mle F → Nat → Res (Mle F)} {id k n : Nat} (h : Lin t)
    (e : increaseNv inc id k t = (.ok n, t')) : Lin t' := by
  unfold increaseNv at e
  obtain ⟨_, s1, h1, e⟩ := Act.bind_eq_ok.1 e
  have l1 : Lin s1 := by
    unfold PTracker.materialize at h1
    split at h1
    · cases h1; exact h
    · split at h1
      · simp at h1
      · obtain ⟨m, s2, h2, h1⟩ := Act.bind_eq_ok.1 h1
        obtain ⟨m', s3, h3, h1⟩ := Act.bind_eq_ok.1 h1
        obtain ⟨-, rfl⟩ := Prod.mk.inj h2
        cases h3; cases h1
        intro i w hw
        simp only [lookup_amErase] at hw
        split at hw
        · simp at hw
        · exact h i w hw
  obtain ⟨a, s2, h2, e⟩ := Act.bind_eq_ok.1 e
  obtain ⟨-, rfl⟩ := Prod.mk.inj h2
  obtain ⟨b, s3, h3, e'⟩ := Act.bind_eq_ok.1 e
  have l3 : Lin s3 := by
    unfold incArc at h3
    split at h3
    · cases h3; exact l1
    · obtain ⟨m, s4, h4, h3⟩ := Act.bind_eq_ok.1 h3
      obtain ⟨-, rfl⟩ := Prod.mk.inj h4
      cases h3
      exact l1
  rw [trackMatArc_run] at e'
  cases e'
  exact l3

theorem gval_lin {t : PTracker F C} {nv : Nat} {v : VRep F} (hv : t.AllNv nv v) (hl : ∀ q ∈ v, q.2.length = 1) (x : List F)
    (hx : x.length = nv) : mle (t.repMle nv v).tbl x = prodsVal (t.matVal fun p => mle p.tbl x) v := by
  rw [mle_congr (g := fun b => prodsVal (t.matVal fun p => p.tbl b) v) x (fun b hb => repMle_tbl t nv v b (hx ▸ hb))]
  have hm : ∀ q ∈ v, ∃ m a, q.2 = [m] ∧ t.mats.lookup m = some a := by
    intro q hq
    obtain ⟨m, hm⟩ := List.length_eq_one_iff.1 (hl q hq)
    obtain ⟨a, ha, _⟩ := (hv.2 q hq).2 m (by rw [hm]; exact List.mem_cons_self)
    exact ⟨m, a, hm, ha⟩
  clear hv hl
  induction v with
  | nil => simp only [prodsVal, List.map_nil, List.sum_nil]; exact mle_const 0 x
  | cons q v ih =>
    obtain ⟨m, a, e1, e2⟩ := hm q List.mem_cons_self
    have e3 : ∀ f : Mle F → F, prodsVal (t.matVal f) (q :: v) = q.1 * f a.mle + prodsVal (t.matVal f) v := by
      intro f
      simp [prodsVal, e1, matVal, e2]
    simp only [e3]
    rw [← ih fun q' hq' => hm q' (List.mem_cons_of_mem _ hq')]
    rw [mle_add, mle_smul]

theorem lin_run (hI : StInv commit st) (hl : Lin st.tracker) (op : POp F C) (hop : NotMul op) (h : op.run commit H st = .ok st') :
    Lin st'.tracker := by
  have mem : ∀ {i : Nat} {a : TPoly}, st.handles[i]? = some a → st.tracker.HasNv a.id a.numVars := fun {i a} e =>
    hI.known a (List.mem_of_getElem? e)
  cases op with
  | track p hp =>
    simp only [POp.run] at h
    rw [stepHandle_ok (h := ⟨st.tracker.idCounter, p.numVars⟩) (t' := st.tracker.pushMat p) rfl] at h
    injection h with h; subst h
    exact hl
  | commit p hp =>
    simp only [POp.run] at h
    rcases hc : commit p with er | c
    · have e : TPoly.trackAndCommit commit p st.tracker = (.error er, st.tracker) := by
        unfold TPoly.trackAndCommit
        rw [Act.bind_error (trackAndCommit_error hc)]
      unfold stepHandle at h
      rw [e] at h
      rcases er with er | _
      · simp only at h
        injection h with h; subst h
        exact hl
      · simp at h
    · have e : TPoly.trackAndCommit commit p st.tracker = (.ok ⟨st.tracker.idCounter, p.numVars⟩, st.tracker.pushComm p c) := by
        unfold TPoly.trackAndCommit
        rw [Act.bind_ok (trackAndCommit_ok hc)]; rfl
      rw [stepHandle_ok e] at h
      injection h with h; subst h
      exact hl
  | add i j =>
    simp only [POp.run] at h
    obtain ⟨a, ha, h⟩ := idx_bind_ok h
    obtain ⟨b, hb, h⟩ := idx_bind_ok h
    by_cases hab : a.numVars = b.numVars
    · obtain ⟨v, e0, _⟩ := addSubRep_spec hI.inv (mem ha) (hab ▸ mem hb) false
      have e : a.add b st.tracker = (.ok ⟨st.tracker.idCounter, a.numVars⟩, st.tracker.pushVirt v) := by
        unfold TPoly.add addSubPolys
        rw [Act.bind_ok (Act.assert_true hab _), Act.bind_run, Act.bind_ok (a := v) (s' := st.tracker) (by simp [e0])]
        rfl
      rw [stepHandle_ok e] at h
      injection h with h; subst h
      exact lin_pushVirt hl (lin_addSub hl _ _ _ v e0)
    · have e : a.add b st.tracker = (.error .panic, st.tracker) := by
        unfold TPoly.add
        rw [Act.bind_error (assert_false_run hab _)]
      unfold stepHandle at h
      rw [e] at h; simp at h
  | sub i j =>
    simp only [POp.run] at h
    obtain ⟨a, ha, h⟩ := idx_bind_ok h
    obtain ⟨b, hb, h⟩ := idx_bind_ok h
    by_cases hab : a.numVars = b.numVars
    · obtain ⟨v, e0, _⟩ := addSubRep_spec hI.inv (mem ha) (hab ▸ mem hb) true
      have e : a.sub b st.tracker = (.ok ⟨st.tracker.idCounter, a.numVars⟩, st.tracker.pushVirt v) := by
        unfold TPoly.sub addSubPolys
        rw [Act.bind_ok (Act.assert_true hab _), Act.bind_run, Act.bind_ok (a := v) (s' := st.tracker) (by simp [e0])]
        rfl
      rw [stepHandle_ok e] at h
      injection h with h; subst h
      exact lin_pushVirt hl (lin_addSub hl _ _ _ v e0)
    · have e : a.sub b st.tracker = (.error .panic, st.tracker) := by
        unfold TPoly.sub
        rw [Act.bind_error (assert_false_run hab _)]
      unfold stepHandle at h
      rw [e] at h; simp at h
  | mul i j => exact absurd hop id
  | addScalar i c =>
    simp only [POp.run] at h
    obtain ⟨a, ha, h⟩ := idx_bind_ok h
    have hI' := inv_pushMat hI.inv _ (constMle_wf a.numVars c)
    have hk := keep_pushMat hI.inv (constMle a.numVars c)
    obtain ⟨v, e0, _⟩ := addSubRep_spec hI' ((mem ha).keep hI.inv hk) (hasNv_pushMat st.tracker (constMle a.numVars c)) false
    have e : a.addScalar c st.tracker = (.ok ⟨st.tracker.idCounter + 1, a.numVars⟩, (st.tracker.pushMat (constMle a.numVars c)).pushVirt v) := by
      unfold TPoly.addScalar PTracker.addScalar addSubPolys
      rw [Act.bind_run, Act.bind_ok (a := a.numVars) (s' := st.tracker) (by simp [getPolyNv_spec (mem ha)]),
        Act.bind_ok (a := constMle a.numVars c) (s' := st.tracker) (by simp [Mle.fromEvals, constMle]), Act.bind_ok (trackMat_run _ _),
        Act.bind_ok (a := v) (s' := st.tracker.pushMat (constMle a.numVars c)) (by simp [e0])]
      rfl
    rw [stepHandle_ok e] at h
    injection h with h; subst h
    have hl' : Lin (st.tracker.pushMat (constMle a.numVars c)) := hl
    exact lin_pushVirt hl' (lin_addSub hl' _ _ _ v e0)
  | mulScalar i c =>
    simp only [POp.run] at h
    obtain ⟨a, ha, h⟩ := idx_bind_ok h
    obtain ⟨v, e0, _⟩ := mulScalarRep_spec hI.inv (mem ha) c
    have e : a.mulScalar c st.tracker = (.ok ⟨st.tracker.idCounter, a.numVars⟩, st.tracker.pushVirt v) := by
      unfold TPoly.mulScalar PTracker.mulScalar
      rw [Act.bind_run, Act.bind_ok (a := v) (s' := st.tracker) (by simp [e0])]
      rfl
    rw [stepHandle_ok e] at h
    injection h with h; subst h
    refine lin_pushVirt hl ?_
    unfold mulScalarRep at e0
    split at e0
    · injection e0 with e0; subst e0
      intro q hq; obtain rfl : q = _ := List.mem_singleton.1 hq; rfl
    · rcases hv : st.tracker.virts.lookup a.id with _ | w
      · rw [hv] at e0; simp at e0
      · rw [hv, unwrap_some, ok_bind] at e0
        injection e0 with e0; subst e0
        intro q hq
        obtain ⟨q', hq', rfl⟩ := List.mem_map.1 hq
        exact hl _ _ hv q' hq'
  | incFront i k =>
    simp only [POp.run] at h
    obtain ⟨a, ha, h⟩ := idx_bind_ok h
    obtain ⟨t', p, q, e, _, _, _, _, _, _, hk, _, _, _, _⟩ := increaseNv_run hI.inv (mem ha) increaseNvFront k incFront_ok (incFront_wf k)
    have e2 : a.incFront k st.tracker = (.ok ⟨st.tracker.idCounter, a.numVars + k⟩, t') := by
      unfold TPoly.incFront; rw [Act.bind_ok e]; rfl
    rw [stepHandle_ok e2] at h
    injection h with h; subst h
    exact lin_increase hl e
  | incBack i k =>
    simp only [POp.run] at h
    obtain ⟨a, ha, h⟩ := idx_bind_ok h
    obtain ⟨t', p, q, e, _, _, _, _, _, _, hk, _, _, _, _⟩ := increaseNv_run hI.inv (mem ha) increaseNvBack k incBack_ok (incBack_wf k)
    have e2 : a.incBack k st.tracker = (.ok ⟨st.tracker.idCounter, a.numVars + k⟩, t') := by
      unfold TPoly.incBack; rw [Act.bind_ok e]; rfl
    rw [stepHandle_ok e2] at h
    injection h with h; subst h
    exact lin_increase hl e
  | evaluations i =>
    simp only [POp.run] at h
    obtain ⟨a, ha, h⟩ := idx_bind_ok h
    unfold TPoly.evaluations at h
    rw [stepOther_ok (evaluations_run hI.inv (mem ha))] at h
    injection h with h; subst h
    exact lin_matSt hl _ _
  | challenge label =>
    simp only [POp.run] at h
    rcases hc : st.tracker.transcript.challenge H label with er | ⟨c, tr⟩
    · have e : PTracker.challenge H label st.tracker = (.error er, st.tracker) := by unfold PTracker.challenge; rw [hc]
      unfold stepOther at h
      rw [e] at h
      rcases er with er | _
      · simp only at h
        injection h with h; subst h
        exact hl
      · simp at h
    · have e : PTracker.challenge H label st.tracker = (.ok c, { st.tracker with transcript := tr }) := by
        unfold PTracker.challenge; rw [hc]
      rw [stepOther_ok e] at h
      injection h with h; subst h
      exact hl
  | append label d =>
    simp only [POp.run] at h
    rw [stepOther_ok (h := ()) (t' := { st.tracker with transcript := st.tracker.transcript.append label d }) rfl] at h
    injection h with h; subst h
    exact hl
  | sumClaim i v =>
    simp only [POp.run] at h
    obtain ⟨a, ha, h⟩ := idx_bind_ok h
    rw [stepOther_ok (h := ()) (t' := { st.tracker with sumClaims := st.tracker.sumClaims ++ [(a.id, v)] }) rfl] at h
    injection h with h; subst h
    exact hl
  | zeroClaim i =>
    simp only [POp.run] at h
    obtain ⟨a, ha, h⟩ := idx_bind_ok h
    rw [stepOther_ok (h := ()) (t' := { st.tracker with zeroClaims := st.tracker.zeroClaims ++ [a.id] }) rfl] at h
    injection h with h; subst h
    exact hl

theorem lin_runOps (hI : StInv commit st) (hl : Lin st.tracker) (ops : List (POp F C)) (hops : ∀ op ∈ ops, NotMul op)
    (h : runOps commit H st ops = .ok st') : Lin st'.tracker := by
  induction ops generalizing st with
  | nil =>
    simp only [runOps, List.foldlM_nil] at h
    injection h with h; subst h
    exact hl
  | cons op ops ih =>
    simp only [runOps, List.foldlM_cons] at h
    rcases hs : op.run commit H st with e | s
    · rw [hs, error_bind] at h; simp at h
    · rw [hs, ok_bind] at h
      exact ih (run_stepOk hI op hs).inv (lin_run hI hl op (hops op List.mem_cons_self) hs) (fun o ho => hops o (List.mem_cons_of_mem _ ho)) h

end Zksql
