import Verif.Lemmas.Joint
/-! One call on both sides. -/
set_option linter.unusedSectionVars false
namespace Zksql
open Spec PTracker VSt
variable {F C B : Type} [Field F] [DecidableEq F] {commit : Mle F → Res C} {H : Oracle F C} {ps ps' : PState F C} {vs : VState F C B}
  {debug : Bool} {pub : Mle F → List F → Res F}

/-- The joint conclusion. -/
def JointOk (debug : Bool) (pub : Mle F → List F → Res F) (H : Oracle F C) (ps ps' : PState F C) (vs : VState F C B) (op : POp F C) : Prop :=
  ∃ vs', runVOps debug H vs (mirror pub op).toList = .ok vs' ∧ InStep ps' vs' ∧ VInv vs' ∧ vs'.st.own.proof = vs.st.own.proof ∧
    ∀ Q : Nat → List F → Prop, Points Q → ∀ ans, PubAt Q pub → TruthfulAt Q ans ps' → Faithful ps op → Agree Q ans ps vs → Agree Q ans ps' vs'

theorem runVOps_one {vs' : VState F C B} {op : VOp F C B} (h : op.run debug H vs = .ok vs') : runVOps debug H vs [op] = .ok vs' := by
  simp only [runVOps, List.foldlM_cons, List.foldlM_nil, h, ok_bind]
  rfl

theorem joint_virt (hV : VInv vs) (hS : InStep ps vs) {t' : PTracker F C} {a : Act (PTracker F C) TPoly} {nv : Nat}
    (ha : a ps.tracker = (.ok ⟨ps.tracker.idCounter, nv⟩, t')) (he : Eff 1 a) {op : POp F C}
    {c : VComm F} {vop : VOp F C B} (hm : mirror pub op = some vop)
    (hv : vop.run debug H vs = .ok ⟨vs.st.push c, vs.handles ++ [vs.st.own.idCounter]⟩)
    (hc : ∀ r ∈ c.refs, (vs.st.sh.comms.lookup r).isSome)
    (hA : ∀ Q : Nat → List F → Prop, Points Q → ∀ ans, PubAt Q pub → Faithful ps op → Agree Q ans ps vs → OldSame ps t' ∧ ∀ x : List F, Q nv x →
      evalStep ans (fun r => evalC vs.st.sh.comms ans (r + 1) r) c x = .ok (t'.gval (fun p => mle p.tbl (x.take nv)) ps.tracker.idCounter)) :
    JointOk debug pub H ps ⟨t', ps.handles ++ [⟨ps.tracker.idCounter, nv⟩]⟩ vs op := by
  obtain ⟨e1, e2, e3, e4, e5⟩ := he _ _ _ ha
  refine ⟨⟨vs.st.push c, vs.handles ++ [vs.st.own.idCounter]⟩, ?_, ?_, (vstep_push hV hc).inv, rfl, ?_⟩
  · rw [hm]; exact runVOps_one hv
  · refine ⟨?_, ?_, ?_, ?_, ?_, ?_⟩
    · show vs.st.own.idCounter + 1 = _
      rw [hS.counter]; exact e1.symm
    · exact hS.transcript.trans e2.symm
    · simp [hS.handles, hS.counter]
    · exact hS.comms.trans e3.symm
    · exact hS.sums.trans (by rw [← e4])
    · exact hS.zeros.trans e5.symm
  · intro Q hQ ans hp _ hf hag
    obtain ⟨h1, h2⟩ := hA Q hQ ans hp hf hag
    rw [hS.counter]
    refine joint_new hQ hV hS (keep_push hV.wf c) h1 (fun _ x hx => ?_) hag
    rw [← h2 x hx, ← hS.counter]
    exact evalC_push hV.wf hc x

theorem joint_other (hV : VInv vs) (hS : InStep ps vs) {t' : PTracker F C} {op : POp F C} {own' : VTracker F C B}
    (hv : runVOps debug H vs (mirror pub op).toList = .ok ⟨⟨own', vs.st.sh⟩, vs.handles⟩)
    (h1 : own'.idCounter = vs.st.own.idCounter) (h2 : own'.matComms = vs.st.own.matComms) (h3 : own'.proof = vs.st.own.proof)
    (h4 : t'.idCounter = ps.tracker.idCounter) (h5 : t'.comms = ps.tracker.comms)
    (h6 : own'.transcript = t'.transcript) (h7 : own'.sumClaims.map (·.1) = t'.sumClaims.map (·.1)) (h8 : own'.zeroClaims = t'.zeroClaims)
    (ho : Faithful ps op → OldSame ps t') : JointOk debug pub H ps ⟨t', ps.handles⟩ vs op := by
  refine ⟨_, hv, ⟨?_, h6, hS.handles, ?_, h7, h8⟩, (runVOps_stepOk hV _ hv).inv, h3, ?_⟩
  · exact h1.trans (hS.counter.trans h4.symm)
  · exact h2.trans (hS.comms.trans h5.symm)
  · intro Q hQ ans _ _ hf hA h hh x hx
    exact agree_old hQ hV hS hA (ho hf) (VKeep.refl _) hh x hx

theorem oldSame_triv {t' : PTracker F C} (h3 : t'.mats = ps.tracker.mats) (h4 : t'.virts = ps.tracker.virts) : OldSame ps t' := by
  intro h _ x _
  have : t'.matVal (fun p => mle p.tbl x) = ps.tracker.matVal fun p => mle p.tbl x := by
    funext m; simp only [matVal, h3]
  simp only [gval, h3, h4, this]

theorem oldSame_matSt (hI : StInv commit ps) {a : TPoly} (ha : a ∈ ps.handles) (hs : SameAfter ps a) :
    OldSame ps (ps.tracker.matSt a.id a.numVars) := by
  have hka := hI.known a ha
  obtain ⟨hI1, hp1, _⟩ := matSt_spec hI.inv hka
  have key : ∀ x : List F, x.length = a.numVars →
      (ps.tracker.matSt a.id a.numVars).gval (fun p => mle p.tbl x) a.id = ps.tracker.gval (fun p => mle p.tbl x) a.id := by
    intro x hx
    have := hs x hx
    unfold afterEvaluations TPoly.evaluations at this
    rw [evaluations_run hI.inv hka] at this
    unfold TPoly.evaluate at this
    rw [evaluate_spec hI1 (hp1.nv _ _ hka) x hx, evaluate_spec hI.inv hka x hx] at this
    simpa using this
  intro h hh x hx
  have hkh := hI.known h hh
  by_cases e : h.id = a.id
  · have : h.numVars = a.numVars := HasNv.unique (t := ps.tracker) (id := a.id) (e ▸ hkh) hka
    rw [e]
    exact key x (this ▸ hx)
  · exact gval_matSt_other hka hkh e _

/-- Both views of a materialised table. -/
theorem matSt_mle (hI : StInv commit ps) {a : TPoly} (ha : a ∈ ps.handles) (hs : SameAfter ps a) {p : Mle F}
    (hp : ∀ b < 2 ^ a.numVars, p.tbl b = ps.tracker.gval (fun p => p.tbl b) a.id) (x : List F) (hx : x.length = a.numVars) :
    mle p.tbl x = ps.tracker.gval (fun p => mle p.tbl x) a.id := by
  have hka := hI.known a ha
  rw [← oldSame_matSt hI ha hs a ha x hx]
  obtain ⟨_, _, q, h1, _, _, h4⟩ := matSt_spec hI.inv hka
  simp only [gval, h1]
  apply mle_congr
  intro b hb
  rw [hx] at hb
  rw [hp b hb, h4 b hb]

theorem joint_step (hI : StInv commit ps) (hV : VInv vs) (hS : InStep ps vs) (op : POp F C)
    (hc : ∀ p wf, op = .commit p wf → ∃ c, commit p = .ok c) (h : op.run commit H ps = .ok ps') (hcov : ProofCovers vs ps') :
    JointOk debug pub H ps ps' vs op := by
  have mem : ∀ {i : Nat} {a : TPoly}, ps.handles[i]? = some a → a ∈ ps.handles := fun {i a} e => List.mem_of_getElem? e
  have known : ∀ {i : Nat} {a : TPoly}, ps.handles[i]? = some a → ps.tracker.HasNv a.id a.numVars := fun {i a} e => hI.known a (mem e)
  have vidx : ∀ {i : Nat} {a : TPoly}, ps.handles[i]? = some a → idx vs.handles i = .ok a.id := fun {i a} e => by
    rw [hS.handles]; exact idx_map _ e
  have vk : ∀ {i : Nat} {a : TPoly}, ps.handles[i]? = some a → (vs.st.sh.comms.lookup a.id).isSome := fun {i a} e => InStep.known hV hS (mem e)
  cases op with
  | track p hp =>
    have e : TPoly.trackMat p ps.tracker = (.ok ⟨ps.tracker.idCounter, p.numVars⟩, ps.tracker.pushMat p) := rfl
    simp only [POp.run] at h
    rw [stepHandle_ok e] at h
    injection h with h; subst h
    refine joint_virt hV hS e (TPoly.eff_trackMat p) (c := .fn (pub p)) (vop := .virt (pub p)) rfl
      (vstepHandle_ok (trackVirtual_run _ vs.st)) (by simp [VComm.refs]) fun Q hQ ans hpub _ _ => ⟨oldSame_keep hI (keep_pushMat hI.inv p), fun x hx => ?_⟩
    rw [gval_pushMat]
    exact hpub p hp x hx
  | commit p hp =>
    obtain ⟨c, hcc⟩ := hc p hp rfl
    simp only [POp.run] at h
    have e : TPoly.trackAndCommit commit p ps.tracker = (.ok ⟨ps.tracker.idCounter, p.numVars⟩, ps.tracker.pushComm p c) := by
      unfold TPoly.trackAndCommit
      rw [Act.bind_ok (trackAndCommit_ok hcc)]; rfl
    rw [stepHandle_ok e] at h
    injection h with h; subst h
    have hl : vs.st.own.proof.comms.lookup vs.st.own.idCounter = some c := by
      apply hcov.1
      simp only [pushComm, lookup_amInsert, hS.counter, if_true]
    have hrun : (VOp.transferNext : VOp F C B).run debug H vs = .ok ⟨vs.st.pushMat c, vs.handles ++ [vs.st.own.idCounter]⟩ := by
      refine vstepHandle_ok ?_
      have e0 : VSt.getNextId vs.st = (.ok vs.st.own.idCounter, vs.st) := rfl
      rw [Act.bind_ok e0]
      exact transferComm_run hl fun _ => rfl
    refine ⟨_, runVOps_one hrun, ⟨?_, ?_, ?_, ?_, hS.sums, hS.zeros⟩, (vstep_pushMat hV c).inv, rfl, ?_⟩
    · show vs.st.own.idCounter + 1 = ps.tracker.idCounter + 1
      rw [hS.counter]
    · show vs.st.own.transcript.append "comm" (.comm c) = ps.tracker.transcript.append "comm" (.comm c)
      rw [hS.transcript]
    · simp [hS.handles, hS.counter]
    · show amInsert vs.st.own.idCounter c vs.st.own.matComms = amInsert ps.tracker.idCounter c ps.tracker.comms
      rw [hS.counter, hS.comms]
    · intro Q hQ ans _ ht _ hA
      have hn := newOk_pushComm (R := commR commit) hI.inv hp hcc
      rw [hS.counter]
      refine joint_new hQ hV hS (keep_pushMat hV.wf c) ?_ (fun _ x hx => ?_) hA
      · intro a ha x hx
        have : (ps.tracker.pushMat p).gval (fun p => mle p.tbl x) a.id = _ := gval_keep hI.inv (keep_pushMat hI.inv p) (hI.known a ha) _
        exact this
      · show evalC (vs.st.pushMat c).sh.comms ans (ps.tracker.idCounter + 1) ps.tracker.idCounter x = _
        rw [← hS.counter, evalC_pushMat hV.wf]
        refine ht vs.st.own.idCounter c ?_ p.numVars x _ hx ?_
        · simp only [pushComm, lookup_amInsert, hS.counter, if_true]
        · rw [hS.counter]
          exact evaluate_spec hn.inv hn.nv _ (hQ.len hx)
  | add i j =>
    simp only [POp.run] at h
    obtain ⟨a, ha, h⟩ := idx_bind_ok h
    obtain ⟨b, hb, h⟩ := idx_bind_ok h
    by_cases hab : a.numVars = b.numVars
    · obtain ⟨t', e, hn, hk, hg⟩ := newOk_add hI.inv (known ha) (known hb) hab
      rw [stepHandle_ok e] at h
      injection h with h; subst h
      refine joint_virt hV hS e (TPoly.eff_add a b) (c := .add a.id b.id) (vop := .add i j) rfl ?_
        (refs2 (P := fun r => (vs.st.sh.comms.lookup r).isSome = true) (vk ha) (vk hb)) fun Q hQ ans _ _ hA => ⟨oldSame_keep hI hk, fun x hx => ?_⟩
      · simp only [VOp.run]
        rw [vidx ha, vidx hb, ok_bind, ok_bind]
        exact vstepHandle_ok (trackVirtual_run _ vs.st)
      · simp only [evalStep]
        rw [hA a (mem ha) x hx, hA b (mem hb) x (hab ▸ hx), ok_bind, ok_bind, hg, hab]
    · unfold stepHandle TPoly.add at h
      rw [assert_panic hab] at h; simp at h
  | sub i j =>
    simp only [POp.run] at h
    obtain ⟨a, ha, h⟩ := idx_bind_ok h
    obtain ⟨b, hb, h⟩ := idx_bind_ok h
    by_cases hab : a.numVars = b.numVars
    · obtain ⟨t', e, hn, hk, hg⟩ := newOk_sub hI.inv (known ha) (known hb) hab
      rw [stepHandle_ok e] at h
      injection h with h; subst h
      refine joint_virt hV hS e (TPoly.eff_sub a b) (c := .sub a.id b.id) (vop := .sub i j) rfl ?_
        (refs2 (P := fun r => (vs.st.sh.comms.lookup r).isSome = true) (vk ha) (vk hb)) fun Q hQ ans _ _ hA => ⟨oldSame_keep hI hk, fun x hx => ?_⟩
      · simp only [VOp.run]
        rw [vidx ha, vidx hb, ok_bind, ok_bind]
        exact vstepHandle_ok (trackVirtual_run _ vs.st)
      · simp only [evalStep]
        rw [hA a (mem ha) x hx, hA b (mem hb) x (hab ▸ hx), ok_bind, ok_bind, hg, hab]
    · unfold stepHandle TPoly.sub at h
      rw [assert_panic hab] at h; simp at h
  | mul i j =>
    simp only [POp.run] at h
    obtain ⟨a, ha, h⟩ := idx_bind_ok h
    obtain ⟨b, hb, h⟩ := idx_bind_ok h
    by_cases hab : a.numVars = b.numVars
    · obtain ⟨t', e, hn, hk, hg⟩ := newOk_mul hI.inv (known ha) (known hb) hab
      rw [stepHandle_ok e] at h
      injection h with h; subst h
      refine joint_virt hV hS e (TPoly.eff_mul a b) (c := .mul a.id b.id) (vop := .mul i j) rfl ?_
        (refs2 (P := fun r => (vs.st.sh.comms.lookup r).isSome = true) (vk ha) (vk hb)) fun Q hQ ans _ _ hA => ⟨oldSame_keep hI hk, fun x hx => ?_⟩
      · simp only [VOp.run]
        rw [vidx ha, vidx hb, ok_bind, ok_bind]
        exact vstepHandle_ok (trackVirtual_run _ vs.st)
      · simp only [evalStep]
        rw [hA a (mem ha) x hx, hA b (mem hb) x (hab ▸ hx), ok_bind, ok_bind, hg, hab]
    · unfold stepHandle TPoly.mul at h
      rw [assert_panic hab] at h; simp at h
  | addScalar i c =>
    simp only [POp.run] at h
    obtain ⟨a, ha, h⟩ := idx_bind_ok h
    obtain ⟨t', e, hn, hk, hg⟩ := newOk_addScalar hI.inv (known ha) c
    rw [stepHandle_ok e] at h
    injection h with h; subst h
    obtain ⟨e1, e2, e3, e4, e5⟩ := TPoly.eff_addScalar a c _ _ _ e
    have hrun : (VOp.addScalar i c : VOp F C B).run debug H vs =
        .ok ⟨vs.st.skip.push (.addScalar a.id c), vs.handles ++ [vs.st.own.idCounter + 1]⟩ := by
      simp only [VOp.run]
      rw [vidx ha, ok_bind]
      exact vstepHandle_ok (addScalar_run _ _ vs.st)
    have hst := vstep_addScalar hV (i := a.id) (c := c) (vk ha)
    refine ⟨_, runVOps_one hrun, ⟨?_, hS.transcript.trans e2.symm, ?_, hS.comms.trans e3.symm, hS.sums.trans (by rw [← e4]), hS.zeros.trans e5.symm⟩, hst.inv, rfl, ?_⟩
    · show vs.st.own.idCounter + 1 + 1 = _
      rw [hS.counter]; exact e1.symm
    · simp [hS.handles, hS.counter]
    · intro Q hQ ans _ _ _ hA
      rw [hS.counter]
      refine joint_new hQ hV hS hst.keep (oldSame_keep hI hk) (fun _ x hx => ?_) hA
      have := evalC_push (ans := ans) (wf_skip hV.wf) (c := .addScalar a.id c) (refs1 (P := fun r => (vs.st.sh.comms.lookup r).isSome = true) (vk ha)) x
      have hcnt : vs.st.skip.own.idCounter = ps.tracker.idCounter + 1 := by show vs.st.own.idCounter + 1 = _; rw [hS.counter]
      rw [hcnt] at this
      show evalC (vs.st.skip.push (.addScalar a.id c)).sh.comms ans (ps.tracker.idCounter + 1 + 1) (ps.tracker.idCounter + 1) x = _
      rw [this, hg, constMle_eval _ _ _ (hQ.len hx)]
      show (do let y ← evalC vs.st.sh.comms ans (a.id + 1) a.id x; Except.ok (y + c)) = _
      rw [hA a (mem ha) x hx, ok_bind]
  | mulScalar i c =>
    simp only [POp.run] at h
    obtain ⟨a, ha, h⟩ := idx_bind_ok h
    obtain ⟨t', e, hn, hk, hg⟩ := newOk_mulScalar hI.inv (known ha) c
    rw [stepHandle_ok e] at h
    injection h with h; subst h
    refine joint_virt hV hS e (TPoly.eff_mulScalar a c) (c := .mulScalar a.id c) (vop := .mulScalar i c) rfl ?_
      (refs1 (P := fun r => (vs.st.sh.comms.lookup r).isSome = true) (vk ha)) fun Q hQ ans _ _ hA => ⟨oldSame_keep hI hk, fun x hx => ?_⟩
    · simp only [VOp.run]
      rw [vidx ha, ok_bind]
      exact vstepHandle_ok (trackVirtual_run _ vs.st)
    · simp only [evalStep]
      rw [hA a (mem ha) x hx, ok_bind, hg]
  | incFront i k =>
    simp only [POp.run] at h
    obtain ⟨a, ha, h⟩ := idx_bind_ok h
    obtain ⟨t', p, q, hr, hp1, hp2, hp3, hq, _, _, hk, _, _, hg, _⟩ := increaseNv_run hI.inv (known ha) increaseNvFront k incFront_ok (incFront_wf k)
    have e : a.incFront k ps.tracker = (.ok ⟨ps.tracker.idCounter, a.numVars + k⟩, t') := by
      unfold TPoly.incFront
      rw [Act.bind_ok hr]; rfl
    rw [stepHandle_ok e] at h
    injection h with h; subst h
    refine joint_virt hV hS e (TPoly.eff_incFront a k) (c := .incFront a.id k) (vop := .incFront i k) rfl ?_
      (refs1 (P := fun r => (vs.st.sh.comms.lookup r).isSome = true) (vk ha)) fun Q hQ ans _ hf hA => ⟨?_, fun x hx => ?_⟩
    · simp only [VOp.run]
      rw [vidx ha, ok_bind]
      exact vstepHandle_ok (trackVirtual_run _ vs.st)
    · obtain ⟨hI1, hp1, _⟩ := matSt_spec hI.inv (known ha)
      intro b hb x hx
      rw [gval_keep hI1 hk (hp1.nv _ _ (hI.known b hb))]
      exact oldSame_matSt hI (mem ha) (hf a ha) b hb x hx
    · simp only [evalStep]
      have hle := hQ.le hx
      rw [if_neg (by omega), hA a (mem ha) _ (hQ.drop hx), hg]
      congr 1
      rw [← matSt_mle hI (mem ha) (hf a ha) hp3 _ (hQ.len (hQ.drop hx))]
      have hxe : (x.drop k).take a.numVars = (x.take (a.numVars + k)).drop k := by rw [List.drop_take, Nat.add_sub_cancel]
      rw [hxe]
      replace hx := hQ.len hx
      generalize x.take (a.numVars + k) = x at hx
      obtain ⟨q', e1, _, _, e4⟩ := increaseNvFront_spec p k
      rw [hp2, hq] at e1; injection e1 with e1; subst e1
      conv_rhs => rw [← List.take_append_drop k x]
      symm
      apply mle_append_ignore_front
      intro i' j' hj' hi'
      rw [List.length_take, Nat.min_eq_left (by omega)] at hj' ⊢
      rw [List.length_drop] at hi'
      exact e4 i' j' (by rw [hp2]; simpa [hx] using hi') hj'
  | incBack i k =>
    simp only [POp.run] at h
    obtain ⟨a, ha, h⟩ := idx_bind_ok h
    obtain ⟨t', p, q, hr, hp1, hp2, hp3, hq, _, _, hk, _, _, hg, _⟩ := increaseNv_run hI.inv (known ha) increaseNvBack k incBack_ok (incBack_wf k)
    have e : a.incBack k ps.tracker = (.ok ⟨ps.tracker.idCounter, a.numVars + k⟩, t') := by
      unfold TPoly.incBack
      rw [Act.bind_ok hr]; rfl
    rw [stepHandle_ok e] at h
    injection h with h; subst h
    refine joint_virt hV hS e (TPoly.eff_incBack a k) (c := .incBack a.id k) (vop := .incBack i k) rfl ?_
      (refs1 (P := fun r => (vs.st.sh.comms.lookup r).isSome = true) (vk ha)) fun Q hQ ans _ hf hA => ⟨?_, fun x hx => ?_⟩
    · simp only [VOp.run]
      rw [vidx ha, ok_bind]
      exact vstepHandle_ok (trackVirtual_run _ vs.st)
    · obtain ⟨hI1, hp1, _⟩ := matSt_spec hI.inv (known ha)
      intro b hb x hx
      rw [gval_keep hI1 hk (hp1.nv _ _ (hI.known b hb))]
      exact oldSame_matSt hI (mem ha) (hf a ha).1 b hb x hx
    · obtain ⟨hf1, hf2⟩ := hf a ha
      subst hf2
      have hle := hQ.le hx
      have hxt := hQ.take hx
      have hlen : (x.take a.numVars).length = a.numVars := by rw [List.length_take]; omega
      simp only [evalStep]
      rw [if_neg (by omega), hA a (mem ha) _ hxt, hg, List.take_take, Nat.min_self]
      congr 1
      rw [← matSt_mle hI (mem ha) hf1 hp3 _ hlen]
      have hxe : x.take a.numVars = (x.take (a.numVars + a.numVars)).take a.numVars := by rw [List.take_take, Nat.min_eq_left (by omega)]
      rw [hxe] at hlen ⊢
      replace hx := hQ.len hx
      clear hxe hxt hle
      generalize x.take (a.numVars + a.numVars) = x at hx hlen
      obtain ⟨q', e1, _, _, e4⟩ := increaseNvBack_spec p a.numVars
      rw [hp2, hq] at e1; injection e1 with e1; subst e1
      rw [hp2] at e4
      conv_rhs => rw [← List.take_append_drop a.numVars x]
      rw [mle_append_ignore_back]
      · apply mle_congr
        intro b hb
        rw [hlen] at hb
        rw [e4 b (lt_of_lt_of_le hb (Nat.pow_le_pow_right (by norm_num) (by omega))), Nat.mod_eq_of_lt hb]
      · intro i' j' hj' hi'
        rw [hlen] at hj' ⊢
        rw [List.length_drop, hx, Nat.add_sub_cancel] at hi'
        have h1 : i' * 2 ^ a.numVars + j' < 2 ^ (a.numVars + a.numVars) := by
          rw [pow_add]; nlinarith
        have h2 : j' < 2 ^ (a.numVars + a.numVars) := lt_of_lt_of_le hj' (Nat.pow_le_pow_right (by norm_num) (by omega))
        rw [e4 _ h1, e4 _ h2, Nat.add_comm, Nat.add_mul_mod_self_right]
  | evaluations i =>
    simp only [POp.run] at h
    obtain ⟨a, ha, h⟩ := idx_bind_ok h
    have e : a.evaluations ps.tracker = _ := evaluations_run hI.inv (known ha)
    rw [stepOther_ok e] at h
    injection h with h; subst h
    obtain ⟨e1, e2, e3, e4, e5⟩ := TPoly.eff_evaluations a _ _ _ e
    exact joint_other hV hS (own' := vs.st.own) rfl rfl rfl rfl e1 e3 (hS.transcript.trans e2.symm) (hS.sums.trans (by rw [← e4])) (hS.zeros.trans e5.symm)
      fun hf => oldSame_matSt hI (mem ha) (hf a ha)
  | challenge label =>
    simp only [POp.run] at h
    rcases hc : ps.tracker.transcript.challenge H label with er | ⟨c, tr⟩
    · have e : PTracker.challenge H label ps.tracker = (.error er, ps.tracker) := by unfold PTracker.challenge; rw [hc]
      unfold stepOther at h
      rw [e] at h
      rcases er with er | _
      · simp only at h
        injection h with h; subst h
        refine joint_other (t' := ps.tracker) hV hS (own' := vs.st.own) ?_ rfl rfl rfl rfl rfl hS.transcript hS.sums hS.zeros fun _ _ _ _ _ => rfl
        refine runVOps_one ?_
        simp only [VOp.run, vstepOther, VSt.challenge]
        rw [hS.transcript, hc]
      · simp at h
    · have e : PTracker.challenge H label ps.tracker = (.ok c, { ps.tracker with transcript := tr }) := by
        unfold PTracker.challenge; rw [hc]
      rw [stepOther_ok e] at h
      injection h with h; subst h
      refine joint_other hV hS (own' := { vs.st.own with transcript := tr }) ?_ rfl rfl rfl rfl rfl rfl hS.sums hS.zeros fun _ => oldSame_triv rfl rfl
      refine runVOps_one ?_
      simp only [VOp.run, vstepOther, VSt.challenge]
      rw [hS.transcript, hc]
  | append label d =>
    simp only [POp.run] at h
    rw [stepOther_ok (h := ()) (t' := { ps.tracker with transcript := ps.tracker.transcript.append label d }) rfl] at h
    injection h with h; subst h
    refine joint_other hV hS (own' := { vs.st.own with transcript := vs.st.own.transcript.append label d }) ?_ rfl rfl rfl rfl rfl ?_ hS.sums hS.zeros
      fun _ => oldSame_triv rfl rfl
    · refine runVOps_one ?_
      simp only [VOp.run]
      rw [VSt.append, vstepOther_modify]
    · show vs.st.own.transcript.append label d = ps.tracker.transcript.append label d
      rw [hS.transcript]
  | sumClaim i v =>
    simp only [POp.run] at h
    obtain ⟨a, ha, h⟩ := idx_bind_ok h
    rw [stepOther_ok (h := ()) (t' := { ps.tracker with sumClaims := ps.tracker.sumClaims ++ [(a.id, v)] }) rfl] at h
    injection h with h; subst h
    obtain ⟨s, hs⟩ := hcov.2 (a.id, v) (by simp)
    refine joint_other hV hS (own' := { vs.st.own with sumClaims := vs.st.own.sumClaims ++ [(a.id, s)] }) ?_ rfl rfl rfl rfl rfl hS.transcript ?_ hS.zeros
      fun _ => oldSame_triv rfl rfl
    · refine runVOps_one ?_
      simp only [VOp.run]
      rw [vidx ha, ok_bind]
      unfold vstepOther
      rw [Act.bind_ok (a := s) (s' := vs.st) (by simp only [claimedSum, Act.reads_run]; rw [hs]; rfl)]
      rfl
    · simp [hS.sums]
  | zeroClaim i =>
    simp only [POp.run] at h
    obtain ⟨a, ha, h⟩ := idx_bind_ok h
    rw [stepOther_ok (h := ()) (t' := { ps.tracker with zeroClaims := ps.tracker.zeroClaims ++ [a.id] }) rfl] at h
    injection h with h; subst h
    refine joint_other hV hS (own' := { vs.st.own with zeroClaims := vs.st.own.zeroClaims ++ [a.id] }) ?_ rfl rfl rfl rfl rfl hS.transcript hS.sums ?_
      fun _ => oldSame_triv rfl rfl
    · refine runVOps_one ?_
      simp only [VOp.run]
      rw [vidx ha, ok_bind, VSt.addZeroClaim, vstepOther_modify]
    · simp [hS.zeros]

theorem Effect.covers {vs : VState F C B} {ps'' : PState F C} (he : (∀ id c, ps'.tracker.comms.lookup id = some c → ps''.tracker.comms.lookup id = some c) ∧
    (∀ e ∈ ps'.tracker.sumClaims, e ∈ ps''.tracker.sumClaims)) (h : ProofCovers vs ps'') : ProofCovers vs ps' :=
  ⟨fun id c hc => h.1 id c (he.1 id c hc), fun e hm => h.2 e (he.2 e hm)⟩

theorem truthful_mono {Q : Nat → List F → Prop} {ans : Nat → List F → Res F} (hI : StInv commit ps) (hp : Pres ps.tracker ps'.tracker)
    (hc : ∀ id c, ps.tracker.comms.lookup id = some c → ps'.tracker.comms.lookup id = some c) (h : TruthfulAt Q ans ps') : TruthfulAt Q ans ps := by
  intro id c hl nv x y hx hy
  refine h id c (hc id c hl) nv x y hx ?_
  obtain ⟨a, ha, _⟩ := hI.inv.commOk id c hl
  rw [← hy]
  simp only [PTracker.evaluate, ha, hp.mats id a ha]

theorem joint_run (hI : StInv commit ps) (hV : VInv vs) (hS : InStep ps vs) (ops : List (POp F C)) (hc : CommitsOk commit ops)
    (h : runOps commit H ps ops = .ok ps') (hcov : ProofCovers vs ps') :
    ∃ vs', runVOps debug H vs (mirrorOps pub ops) = .ok vs' ∧ InStep ps' vs' ∧ VInv vs' ∧ vs'.st.own.proof = vs.st.own.proof ∧
      ∀ Q : Nat → List F → Prop, Points Q → ∀ ans, PubAt Q pub → TruthfulAt Q ans ps' → FaithfulRun commit H ps ops → Agree Q ans ps vs → Agree Q ans ps' vs' := by
  induction ops generalizing ps vs with
  | nil =>
    simp only [runOps, List.foldlM_nil] at h
    injection h with h; subst h
    exact ⟨vs, rfl, hS, hV, rfl, fun _ _ _ _ _ _ h => h⟩
  | cons op ops ih =>
    obtain ⟨s1, h1, h2⟩ := runOps_cons h
    have hs := run_stepOk hI op h1
    have he := runOps_effect hs.inv ops h2
    obtain ⟨v1, r1, i1, w1, p1, a1⟩ := joint_step (debug := debug) (pub := pub) hI hV hS op
      (fun p wf e => hc p wf (by rw [e]; exact List.mem_cons_self)) h1 (Effect.covers ⟨he.1, he.2.1⟩ hcov)
    have hcov1 : ProofCovers v1 ps' := by
      unfold ProofCovers
      rw [p1]; exact hcov
    obtain ⟨v2, r2, i2, w2, p2, a2⟩ := ih hs.inv w1 i1 (fun p wf hm => hc p wf (List.mem_cons_of_mem _ hm)) h2 hcov1
    refine ⟨v2, ?_, i2, w2, p2.trans p1, fun Q hQ ans hp ht hf hA => a2 Q hQ ans hp ht (hf.2 s1 h1) (a1 Q hQ ans hp ?_ hf.1 hA)⟩
    · have e : mirrorOps pub (op :: ops) = (mirror pub op).toList ++ (mirrorOps pub ops : List (VOp F C B)) := by
        unfold mirrorOps
        rcases hm : (mirror pub op : Option (VOp F C B)) with _ | o
        · rw [List.filterMap_cons_none hm]; rfl
        · rw [List.filterMap_cons_some hm]; rfl
      rw [e]
      unfold runVOps at r1 r2 ⊢
      rw [List.foldlM_append, r1, ok_bind]
      exact r2
    · exact truthful_mono hs.inv (runOps_stepOk hs.inv ops h2).pres he.1 ht

/-- A fresh verifier given a proof. -/
def VState.withProof (p : CompiledProof F C B) : VState F C B := ⟨⟨{ (VSt.new : VSt F C B).own with proof := p }, (VSt.new : VSt F C B).sh⟩, []⟩

theorem withProof_run (p : CompiledProof F C B) : (VOp.setProof p).run debug H (VState.init : VState F C B) = .ok (VState.withProof p) := rfl

theorem withProof_inStep (p : CompiledProof F C B) : InStep (PState.init : PState F C) (VState.withProof p) := ⟨rfl, rfl, rfl, rfl, rfl, rfl⟩

theorem withProof_inv (p : CompiledProof F C B) : VInv (VState.withProof p) := (vrun_stepOk (debug := true) (H := fun _ _ => 0) vinv_init _ (withProof_run p)).inv

/-- The whole joint history. -/
theorem joint_all (p : CompiledProof F C B) (ops : List (POp F C)) (hc : CommitsOk commit ops)
    (h : runOps commit H PState.init ops = .ok ps') (hcov : ProofCovers (VState.withProof p) ps') :
    ∃ vs', runVOps debug H VState.init (.setProof p :: mirrorOps pub ops) = .ok vs' ∧ InStep ps' vs' ∧ VInv vs' ∧ vs'.st.own.proof = p ∧
      ∀ Q : Nat → List F → Prop, Points Q → ∀ ans, PubAt Q pub → TruthfulAt Q ans ps' → FaithfulRun commit H PState.init ops → Agree Q ans ps' vs' := by
  obtain ⟨v2, r2, i2, w2, p2, a2⟩ := joint_run (debug := debug) (pub := pub) stInv_init (withProof_inv p) (withProof_inStep p) ops hc h hcov
  refine ⟨v2, ?_, i2, w2, p2, fun Q hQ ans hp ht hf => a2 Q hQ ans hp ht hf (by intro h hh; simp [PState.init] at hh)⟩
  unfold runVOps at r2 ⊢
  rw [List.foldlM_cons, withProof_run, ok_bind]
  exact r2

end Zksql
