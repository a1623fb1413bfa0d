import Verif.Lemmas.Sound
/-! Verifier states reached by a history of calls are well formed. -/
set_option linter.unusedSectionVars false
namespace Zksql
open Spec VSt
variable {F C B : Type} [Field F] [DecidableEq F] {vs vs' : VState F C B}

theorem sane_new : Sane (VSt.new : VSt F C B) :=
  ⟨⟨fun _ _ h => by simp [VSt.new] at h, fun _ _ h => by simp [VSt.new] at h⟩, fun _ _ h => by simp [VSt.new] at h, fun _ _ h => by simp [VSt.new] at h,
    fun _ _ h => by simp [VSt.new] at h, fun _ h => by simp [VSt.new] at h, fun _ h => by simp [VSt.new] at h⟩

theorem sane_own (hs : Sane vs.st) {own' : VTracker F C B} {q' : List ((Nat × List F) × F)} (h1 : own'.idCounter = vs.st.own.idCounter)
    (h2 : own'.matComms = vs.st.own.matComms) (h3 : own'.sumClaims = vs.st.own.sumClaims) (h4 : own'.zeroClaims = vs.st.own.zeroClaims)
    (h5 : vs.st.own.transcript.events <+: own'.transcript.events) : Sane (⟨own', ⟨vs.st.sh.comms, q'⟩⟩ : VSt F C B) := by
  refine ⟨⟨hs.wf.refs, fun id c h => by show id < own'.idCounter; rw [h1]; exact hs.wf.lt id c h⟩, fun h i hl => ?_, fun i c h => ?_, fun i c h => ?_,
    fun c h => ?_, fun c h => ?_⟩
  · show (own'.matComms.lookup i).isSome; rw [h2]; exact hs.queries h i hl
  · show i < own'.idCounter; rw [h1]; exact hs.mats i c (by rw [← h2]; exact h)
  · exact h5.subset (hs.absorbed i c (by rw [← h2]; exact h))
  · exact hs.sums c (by rw [← h3]; exact h)
  · exact hs.zeros c (by rw [← h4]; exact h)

theorem vrun_sane {debug : Bool} {H : Oracle F C} (hI : VInv vs) (hs : Sane vs.st) (op : VOp F C B) (h : op.run debug H vs = .ok vs') : Sane vs'.st := by
  have mem : ∀ {i a : Nat}, vs.handles[i]? = some a → Known vs.st a := fun {i a} e => hI.known a (List.mem_of_getElem? e)
  have tr : ∀ id, vstepHandle vs (transferComm debug id) = .ok vs' → Sane vs'.st := by
    intro id h
    unfold vstepHandle at h
    rcases hr : transferComm debug id vs.st with ⟨(e | _) | n, s'⟩
    · exact absurd hr transferComm_noerr
    · rw [hr] at h; simp at h
    · rw [hr] at h
      obtain rfl := Except.ok.inj h
      obtain ⟨c, _, rfl, rfl⟩ := transferComm_inv hr
      exact (quiet_pushMat hs c).sane
  cases op with
  | trackComm c =>
    simp only [VOp.run] at h
    rw [vstepHandle_ok (trackMatComm_run c vs.st)] at h
    obtain rfl := Except.ok.inj h
    exact (quiet_pushMat hs c).sane
  | transfer id => exact tr id h
  | transferNext => exact tr vs.st.own.idCounter h
  | virt f =>
    simp only [VOp.run] at h
    rw [vstepHandle_ok (trackVirtual_run _ vs.st)] at h
    obtain rfl := Except.ok.inj h
    exact (quiet_push (c := .fn f) hs (by simp [VComm.refs]) nofun).sane
  | add i j =>
    simp only [VOp.run] at h
    obtain ⟨a, ha, h⟩ := idx_bind_ok h
    obtain ⟨b, hb, h⟩ := idx_bind_ok h
    rw [addComms, vstepHandle_ok (trackVirtual_run _ vs.st)] at h
    obtain rfl := Except.ok.inj h
    exact (quiet_push (c := .add a b) hs (refs2 (mem ha) (mem hb)) nofun).sane
  | sub i j =>
    simp only [VOp.run] at h
    obtain ⟨a, ha, h⟩ := idx_bind_ok h
    obtain ⟨b, hb, h⟩ := idx_bind_ok h
    rw [subComms, vstepHandle_ok (trackVirtual_run _ vs.st)] at h
    obtain rfl := Except.ok.inj h
    exact (quiet_push (c := .sub a b) hs (refs2 (mem ha) (mem hb)) nofun).sane
  | mul i j =>
    simp only [VOp.run] at h
    obtain ⟨a, ha, h⟩ := idx_bind_ok h
    obtain ⟨b, hb, h⟩ := idx_bind_ok h
    rw [mulComms, vstepHandle_ok (trackVirtual_run _ vs.st)] at h
    obtain rfl := Except.ok.inj h
    exact (quiet_push (c := .mul a b) hs (refs2 (mem ha) (mem hb)) nofun).sane
  | addScalar i c =>
    simp only [VOp.run] at h
    obtain ⟨a, ha, h⟩ := idx_bind_ok h
    rw [vstepHandle_ok (addScalar_run _ _ vs.st)] at h
    obtain rfl := Except.ok.inj h
    have q := quiet_skip hs
    exact (quiet_push (c := .addScalar a c) q.sane (refs1 (P := fun r => Known vs.st.skip r) (q.known (mem ha))) nofun).sane
  | mulScalar i c =>
    simp only [VOp.run] at h
    obtain ⟨a, ha, h⟩ := idx_bind_ok h
    rw [VSt.mulScalar, vstepHandle_ok (trackVirtual_run _ vs.st)] at h
    obtain rfl := Except.ok.inj h
    exact (quiet_push (c := .mulScalar a c) hs (refs1 (mem ha)) nofun).sane
  | incFront i k =>
    simp only [VOp.run] at h
    obtain ⟨a, ha, h⟩ := idx_bind_ok h
    rw [VSt.incFront, vstepHandle_ok (trackVirtual_run _ vs.st)] at h
    obtain rfl := Except.ok.inj h
    exact (quiet_push (c := .incFront a k) hs (refs1 (mem ha)) nofun).sane
  | incBack i k =>
    simp only [VOp.run] at h
    obtain ⟨a, ha, h⟩ := idx_bind_ok h
    rw [VSt.incBack, vstepHandle_ok (trackVirtual_run _ vs.st)] at h
    obtain rfl := Except.ok.inj h
    exact (quiet_push (c := .incBack a k) hs (refs1 (mem ha)) nofun).sane
  | setProof p =>
    simp only [VOp.run] at h
    rw [vstepOther_ok (h := ()) (s' := { vs.st with own := { vs.st.own with proof := p } }) rfl] at h
    obtain rfl := Except.ok.inj h
    exact sane_own hs rfl rfl rfl rfl (List.prefix_refl _)
  | transferEvals =>
    simp only [VOp.run] at h
    rw [transferEvals, vstepOther_modify] at h
    obtain rfl := Except.ok.inj h
    exact sane_own hs rfl rfl rfl rfl (List.prefix_refl _)
  | challenge label =>
    simp only [VOp.run, vstepOther] at h
    rcases hc : VSt.challenge H label vs.st with ⟨e | c, s1⟩
    · rw [hc] at h
      unfold VSt.challenge at hc
      cases e with
      | panic => simp at h
      | err e =>
        simp only at h
        obtain rfl := Except.ok.inj h
        rcases ht : vs.st.own.transcript.challenge H label with e | ⟨c, tr⟩
        · rw [ht] at hc
          obtain ⟨-, rfl⟩ := Prod.mk.inj hc
          exact hs
        · rw [ht] at hc
          simp at hc
    · rw [hc] at h
      simp only at h
      obtain rfl := Except.ok.inj h
      have e : (VSt.challenge (B := B) (Env.H ⟨fun _ => .error .panic, H, debug, fun _ => 0⟩) label >>= fun _ => pure ()) vs.st = (.ok (), s1) := by
        rw [Act.bind_ok hc]; rfl
      obtain ⟨s2, e2, l2, -⟩ := run_challenge e hs
      obtain ⟨-, rfl⟩ := Prod.mk.inj e2
      exact l2.sane
  | append label d =>
    simp only [VOp.run] at h
    rw [VSt.append, vstepOther_modify] at h
    obtain rfl := Except.ok.inj h
    exact sane_own hs rfl rfl rfl rfl (List.prefix_append _ _)
  | sumClaim i v =>
    simp only [VOp.run] at h
    obtain ⟨a, ha, h⟩ := idx_bind_ok h
    rw [VSt.addSumClaim, vstepOther_modify] at h
    obtain rfl := Except.ok.inj h
    exact (quiet_sumClaim hs (mem ha)).sane
  | proverSum i =>
    simp only [VOp.run] at h
    obtain ⟨a, ha, h⟩ := idx_bind_ok h
    unfold vstepOther at h
    rcases hr : (claimedSum a >>= addSumClaim a) vs.st with ⟨(e | _) | n, s'⟩
    · exfalso
      rcases hl : vs.st.own.proof.sumcheckClaims.lookup a with _ | v
      · rw [Act.bind_error (e := .panic) (s' := vs.st) (by simp [claimedSum, hl])] at hr
        simp at hr
      · rw [Act.bind_ok (a := v) (s' := vs.st) (by simp [claimedSum, hl])] at hr
        simp [VSt.addSumClaim, Act.modify] at hr
    · rw [hr] at h; simp at h
    · rw [hr] at h
      obtain rfl := Except.ok.inj h
      obtain ⟨v, e, -⟩ := run_claimedSum hr
      obtain ⟨-, rfl⟩ := Prod.mk.inj e
      exact (quiet_sumClaim hs (mem ha)).sane
  | zeroClaim i =>
    simp only [VOp.run] at h
    obtain ⟨a, ha, h⟩ := idx_bind_ok h
    rw [VSt.addZeroClaim, vstepOther_modify] at h
    obtain rfl := Except.ok.inj h
    exact (quiet_zeroClaim hs (mem ha)).sane

/-- Every reachable state is well formed. -/
theorem Spec.VReachable.sane {debug : Bool} {H : Oracle F C} (h : VReachable debug H vs) : Sane vs.st := by
  obtain ⟨ops, h⟩ := h
  suffices ∀ v0 : VState F C B, VInv v0 → Sane v0.st → runVOps debug H v0 ops = .ok vs → Sane vs.st from
    this _ (Spec.VReachable.inv (debug := debug) (H := H) ⟨[], rfl⟩) sane_new h
  clear h
  induction ops with
  | nil => intro v0 _ hs h; obtain rfl := Except.ok.inj h; exact hs
  | cons op ops ih =>
    intro v0 hI hs h
    simp only [runVOps, List.foldlM_cons] at h
    rcases hr : op.run debug H v0 with e | v1
    · rw [hr] at h; simp [bind, Except.bind] at h
    · rw [hr] at h
      exact ih v1 (vrun_stepOk hI op hr).inv (vrun_sane hI hs op hr) h

end Zksql
