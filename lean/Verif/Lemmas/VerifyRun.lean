import Verif.Lemmas.CompileRun
import Verif.Lemmas.VerifierClaims
import Verif.Lemmas.Joint2
/-!
What `verify_claims` does.
-/
set_option linter.unusedSectionVars false
namespace Zksql
open Spec
variable {F C B : Type} [Field F] [DecidableEq F]

/-! ### Batch verification and the commitments -/

theorem gPrimeCommit_swap {E : Curve F} (a2 eqT : List F) (comms comms' : List E.G1) (h : comms'.length = comms.length) (points : List (List F)) {c : E.G1}
    (hc : gPrimeCommit a2 eqT comms points = .ok c) : ∃ c', gPrimeCommit a2 eqT comms' points = .ok c' := by
  unfold gPrimeCommit at hc ⊢
  have key : ∀ (l : List (List F × Nat)) (ts : List E.G1), (l.mapM fun pi => do
      let e ← eqEval a2 pi.1
      let w ← idx eqT pi.2
      let c ← idx comms pi.2
      Except.ok ((e * w) • c)) = .ok ts → ∃ ts', (l.mapM fun pi => do
      let e ← eqEval a2 pi.1
      let w ← idx eqT pi.2
      let c ← idx comms' pi.2
      Except.ok ((e * w) • c)) = Except.ok ts' := by
    intro l
    induction l with
    | nil => intro _ _; exact ⟨[], rfl⟩
    | cons x l ih =>
      intro ts hts
      rw [List.mapM_cons] at hts ⊢
      rcases he : eqEval a2 x.1 with e | e
      · rw [he] at hts; simp at hts
      rcases hw : idx eqT x.2 with e' | w
      · rw [he, ok_bind, hw] at hts; simp at hts
      rcases hx : idx comms x.2 with e' | cc
      · rw [he, ok_bind, hw, ok_bind, hx] at hts; simp at hts
      have hx' : ∃ cc', idx comms' x.2 = .ok cc' := by
        unfold idx at hx ⊢
        rcases hg : comms[x.2]? with _ | y
        · rw [hg] at hx; simp at hx
        · have : x.2 < comms'.length := by rw [h]; exact (List.getElem?_eq_some_iff.1 hg).1
          exact ⟨comms'[x.2], by rw [List.getElem?_eq_getElem this]; rfl⟩
      obtain ⟨cc', hx'⟩ := hx'
      rw [he, ok_bind, hw, ok_bind, hx, ok_bind, ok_bind] at hts
      rw [hx']
      simp only [ok_bind]
      rcases hr : (l.mapM fun pi => do
        let e ← eqEval a2 pi.1
        let w ← idx eqT pi.2
        let c ← idx comms pi.2
        Except.ok ((e * w) • c)) with e' | ts1
      · rw [hr] at hts; simp at hts
      · obtain ⟨ts2, h2⟩ := ih ts1 hr
        rw [h2, ok_bind]
        exact ⟨_, rfl⟩
  rcases hr : (points.zipIdx.mapM fun pi => do
      let e ← eqEval a2 pi.1
      let w ← idx eqT pi.2
      let c ← idx comms pi.2
      Except.ok ((e * w) • c)) with e' | ts1
  · rw [hr] at hc; simp at hc
  · obtain ⟨ts2, h2⟩ := key _ ts1 hr
    rw [h2, ok_bind]
    exact ⟨_, rfl⟩

/-- Whether batch verification returns at all does not depend on the commitments, only on how many there are. -/
theorem batchVerify_swap {E : Curve F} (H : Oracle F E.G1) (vp : VerifierParam E) (comms comms' : List E.G1) (h : comms'.length = comms.length)
    (points : List (List F)) (proof : BatchProof E) (tr tr' : Transcript F E.G1) (b : Bool) (hv : batchVerify H vp comms points proof tr = .ok (b, tr')) :
    ∃ b', batchVerify H vp comms' points proof tr = .ok (b', tr') := by
  unfold batchVerify at hv ⊢
  simp only [h] at hv ⊢
  rcases h1 : tr.challenges H "t" (log2Ceil comms.length) with e | ⟨t, tr1⟩
  · rw [h1] at hv; simp at hv
  rw [h1, ok_bind] at hv
  simp only [ok_bind] at hv ⊢
  rcases h2 : buildEqVec t with e | eqT
  · rw [h2] at hv; simp at hv
  rw [h2, ok_bind] at hv
  rw [ok_bind]
  rcases h3 : gPrimeCommit proof.sumCheckProof.point eqT comms points with e | gc
  · rw [h3] at hv; simp at hv
  rw [h3, ok_bind] at hv
  obtain ⟨gc', h3'⟩ := gPrimeCommit_swap _ _ _ comms' h _ h3
  rw [h3', ok_bind]
  rcases h4 : ((eqT.take comms.length).zipIdx.mapM fun ei => do
    let v ← idx proof.evals ei.2
    Except.ok (ei.1 * v)) with e | terms
  · rw [h4] at hv; simp at hv
  rw [h4, ok_bind] at hv
  rw [h4, ok_bind]
  rcases h5 : wrapSumcheck (sumcheckVerify H terms.sum proof.sumCheckProof 2 proof.sumCheckProof.point.length tr1) with e | ⟨sub, tr2⟩
  · rw [h5] at hv; simp at hv
  rw [h5, ok_bind] at hv
  simp only [ok_bind] at hv ⊢
  unfold kzgVerify at hv ⊢
  split at hv
  · simp at hv
  · rename_i hlt
    rw [if_neg hlt]
    dsimp only at hv ⊢
    rcases h6 : ((List.range proof.sumCheckProof.point.length).mapM fun i => do
      let hm ← idx vp.hMask (vp.numVars - proof.sumCheckProof.point.length + i)
      let p ← idx proof.sumCheckProof.point i
      Except.ok (hm - p • vp.h)) with e | hVec
    · rw [h6] at hv; simp at hv
    · rw [h6] at hv
      rw [h6]
      simp only [ok_bind] at hv ⊢
      injection hv with hv
      injection hv with _ hv
      subst hv
      exact ⟨_, rfl⟩

/-! ### Claims read from the proof -/

/-- Every recorded sum was read from the proof. -/
def SumsRead (vs : VState F C B) : Prop := ∀ c ∈ vs.st.own.sumClaims, vs.st.own.proof.sumcheckClaims.lookup c.1 = some c.2

/-- Calls that neither record a sum of their own nor replace the proof. -/
def Reading (op : VOp F C B) : Prop := (∀ p, op ≠ .setProof p) ∧ ∀ i v, op ≠ .sumClaim i v

theorem mirror_reading (pub : Mle F → List F → Res F) (op : POp F C) (o : VOp F C B) (h : mirror pub op = some o) : Reading o := by
  cases op <;> simp only [mirror, Option.some.injEq, reduceCtorEq] at h <;> subst h <;> exact ⟨fun _ => by simp, fun _ _ => by simp⟩

theorem mirrorOps_reading (pub : Mle F → List F → Res F) (ops : List (POp F C)) : ∀ o ∈ (mirrorOps pub ops : List (VOp F C B)), Reading o := by
  intro o ho
  obtain ⟨op, _, h⟩ := List.mem_filterMap.1 ho
  exact mirror_reading pub op o h

variable {vs vs' : VState F C B}

theorem vrun_sums {debug : Bool} {H : Oracle F C} (op : VOp F C B) (hop : Reading op) (hI : SumsRead vs) (h : op.run debug H vs = .ok vs') :
    SumsRead vs' ∧ vs'.st.own.proof = vs.st.own.proof := by
  have tr : ∀ id, vstepHandle vs (VSt.transferComm debug id) = .ok vs' → SumsRead vs' ∧ vs'.st.own.proof = vs.st.own.proof := by
    intro id h
    unfold vstepHandle at h
    rcases hr : VSt.transferComm debug id vs.st with ⟨(e | _) | n, s'⟩
    · exact absurd hr transferComm_noerr
    · rw [hr] at h; simp at h
    · rw [hr] at h
      injection h with h; subst h
      obtain ⟨c, _, rfl, rfl⟩ := transferComm_inv hr
      exact ⟨hI, rfl⟩
  cases op with
  | trackComm c =>
    simp only [VOp.run] at h
    rw [vstepHandle_ok (VSt.trackMatComm_run c vs.st)] at h
    injection h with h; subst h
    exact ⟨hI, rfl⟩
  | transfer id => exact tr id h
  | transferNext => exact tr vs.st.own.idCounter h
  | virt f =>
    simp only [VOp.run] at h
    rw [vstepHandle_ok (VSt.trackVirtual_run _ vs.st)] at h
    injection h with h; subst h
    exact ⟨hI, rfl⟩
  | add i j =>
    simp only [VOp.run] at h
    obtain ⟨a, ha, h⟩ := idx_bind_ok h
    obtain ⟨b, hb, h⟩ := idx_bind_ok h
    rw [VSt.addComms, vstepHandle_ok (VSt.trackVirtual_run _ vs.st)] at h
    injection h with h; subst h
    exact ⟨hI, rfl⟩
  | sub i j =>
    simp only [VOp.run] at h
    obtain ⟨a, ha, h⟩ := idx_bind_ok h
    obtain ⟨b, hb, h⟩ := idx_bind_ok h
    rw [VSt.subComms, vstepHandle_ok (VSt.trackVirtual_run _ vs.st)] at h
    injection h with h; subst h
    exact ⟨hI, rfl⟩
  | mul i j =>
    simp only [VOp.run] at h
    obtain ⟨a, ha, h⟩ := idx_bind_ok h
    obtain ⟨b, hb, h⟩ := idx_bind_ok h
    rw [VSt.mulComms, vstepHandle_ok (VSt.trackVirtual_run _ vs.st)] at h
    injection h with h; subst h
    exact ⟨hI, rfl⟩
  | addScalar i c =>
    simp only [VOp.run] at h
    obtain ⟨a, ha, h⟩ := idx_bind_ok h
    rw [vstepHandle_ok (VSt.addScalar_run _ _ vs.st)] at h
    injection h with h; subst h
    exact ⟨hI, rfl⟩
  | mulScalar i c =>
    simp only [VOp.run] at h
    obtain ⟨a, ha, h⟩ := idx_bind_ok h
    rw [VSt.mulScalar, vstepHandle_ok (VSt.trackVirtual_run _ vs.st)] at h
    injection h with h; subst h
    exact ⟨hI, rfl⟩
  | incFront i k =>
    simp only [VOp.run] at h
    obtain ⟨a, ha, h⟩ := idx_bind_ok h
    rw [VSt.incFront, vstepHandle_ok (VSt.trackVirtual_run _ vs.st)] at h
    injection h with h; subst h
    exact ⟨hI, rfl⟩
  | incBack i k =>
    simp only [VOp.run] at h
    obtain ⟨a, ha, h⟩ := idx_bind_ok h
    rw [VSt.incBack, vstepHandle_ok (VSt.trackVirtual_run _ vs.st)] at h
    injection h with h; subst h
    exact ⟨hI, rfl⟩
  | setProof p => exact absurd rfl (hop.1 p)
  | transferEvals =>
    simp only [VOp.run] at h
    rw [VSt.transferEvals, vstepOther_modify] at h
    injection h with h; subst h
    exact ⟨hI, rfl⟩
  | challenge label =>
    simp only [VOp.run, vstepOther, VSt.challenge] at h
    rcases hc : vs.st.own.transcript.challenge H label with e | ⟨c, tr⟩
    · rw [hc] at h
      cases e with
      | panic => simp at h
      | err e =>
        simp only at h
        injection h with h; subst h
        exact ⟨hI, rfl⟩
    · rw [hc] at h
      simp only at h
      injection h with h; subst h
      exact ⟨hI, rfl⟩
  | append label d =>
    simp only [VOp.run] at h
    rw [VSt.append, vstepOther_modify] at h
    injection h with h; subst h
    exact ⟨hI, rfl⟩
  | sumClaim i v => exact absurd rfl (hop.2 i v)
  | proverSum i =>
    simp only [VOp.run] at h
    obtain ⟨a, ha, h⟩ := idx_bind_ok h
    unfold vstepOther at h
    rcases hl : vs.st.own.proof.sumcheckClaims.lookup a with _ | v
    · rw [Act.bind_error (e := .panic) (s' := vs.st) (by simp [VSt.claimedSum, hl])] at h
      simp at h
    · rw [Act.bind_ok (a := v) (s' := vs.st) (by simp [VSt.claimedSum, hl])] at h
      have : VSt.addSumClaim a v vs.st = (.ok (), { vs.st with own := { vs.st.own with sumClaims := vs.st.own.sumClaims ++ [(a, v)] } }) := rfl
      rw [this] at h
      injection h with h; subst h
      refine ⟨?_, rfl⟩
      intro c hc
      rcases List.mem_append.1 hc with hc | hc
      · exact hI c hc
      · obtain rfl : c = _ := by simpa using hc
        exact hl
  | zeroClaim i =>
    simp only [VOp.run] at h
    obtain ⟨a, ha, h⟩ := idx_bind_ok h
    rw [VSt.addZeroClaim, vstepOther_modify] at h
    injection h with h; subst h
    exact ⟨hI, rfl⟩

theorem runVOps_sums {debug : Bool} {H : Oracle F C} (ops : List (VOp F C B)) (hops : ∀ o ∈ ops, Reading o) (hI : SumsRead vs)
    (h : runVOps debug H vs ops = .ok vs') : SumsRead vs' := by
  induction ops generalizing vs with
  | nil =>
    simp only [runVOps, List.foldlM_nil] at h
    injection h with h; subst h
    exact hI
  | cons op ops ih =>
    simp only [runVOps, List.foldlM_cons] at h
    rcases hr : op.run debug H vs with e | s1
    · rw [hr] at h; simp at h
    · rw [hr, ok_bind] at h
      exact ih (fun o ho => hops o (List.mem_cons_of_mem _ ho)) (vrun_sums op (hops op List.mem_cons_self) hI hr).1 h

/-! ### Verification -/

/-- The verdict, once the claims are folded: the sumcheck on the folded sum must verify, the commitments must be there, and batch verification must
return something. -/
theorem verifyClaims_iff (pcs : Pcs F C B) (H : Oracle F C) {s s1 : VSt F C B} {agg : Nat} {sm : F} (ha : VSt.aggregate H s = (.ok (agg, sm), s1)) :
    (∃ s', VSt.verifyClaims pcs H s = (.ok (), s')) ↔
      ∃ sub tr1 comms bp b tr2,
        sumcheckVerify H sm s1.own.proof.scProof s1.own.proof.scMaxDegree s1.own.proof.scNumVars s1.own.transcript = .ok (sub, tr1) ∧
        ((PTracker.sortedIds s1.own.proof.comms).mapM fun id => unwrap (s1.own.matComms.lookup id)) = .ok comms ∧
        s1.own.proof.pcsProof[0]? = some bp ∧
        pcs.batchVerify comms ((PTracker.sortedIds s1.own.proof.comms).map fun _ => sub.point) bp tr1 = .ok (b, tr2) := by
  unfold VSt.verifyClaims
  rw [Act.bind_ok ha]
  constructor
  · rintro ⟨s', h⟩
    obtain ⟨sub, s2, h1, h⟩ := Act.bind_eq_ok.1 h
    obtain ⟨ids, s3, h2, h⟩ := Act.bind_eq_ok.1 h
    obtain ⟨e2, rfl⟩ := Prod.mk.inj h2
    injection e2 with e2; subst e2
    obtain ⟨comms, s4, h3, h⟩ := Act.bind_eq_ok.1 h
    obtain ⟨e3, rfl⟩ := Prod.mk.inj h3
    obtain ⟨bp, s5, h4, h⟩ := Act.bind_eq_ok.1 h
    obtain ⟨e4, rfl⟩ := Prod.mk.inj h4
    obtain ⟨b, s6, h5, h⟩ := Act.bind_eq_ok.1 h
    unfold VSt.checkSumcheck at h1
    rcases hv : sumcheckVerify H (agg, sm).2 s1.own.proof.scProof s1.own.proof.scMaxDegree s1.own.proof.scNumVars s1.own.transcript with (e | _) | ⟨sub', tr1⟩
    · rw [hv] at h1; simp at h1
    · rw [hv] at h1; simp at h1
    · rw [hv] at h1
      obtain ⟨e1, rfl⟩ := Prod.mk.inj h1
      injection e1 with e1; subst e1
      unfold VSt.checkBatch at h5
      rcases hb : pcs.batchVerify comms ((PTracker.sortedIds s1.own.proof.comms).map fun _ => sub'.point) bp tr1 with e | ⟨b', tr2⟩
      · rw [hb] at h5; simp at h5
      · refine ⟨sub', tr1, comms, bp, b', tr2, rfl, e3, ?_, hb⟩
        change unwrap s1.own.proof.pcsProof[0]? = .ok bp at e4
        rcases hg : s1.own.proof.pcsProof[0]? with _ | y
        · rw [hg] at e4; simp at e4
        · rw [hg] at e4
          injection e4 with e4
          rw [e4]
  · rintro ⟨sub, tr1, comms, bp, b, tr2, h1, h2, h3, h4⟩
    have e1 : VSt.checkSumcheck H (agg, sm).2 s1 = (.ok sub, { s1 with own := { s1.own with transcript := tr1 } }) := by
      unfold VSt.checkSumcheck
      rw [h1]
    rw [Act.bind_ok e1, Act.reads_bind]
    have e2 : (Act.reads fun s : VSt F C B => (PTracker.sortedIds s1.own.proof.comms).mapM fun id => unwrap (s.own.matComms.lookup id))
        { s1 with own := { s1.own with transcript := tr1 } } = (.ok comms, { s1 with own := { s1.own with transcript := tr1 } }) := by
      rw [Act.reads_run, h2]
    have e3 : (Act.reads fun s : VSt F C B => idx s.own.proof.pcsProof 0) { s1 with own := { s1.own with transcript := tr1 } } =
        (.ok bp, { s1 with own := { s1.own with transcript := tr1 } }) := by
      rw [Act.reads_run]
      simp only [idx, h3, unwrap_some]
    have e4 : VSt.checkBatch pcs comms ((PTracker.sortedIds s1.own.proof.comms).map fun _ => sub.point) bp { s1 with own := { s1.own with transcript := tr1 } } =
        (.ok b, { s1 with own := { s1.own with transcript := tr2 } }) := by
      unfold VSt.checkBatch
      rw [h4]
    rw [Act.bind_ok e2, Act.bind_ok e3, Act.bind_ok e4]
    exact ⟨_, rfl⟩

theorem claimMap_lookup (l : List (Nat × F)) (f : Nat → F) (hl : ∀ c ∈ l, c.2 = f c.1) (id : Nat) :
    (PTracker.claimMap l).lookup id = if id ∈ l.map (·.1) then some (f id) else none := by
  unfold PTracker.claimMap
  have key : ∀ (l : List (Nat × F)) (m : List (Nat × F)), (∀ c ∈ l, c.2 = f c.1) →
      (l.foldl (fun m c => amInsert c.1 c.2 m) m).lookup id = if id ∈ l.map (·.1) then some (f id) else m.lookup id := by
    intro l
    induction l with
    | nil => intro m _; simp
    | cons c l ih =>
      intro m h
      rw [List.foldl_cons, ih _ fun c' h' => h c' (List.mem_cons_of_mem _ h')]
      by_cases h1 : id ∈ l.map (·.1)
      · rw [if_pos h1, if_pos (by rw [List.map_cons]; exact List.mem_cons_of_mem _ h1)]
      · rw [if_neg h1, lookup_amInsert]
        by_cases h2 : id = c.1
        · rw [if_pos h2, if_pos (by rw [h2, List.map_cons]; exact List.mem_cons_self), h c List.mem_cons_self, h2]
        · rw [if_neg h2, if_neg (by rw [List.map_cons, List.mem_cons]; exact fun h => h.elim h2 h1)]
  rw [key l [] hl]
  simp

end Zksql
