import Verif.Lemmas.Layout
/-! The verifier does not depend on the order of maps. -/
set_option linter.unusedSectionVars false
namespace Zksql
open Spec
variable {F C B : Type} [Field F] [DecidableEq F]

namespace Spec

theorem SameProof.symm {p q : CompiledProof F C B} (h : SameProof p q) : SameProof q p :=
  ⟨h.comms.symm, h.claims.symm, h.answers.symm, h.sumcheck.symm, h.degree.symm, h.size.symm, h.openings.symm⟩
theorem SameProof.trans {p q r : CompiledProof F C B} (h : SameProof p q) (g : SameProof q r) : SameProof p r :=
  ⟨h.comms.trans g.comms, h.claims.trans g.claims, h.answers.trans g.answers, h.sumcheck.trans g.sumcheck, h.degree.trans g.degree,
    h.size.trans g.size, h.openings.trans g.openings⟩

theorem SameVerifier.symm {s s' : VSt F C B} (h : SameVerifier s s') : SameVerifier s' s :=
  ⟨h.transcript.symm, h.counter.symm, h.sums.symm, h.zeros.symm, h.comms.symm, h.proof.symm, h.closures.symm, h.answers.symm⟩
theorem SameVerifier.trans {s s' s'' : VSt F C B} (h : SameVerifier s s') (g : SameVerifier s' s'') : SameVerifier s s'' :=
  ⟨h.transcript.trans g.transcript, h.counter.trans g.counter, h.sums.trans g.sums, h.zeros.trans g.zeros, h.comms.trans g.comms,
    h.proof.trans g.proof, h.closures.trans g.closures, h.answers.trans g.answers⟩
theorem SameVerifier.right {s s' : VSt F C B} (h : SameVerifier s s') : SameVerifier s' s' := h.symm.trans h

end Spec

/-- From the same contents both calls give equal outcomes and leave the same contents. -/
def VAlike {α : Type} (m m' : Act (VSt F C B) α) : Prop := ∀ s s', SameVerifier s s' → (m s).1 = (m' s').1 ∧ SameVerifier (m s).2 (m' s').2

namespace VAlike
variable {α γ : Type}

theorem bind {m m' : Act (VSt F C B) α} {f f' : α → Act (VSt F C B) γ} (h : VAlike m m') (hf : ∀ a, VAlike (f a) (f' a)) :
    VAlike (m >>= f) (m' >>= f') := by
  intro t t' ht
  obtain ⟨h1, h2⟩ := h t t' ht
  rw [Act.bind_run, Act.bind_run]
  rcases e : m t with ⟨_ | a, s⟩ <;> rcases e' : m' t' with ⟨_ | b, s'⟩ <;> rw [e, e'] at h1 h2
  · exact ⟨by simpa using h1, h2⟩
  · cases h1
  · cases h1
  · cases h1
    exact hf a s s' h2

theorem pure (a : α) : VAlike (Pure.pure a : Act (VSt F C B) α) (Pure.pure a) := fun _ _ ht => ⟨rfl, ht⟩
theorem reads {f : VSt F C B → Res α} (h : ∀ t t', SameVerifier t t' → f t = f t') : VAlike (Act.reads f) (Act.reads f) := fun t t' ht => ⟨h t t' ht, ht⟩
theorem modify {f g : VSt F C B → VSt F C B} (h : ∀ t t', SameVerifier t t' → SameVerifier (f t) (g t')) : VAlike (Act.modify f) (Act.modify g) :=
  fun t t' ht => ⟨rfl, h t t' ht⟩
theorem assert (p : Prop) [Decidable p] : VAlike (Act.assert p : Act (VSt F C B) Unit) (Act.assert p) := by
  intro t t' ht
  unfold Act.assert
  split_ifs
  · exact ⟨rfl, ht⟩
  · exact ⟨rfl, ht⟩
theorem expect {m m' : Act (VSt F C B) α} (h : VAlike m m') : VAlike (Act.expect m) (Act.expect m') := by
  intro t t' ht
  obtain ⟨h1, h2⟩ := h t t' ht
  unfold Act.expect
  rcases e : m t with ⟨_ | a, s⟩ <;> rcases e' : m' t' with ⟨_ | b, s'⟩ <;> rw [e, e'] at h1 h2
  · exact ⟨rfl, h2⟩
  · cases h1
  · cases h1
  · exact ⟨h1, h2⟩
theorem moved {d : Nat → VSt F C B → VSt F C B} (hd : VRearranges d) (k : Nat) {m m' : Act (VSt F C B) α} (h : VAlike m m') :
    VAlike m (Act.modify (d k) >>= fun _ => m') := fun t t' ht => h t (d k t') (ht.trans (hd k t' ht.right))
end VAlike

theorem vgenId_alike : VAlike (F := F) (C := C) (B := B) VSt.genId VSt.genId := by
  intro t t' h
  refine ⟨congrArg Except.ok h.counter, ⟨h.transcript, ?_, h.sums, h.zeros, h.comms, h.proof, h.closures, h.answers⟩⟩
  change t.own.idCounter + 1 = t'.own.idCounter + 1
  rw [h.counter]

theorem insertComm_alike (id : Nat) (c : VComm F) : VAlike (F := F) (C := C) (B := B) (VSt.insertComm id c) (VSt.insertComm id c) :=
  VAlike.modify fun t t' h => ⟨h.transcript, h.counter, h.sums, h.zeros, h.comms, h.proof, h.closures.insert id c, h.answers⟩

theorem vtr_same {s s' : VSt F C B} (h : SameVerifier s s') (tr : Transcript F C) :
    SameVerifier { s with own := { s.own with transcript := tr } } { s' with own := { s'.own with transcript := tr } } :=
  ⟨rfl, h.counter, h.sums, h.zeros, h.comms, h.proof, h.closures, h.answers⟩

theorem vappend_alike (label : String) (d : TItem F C) : VAlike (F := F) (C := C) (B := B) (VSt.append label d) (VSt.append label d) :=
  VAlike.modify fun t t' h => by
    rw [h.transcript]
    exact vtr_same h _

theorem trackMatComm_alike (c : C) : VAlike (F := F) (C := C) (B := B) (VSt.trackMatComm c) (VSt.trackMatComm c) := by
  unfold VSt.trackMatComm
  refine vgenId_alike.bind fun id => ?_
  refine (insertComm_alike id _).bind fun _ => ?_
  refine (vappend_alike "comm" (.comm c)).bind fun _ => ?_
  refine VAlike.bind (VAlike.modify fun t t' h => ?_) fun _ => VAlike.pure id
  exact ⟨h.transcript, h.counter, h.sums, h.zeros, h.comms.insert id c, h.proof, h.closures, h.answers⟩

theorem trackVirtual_alike (c : VComm F) : VAlike (F := F) (C := C) (B := B) (VSt.trackVirtual c) (VSt.trackVirtual c) :=
  vgenId_alike.bind fun id => (insertComm_alike id c).bind fun _ => VAlike.pure id

theorem vaddScalar_alike (i : Nat) (c : F) : VAlike (F := F) (C := C) (B := B) (VSt.addScalar i c) (VSt.addScalar i c) :=
  vgenId_alike.bind fun _ => trackVirtual_alike _

theorem transferComm_alike (debug : Bool) (id : Nat) : VAlike (F := F) (C := C) (B := B) (VSt.transferComm debug id) (VSt.transferComm debug id) := by
  unfold VSt.transferComm
  refine (VAlike.reads fun t t' h => by rw [h.proof.comms.lookup id]).bind fun c => ?_
  refine (trackMatComm_alike c).expect.bind fun newId => ?_
  exact (VAlike.assert _).bind fun _ => VAlike.pure newId

theorem vchallenge_alike (H : Oracle F C) (label : String) : VAlike (F := F) (C := C) (B := B) (VSt.challenge H label) (VSt.challenge H label) := by
  intro t t' h
  unfold VSt.challenge
  rw [← h.transcript]
  rcases t.own.transcript.challenge H label with e | ⟨c, tr⟩
  · exact ⟨rfl, h⟩
  · exact ⟨rfl, vtr_same h tr⟩

theorem vchallengesU_alike (H : Oracle F C) (label : String) (n : Nat) : VAlike (F := F) (C := C) (B := B) (VSt.challengesU H label n) (VSt.challengesU H label n) := by
  intro t t' h
  unfold VSt.challengesU
  rw [← h.transcript]
  rcases t.own.transcript.challenges H label n with e | ⟨c, tr⟩
  · exact ⟨rfl, h⟩
  · exact ⟨rfl, vtr_same h tr⟩

theorem vaddSumClaim_alike (id : Nat) (v : F) : VAlike (F := F) (C := C) (B := B) (VSt.addSumClaim id v) (VSt.addSumClaim id v) :=
  VAlike.modify fun t t' h => ⟨h.transcript, h.counter, by
    change t.own.sumClaims ++ _ = t'.own.sumClaims ++ _
    rw [h.sums], h.zeros, h.comms, h.proof, h.closures, h.answers⟩

theorem vaddZeroClaim_alike (id : Nat) : VAlike (F := F) (C := C) (B := B) (VSt.addZeroClaim id) (VSt.addZeroClaim id) :=
  VAlike.modify fun t t' h => ⟨h.transcript, h.counter, h.sums, by
    change t.own.zeroClaims ++ _ = t'.own.zeroClaims ++ _
    rw [h.zeros], h.comms, h.proof, h.closures, h.answers⟩

theorem transferEvals_alike : VAlike (F := F) (C := C) (B := B) VSt.transferEvals VSt.transferEvals :=
  VAlike.modify fun t t' h => ⟨h.transcript, h.counter, h.sums, h.zeros, h.comms, h.proof, h.closures, h.proof.answers.enter h.answers⟩

theorem setProof_alike {p p' : CompiledProof F C B} (hp : SameProof p p') : VAlike (F := F) (C := C) (B := B) (VSt.setProof p) (VSt.setProof p') :=
  VAlike.modify fun t t' h => ⟨h.transcript, h.counter, h.sums, h.zeros, h.comms, hp, h.closures, h.answers⟩

theorem claimedSum_alike (id : Nat) : VAlike (F := F) (C := C) (B := B) (VSt.claimedSum id) (VSt.claimedSum id) :=
  VAlike.reads fun t t' h => by rw [h.proof.claims.lookup id]

theorem evalC_same {m m' : List (Nat × VComm F)} (h : ∀ k, m.lookup k = m'.lookup k) {ans ans' : Nat → List F → Res F} (ha : ∀ i pt, ans i pt = ans' i pt) :
    ∀ (n id : Nat) (pt : List F), VSt.evalC m ans n id pt = VSt.evalC m' ans' n id pt
  | 0, _, _ => rfl
  | n + 1, id, pt => by
    have ih := evalC_same h ha n
    unfold VSt.evalC
    rw [h id]
    rcases m'.lookup id with _ | c
    · rfl
    · simp only [unwrap_some, ok_bind]
      cases c <;> simp only [ih, ha]

theorem evalVirtual_same {s s' : VSt F C B} (h : SameVerifier s s') (id : Nat) (pt : List F) : VSt.evalVirtual s.sh id pt = VSt.evalVirtual s'.sh id pt :=
  evalC_same h.closures.lookup (fun i pt => by unfold VSt.queryAns; rw [h.answers.lookup]) _ _ _

/-! ### Histories -/

/-- Same handles, same contents. -/
def SameVState (vs vs' : VState F C B) : Prop := vs.handles = vs'.handles ∧ SameVerifier vs.st vs'.st

theorem vstepHandle_same {vs vs' : VState F C B} (h : SameVState vs vs') {m m' : Act (VSt F C B) Nat} (hm : VAlike m m') :
    AgreeBy SameVState (vstepHandle vs m) (vstepHandle vs' m') := by
  obtain ⟨h1, h2⟩ := hm _ _ h.2
  unfold vstepHandle
  rcases e : m vs.st with ⟨(_ | _) | a, s⟩ <;> rcases e' : m' vs'.st with ⟨(_ | _) | b, s'⟩ <;> rw [e, e'] at h1 h2 <;>
    simp only [AgreeBy, reduceCtorEq, Except.error.injEq, Except.ok.injEq] at h1 ⊢
  · exact ⟨h.1, h2⟩
  · exact ⟨by rw [h.1, h1], h2⟩

theorem vstepOther_same {α : Type} {vs vs' : VState F C B} (h : SameVState vs vs') {m m' : Act (VSt F C B) α} (hm : VAlike m m') :
    AgreeBy SameVState (vstepOther vs m) (vstepOther vs' m') := by
  obtain ⟨h1, h2⟩ := hm _ _ h.2
  unfold vstepOther
  rcases e : m vs.st with ⟨(_ | _) | a, s⟩ <;> rcases e' : m' vs'.st with ⟨(_ | _) | b, s'⟩ <;> rw [e, e'] at h1 h2 <;>
    simp only [AgreeBy, reduceCtorEq, Except.error.injEq, Except.ok.injEq] at h1 ⊢
  · exact ⟨h.1, h2⟩
  · exact ⟨h.1, h2⟩

theorem vop_same (debug : Bool) (H : Oracle F C) (op : VOp F C B) (hp : ∀ p, op ≠ .setProof p) {vs vs' : VState F C B} (h : SameVState vs vs') :
    AgreeBy SameVState (op.run debug H vs) (op.run debug H vs') := by
  cases op with
  | trackComm c => exact vstepHandle_same h (trackMatComm_alike c)
  | transfer id => exact vstepHandle_same h (transferComm_alike debug id)
  | transferNext =>
    refine vstepHandle_same h (VAlike.bind (m := VSt.getNextId) (fun s s' hs => ⟨congrArg Except.ok hs.counter, hs⟩) fun id => transferComm_alike debug id)
  | virt f => exact vstepHandle_same h (trackVirtual_alike _)
  | add i j => exact agreeBy_bindE (by rw [h.1]) fun a => agreeBy_bindE (by rw [h.1]) fun b => vstepHandle_same h (trackVirtual_alike _)
  | sub i j => exact agreeBy_bindE (by rw [h.1]) fun a => agreeBy_bindE (by rw [h.1]) fun b => vstepHandle_same h (trackVirtual_alike _)
  | mul i j => exact agreeBy_bindE (by rw [h.1]) fun a => agreeBy_bindE (by rw [h.1]) fun b => vstepHandle_same h (trackVirtual_alike _)
  | addScalar i c => exact agreeBy_bindE (by rw [h.1]) fun a => vstepHandle_same h (vaddScalar_alike _ _)
  | mulScalar i c => exact agreeBy_bindE (by rw [h.1]) fun a => vstepHandle_same h (trackVirtual_alike _)
  | incFront i k => exact agreeBy_bindE (by rw [h.1]) fun a => vstepHandle_same h (trackVirtual_alike _)
  | incBack i k => exact agreeBy_bindE (by rw [h.1]) fun a => vstepHandle_same h (trackVirtual_alike _)
  | setProof p => exact absurd rfl (hp p)
  | transferEvals => exact vstepOther_same h transferEvals_alike
  | challenge label => exact vstepOther_same h (vchallenge_alike H label)
  | append label d => exact vstepOther_same h (vappend_alike label d)
  | sumClaim i v => exact agreeBy_bindE (by rw [h.1]) fun a => vstepOther_same h (vaddSumClaim_alike _ _)
  | proverSum i => exact agreeBy_bindE (by rw [h.1]) fun a => vstepOther_same h ((claimedSum_alike a).bind fun v => vaddSumClaim_alike a v)
  | zeroClaim i => exact agreeBy_bindE (by rw [h.1]) fun a => vstepOther_same h (vaddZeroClaim_alike _)

theorem sameCall_run (debug : Bool) (H : Oracle F C) {op op' : VOp F C B} (ho : SameCall op op') {vs vs' : VState F C B} (h : SameVState vs vs') :
    AgreeBy SameVState (op.run debug H vs) (op'.run debug H vs') := by
  by_cases hp : ∃ p, op = .setProof p
  · obtain ⟨p, rfl⟩ := hp
    cases op' <;> first
      | (rename_i p'; exact vstepOther_same h (setProof_alike ho))
      | (simp [SameCall] at ho)
  · have hp' : ∀ p, op ≠ .setProof p := fun p e => hp ⟨p, e⟩
    obtain rfl : op = op' := by
      cases op <;> first
        | exact ho
        | (rename_i p; exact absurd rfl (hp' p))
    exact vop_same debug H op hp' h

theorem vnew_same : SameVerifier (VSt.new : VSt F C B) VSt.new :=
  ⟨rfl, rfl, rfl, rfl, sameMap_nil, ⟨sameMap_nil, sameMap_nil, sameMap_nil, rfl, rfl, rfl, rfl⟩, sameMap_nil, sameMap_nil⟩

theorem runVRearranged_same {d : Nat → VSt F C B → VSt F C B} (hd : VRearranges d) (debug : Bool) (H : Oracle F C) {ops ops' : List (VOp F C B)}
    (ho : List.Forall₂ SameCall ops ops') : ∀ (k : Nat) {vs vs' : VState F C B}, SameVState vs vs' →
      AgreeBy SameVState (runVOps debug H vs ops) (runVRearranged d debug H k vs' ops') := by
  induction ho with
  | nil => intro k vs vs' h; exact h
  | @cons op op' ops ops' hop _ ih =>
    intro k vs vs' h
    unfold runVOps
    rw [List.foldlM_cons]
    unfold runVRearranged
    have h' : SameVState vs ⟨d k vs'.st, vs'.handles⟩ := ⟨h.1, h.2.trans (hd k _ h.2.right)⟩
    exact agreeBy_bind (sameCall_run debug H hop h') fun a b hab => ih (k + 1) hab

/-! ### Verifying -/

theorem vfoldZeroClaims_alike (H : Oracle F C) : ∀ (cs : List Nat) (agg : Nat),
    VAlike (F := F) (C := C) (B := B) (VSt.foldZeroClaims H cs agg) (VSt.foldZeroClaims H cs agg)
  | [], agg => VAlike.pure agg
  | c :: cs, agg => by
    unfold VSt.foldZeroClaims
    refine (vchallenge_alike H _).expect.bind fun ch => ?_
    refine (trackVirtual_alike _).bind fun p => ?_
    exact (trackVirtual_alike _).bind fun agg' => vfoldZeroClaims_alike H cs agg'

theorem vfoldSumClaims_alike (H : Oracle F C) : ∀ (cs : List (Nat × F)) (agg : Nat) (s : F),
    VAlike (F := F) (C := C) (B := B) (VSt.foldSumClaims H cs agg s) (VSt.foldSumClaims H cs agg s)
  | [], agg, s => VAlike.pure (agg, s)
  | c :: cs, agg, s => by
    unfold VSt.foldSumClaims
    refine (vchallenge_alike H _).expect.bind fun ch => ?_
    refine (trackVirtual_alike _).bind fun p => ?_
    exact (trackVirtual_alike _).bind fun agg' => vfoldSumClaims_alike H cs agg' _

theorem vconvertZero_alike (H : Oracle F C) (nv : Nat) : VAlike (F := F) (C := C) (B := B) (VSt.convertZero H nv) (VSt.convertZero H nv) := by
  unfold VSt.convertZero
  refine (trackVirtual_alike _).bind fun agg0 => ?_
  refine (VAlike.reads fun t t' h => by rw [h.zeros]).bind fun claims => ?_
  refine (vfoldZeroClaims_alike H claims agg0).bind fun agg => ?_
  refine (vchallengesU_alike H _ nv).bind fun r => ?_
  exact (trackVirtual_alike _).bind fun eqId => (trackVirtual_alike _).bind fun p => vaddSumClaim_alike p 0

theorem vaggregate_alike (H : Oracle F C) : VAlike (F := F) (C := C) (B := B) (VSt.aggregate H) (VSt.aggregate H) := by
  unfold VSt.aggregate
  refine (VAlike.reads fun t t' h => by rw [h.proof.size]).bind fun nv => ?_
  refine (vconvertZero_alike H nv).bind fun _ => ?_
  refine (trackVirtual_alike _).bind fun agg0 => ?_
  refine (VAlike.reads fun t t' h => by rw [h.sums]).bind fun claims => ?_
  exact vfoldSumClaims_alike H claims agg0 0

theorem checkSumcheck_alike (H : Oracle F C) (v : F) : VAlike (F := F) (C := C) (B := B) (VSt.checkSumcheck H v) (VSt.checkSumcheck H v) := by
  intro s s' h
  unfold VSt.checkSumcheck
  rw [← h.transcript, ← h.proof.sumcheck, ← h.proof.degree, ← h.proof.size]
  rcases sumcheckVerify H v s.own.proof.scProof s.own.proof.scMaxDegree s.own.proof.scNumVars s.own.transcript with (_ | _) | ⟨sub, tr⟩
  · exact ⟨rfl, vtr_same h _⟩
  · exact ⟨rfl, vtr_same h _⟩
  · exact ⟨rfl, vtr_same h tr⟩

theorem checkBatch_alike (pcs : Pcs F C B) (comms : List C) (points : List (List F)) (bp : B) :
    VAlike (F := F) (C := C) (B := B) (VSt.checkBatch pcs comms points bp) (VSt.checkBatch pcs comms points bp) := by
  intro s s' h
  unfold VSt.checkBatch
  rw [← h.transcript]
  rcases pcs.batchVerify comms points bp s.own.transcript with e | ⟨b, tr⟩
  · exact ⟨rfl, vtr_same h _⟩
  · exact ⟨rfl, vtr_same h tr⟩

theorem verify_alike {d : Nat → VSt F C B → VSt F C B} (hd : VRearranges d) (pcs : Pcs F C B) (H : Oracle F C) :
    VAlike (VSt.verifyClaims pcs H) (verifyRearranged d pcs H) := by
  unfold VSt.verifyClaims verifyRearranged
  refine VAlike.moved hd 0 ((vaggregate_alike H).bind fun agg => ?_)
  refine VAlike.moved hd 1 ((checkSumcheck_alike H agg.2).bind fun sub => ?_)
  refine VAlike.moved hd 2 ((VAlike.reads fun t t' h => by rw [sortedIds_same h.proof.comms]).bind fun ids => ?_)
  refine VAlike.moved hd 3 ((VAlike.reads fun t t' h => ?_).bind fun comms => ?_)
  · have : (fun id => unwrap (t.own.matComms.lookup id)) = fun id => unwrap (t'.own.matComms.lookup id) := funext fun id => by rw [h.comms.lookup]
    rw [this]
  refine (VAlike.reads fun t t' h => by rw [h.proof.openings]).bind fun bp => ?_
  exact (checkBatch_alike pcs comms _ bp).bind fun _ => VAlike.pure ()

end Zksql
