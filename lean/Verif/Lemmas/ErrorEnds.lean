import Verif.Lemmas.ErrorKinds
import Verif.Lemmas.Crash
import Verif.Lemmas.After
/-!
The kinds of the errors of the sumcheck, of batch opening, of `compile_proof` and of `verify_claims`.
-/
set_option linter.unusedSectionVars false
namespace Zksql
open Spec
variable {F C B : Type} [Field F] [DecidableEq F]

/-- The returned errors are of kind `K`. -/
def ErrIn {α : Type} (K : ErrKind → Prop) (r : Res α) : Prop := ∀ k, r = .error (.err k) → K k

namespace ErrIn
variable {α β : Type} {K K' : ErrKind → Prop}
theorem mono {r : Res α} (hK : ∀ k, K k → K' k) (h : ErrIn K r) : ErrIn K' r := fun k e => hK k (h k e)
theorem bind {r : Res α} {f : α → Res β} (h : ErrIn K r) (hf : ∀ a, r = .ok a → ErrIn K (f a)) : ErrIn K (r >>= f) := by
  cases r with
  | ok a => exact hf a rfl
  | error e => intro k hk; exact h k (congrArg Except.error (Except.error.inj hk))
theorem ok (a : α) : ErrIn K (.ok a : Res α) := fun _ h => by cases h
theorem err {k : ErrKind} (h : K k) : ErrIn K (.error (.err k) : Res α) := fun _ e => by cases e; exact h
theorem panics {r : Res α} (h : PanicOnly r) : ErrIn K r := fun k e => (h k e).elim
theorem ite {p : Prop} [Decidable p] {a b : Res α} (h1 : ErrIn K a) (h2 : ErrIn K b) : ErrIn K (if p then a else b) := by
  split
  · exact h1
  · exact h2
theorem mapM {f : α → Res β} (h : ∀ a, ErrIn K (f a)) : ∀ l : List α, ErrIn K (l.mapM f)
  | [] => ok _
  | a :: l => by
    rw [List.mapM_cons]
    exact (h a).bind fun b _ => (mapM h l).bind fun bs _ => ok _
theorem foldlM {f : β → α → Res β} (h : ∀ b a, ErrIn K (f b a)) : ∀ (l : List α) (b : β), ErrIn K (l.foldlM f b)
  | [], _ => ok _
  | a :: l, b => by
    rw [List.foldlM_cons]
    exact (h b a).bind fun b' _ => foldlM h l b'
end ErrIn

theorem challengeLoop_nonempty (H : Oracle F C) (l : String) : ∀ (n : Nat) (t : Transcript F C), t.isEmpty = false →
    ∃ cs t', t.challengeLoop H l n = .ok (cs, t') ∧ t'.isEmpty = false
  | 0, t, h => ⟨_, _, rfl, h⟩
  | n + 1, t, h => by
    rcases transcript_challenge_cases H t l with ⟨-, h2⟩ | ⟨c, t1, h1, h2⟩
    · rw [h2] at h
      cases h
    · obtain ⟨cs, t', h3, h4⟩ := challengeLoop_nonempty H l n t1 h2
      refine ⟨c :: cs, t', ?_, h4⟩
      unfold Transcript.challengeLoop
      simp only [h1, ok_bind, h3]

/-- The kinds of `get_and_append_challenge_vectors`. -/
theorem challenges_kind (H : Oracle F C) (l : String) (n : Nat) (t : Transcript F C) (k : ErrKind) (h : t.challenges H l n = .error (.err k)) :
    k = .invalidTranscript ∧ t.isEmpty = true := by
  unfold Transcript.challenges at h
  rcases e : t.isEmpty
  · obtain ⟨cs, t', h1, -⟩ := challengeLoop_nonempty H l n t e
    rw [e, if_neg (by decide), h1] at h
    cases h
  · rw [e, if_pos rfl] at h
    cases h
    exact ⟨rfl, rfl⟩

/-- What the sumcheck verifier returns. -/
def SK (k : ErrKind) : Prop := k = .invalidVerifier ∨ k = .invalidProof

theorem verifyLoop_kind (H : Oracle F C) (pf : IOPProof F) : ∀ (n i : Nat) (st : VerifierState F) (t : Transcript F C), ErrIn SK (verifyLoop H pf n i st t)
  | 0, _, _, _ => .ok _
  | n + 1, i, st, t => by
    unfold verifyLoop
    refine .bind (.panics (panicOnly_idx _ _)) fun msg _ => ?_
    dsimp only
    refine .bind ?_ fun q _ => verifyLoop_kind H pf n (i + 1) q.2.1 q.2.2
    unfold verifyRound
    refine .ite (.err (.inl rfl)) ?_
    rcases transcript_challenge_cases H (t.append "prover msg" (.elems msg)) "Internal round" with ⟨-, h2⟩ | ⟨c, t1, h1, -⟩
    · cases h2
    · rw [h1, ok_bind]
      exact .ok _

theorem deferredChecks_kind : ∀ (ms : List (List F)) (es : List F), ErrIn SK (deferredChecks ms es)
  | [], _ => .ok _
  | _ :: _, [] => .ok _
  | m :: ms, e :: es => by
    unfold deferredChecks
    exact .bind (.panics (panicOnly_idx _ _)) fun _ _ => .bind (.panics (panicOnly_idx _ _)) fun _ _ => .ite (.err (.inr rfl)) (deferredChecks_kind ms es)

theorem sumcheckVerify_kind (H : Oracle F C) (v : F) (pf : IOPProof F) (d n : Nat) (t : Transcript F C) : ErrIn SK (sumcheckVerify H v pf d n t) := by
  unfold sumcheckVerify
  refine .bind (verifyLoop_kind H pf _ _ _ _) fun q _ => .bind ?_ fun sub _ => .ok _
  unfold checkAndGenerateSubclaim
  refine .ite (.err (.inl rfl)) (.ite (.err (.inl rfl)) ?_)
  exact .bind (.mapM (fun _ => .ite (.err (.inl rfl)) (.panics (Par.panicOnly_interpolate _ _))) _) fun _ _ =>
    .bind (deferredChecks_kind _ _) fun _ _ => .bind (.panics (panicOnly_idx _ _)) fun _ _ => .ok _

/-! ### Batch opening -/

/-- A complaint about the arguments. -/
def AK (k : ErrKind) : Prop := k = .invalidParameters

theorem buildEqVec_kind : ∀ r : List F, ErrIn (fun k => k = .invalidParameters ∧ r = []) (buildEqVec r)
  | [] => .err ⟨rfl, rfl⟩
  | [_] => .ok _
  | _ :: r' :: rs => .bind (ErrIn.mono (fun _ h => by cases h.2) (buildEqVec_kind (r' :: rs))) fun _ _ => .ok _
theorem eqEval_kind (x y : List F) : ErrIn (fun k => k = .invalidParameters ∧ x.length ≠ y.length) (eqEval x y) := by
  unfold eqEval
  split
  · exact .err ⟨rfl, ‹_›⟩
  · exact .ok _

variable {E : Curve F}

theorem mapM_kind {α β : Type} {K : ErrKind → Prop} {f : α → Res β} : ∀ l : List α, (∀ a ∈ l, ErrIn K (f a)) → ErrIn K (l.mapM f)
  | [], _ => .ok _
  | a :: l, h => by
    rw [List.mapM_cons]
    exact (h a (by simp)).bind fun b _ => (mapM_kind l fun a ha => h a (by simp [ha])).bind fun bs _ => .ok _

theorem gPrimeCommit_kind (a2 eqT : List F) (comms : List E.G1) (points : List (List F)) :
    ErrIn (fun k => k = .invalidParameters ∧ ∃ p ∈ points, a2.length ≠ p.length) (gPrimeCommit a2 eqT comms points) := by
  unfold gPrimeCommit
  refine .bind (mapM_kind _ fun pi hpi => .bind (ErrIn.mono (fun k h => ⟨h.1, pi.1, ?_, h.2⟩) (eqEval_kind _ _)) fun _ _ =>
    .bind (.panics (panicOnly_idx _ _)) fun _ _ => .bind (.panics (panicOnly_idx _ _)) fun _ _ => .ok _) fun _ _ => .ok _
  exact List.fst_mem_of_mem_zipIdx hpi

theorem kzgVerify_kind (vp : VerifierParam E) (c : E.G1) (pt : List F) (v : F) (pf : List E.G1) :
    ErrIn (fun k => k = .invalidParameters ∧ vp.numVars < pt.length) (kzgVerify vp c pt v pf) := by
  unfold kzgVerify
  split
  · exact .err ⟨rfl, ‹_›⟩
  · exact .bind (.mapM (fun _ => .bind (.panics (panicOnly_idx _ _)) fun _ _ => .bind (.panics (panicOnly_idx _ _)) fun _ _ => .ok _) _) fun _ _ => .ok _

/-- Batch verification returns `InvalidProver` when its sumcheck returns an error, and otherwise complains about its arguments or the transcript. -/
theorem batchVerify_kind (H : Oracle F E.G1) (vp : VerifierParam E) (comms : List E.G1) (points : List (List F)) (proof : BatchProof E) (tr : Transcript F E.G1) :
    ErrIn (fun k => k = .invalidParameters ∧ (comms.length ≤ 1 ∨ (∃ p ∈ points, proof.sumCheckProof.point.length ≠ p.length) ∨ vp.numVars < proof.sumCheckProof.point.length) ∨
      k = .invalidTranscript ∧ tr.isEmpty = true ∨
      k = .invalidProver ∧ ∃ claim tr' k', sumcheckVerify H claim proof.sumCheckProof 2 proof.sumCheckProof.point.length tr' = .error (.err k'))
      (batchVerify H vp comms points proof tr) := by
  unfold batchVerify
  dsimp only
  refine .bind (fun k h => .inr (.inl (challenges_kind H _ _ _ k h))) fun q hq => ?_
  refine .bind ((buildEqVec_kind _).mono fun _ h => .inl ⟨h.1, .inl ?_⟩) fun eqT _ => ?_
  · rcases he : tr.isEmpty
    · obtain ⟨r, tr', h2, h3, _⟩ := challenges_ok H "t" (log2Ceil comms.length) tr he
      obtain rfl := Except.ok.inj (hq.symm.trans h2)
      by_contra hc
      have := log2Ceil_pos (k := comms.length) (by omega)
      have h4 : r = [] := h.2
      rw [← h3, h4] at this
      cases this
    · unfold Transcript.challenges at hq
      rw [he, if_pos rfl] at hq
      cases hq
  refine .bind ((gPrimeCommit_kind _ _ _ _).mono fun _ h => .inl ⟨h.1, .inr (.inl h.2)⟩) fun gc _ => ?_
  refine .bind (.mapM (fun _ => .bind (.panics (panicOnly_idx _ _)) fun _ _ => .ok _) _) fun terms _ => ?_
  refine .bind (fun k h => ?_) fun r _ => ?_
  · rcases hs : sumcheckVerify H terms.sum proof.sumCheckProof 2 proof.sumCheckProof.point.length q.2 with (e | _) | s
    · rw [hs] at h
      cases h
      exact .inr (.inr ⟨rfl, _, _, _, hs⟩)
    · rw [hs] at h
      cases h
    · rw [hs] at h
      cases h
  · exact .bind ((kzgVerify_kind _ _ _ _ _).mono fun _ h => .inl ⟨h.1, .inr (.inr h.2)⟩) fun _ _ => .ok _

/-! ### `compile_proof` -/
open PTracker

theorem NoErr.expect {α : Type} (m : Act (PTracker F C) α) : NoErr (Act.expect m) := by
  intro t k t' e
  unfold Act.expect at e
  rcases h : m t with ⟨x | a, s⟩ <;> rw [h] at e <;> cases (Prod.mk.inj e).1
theorem NoErr.modify (f : PTracker F C → PTracker F C) : NoErr (Act.modify f) := fun _ _ _ e => by cases (Prod.mk.inj e).1

theorem panicOnly_foldlM {α β : Type} {f : β → α → Res β} (h : ∀ b a, PanicOnly (f b a)) (l : List α) (b : β) : PanicOnly (l.foldlM f b) :=
  fun k e => ErrIn.foldlM (K := fun _ => False) (fun b a => .panics (h b a)) l b k e
theorem panicOnly_expectState {σ α : Type} : ∀ q : Res α × σ, PanicOnly (expectState q)
  | (.ok _, _) => panicOnly_ok _
  | (.error _, _) => panicOnly_panic
theorem panicOnly_toArith (t : PTracker F C) (i : Nat) : PanicOnly (t.toArith i) := by
  unfold PTracker.toArith
  split
  · exact panicOnly_ok _
  · split
    · exact panicOnly_panic
    · exact (panicOnly_repNv _ _).bind fun _ => panicOnly_foldlM (fun _ _ => (panicOnly_mapM _ (fun _ => panicOnly_unwrap _) _).bind fun _ => panicOnly_expectState _) _ _
theorem panicOnly_extendMats (nv : Nat) : ∀ (l : List (Nat × ArcMle F)) (h : Nat), PanicOnly (extendMats nv l h)
  | [], _ => panicOnly_ok _
  | (_, a) :: rest, h => by
    unfold extendMats
    exact panicOnly_ite ((panicOnly_incBack _ _).bind fun _ => (panicOnly_extendMats nv rest _).bind fun _ => panicOnly_ok _)
      ((panicOnly_extendMats nv rest _).bind fun _ => panicOnly_ok _)
theorem panicOnly_maxMatNv (t : PTracker F C) : PanicOnly (maxMatNv t) := by
  unfold maxMatNv
  split
  · exact panicOnly_panic
  · exact panicOnly_ok _
theorem trueSums_noErr : ∀ l : List (Nat × F), NoErr (trueSums l : Act (PTracker F C) _)
  | [] => .pure _
  | _ :: l => .bind (evaluations_noErr _) fun _ => .bind (trueSums_noErr l) fun _ => .pure _
theorem equalize_noErr : NoErr (equalize : Act (PTracker F C) _) :=
  .bind (.reads panicOnly_maxMatNv) fun _ => .bind (.reads fun _ => panicOnly_extendMats _ _ _) fun _ => .bind (.modify _) fun _ =>
    .bind (.reads fun _ => panicOnly_ok _) fun _ => .bind (trueSums_noErr _) fun _ => .bind (.modify _) fun _ => .pure _
theorem addSub_noErr (i j : Nat) (b : Bool) : NoErr (addSubPolys i j b : Act (PTracker F C) _) := .bind (.reads fun _ => panicOnly_addSubRep _ _ _ _) fun _ => noErr_virt _
theorem mul_noErr (i j : Nat) : NoErr (mulPolys i j : Act (PTracker F C) _) := .bind (.reads fun _ => panicOnly_mulRep _ _ _) fun _ => noErr_virt _
theorem mulScalar_noErr (i : Nat) (c : F) : NoErr (mulScalar i c : Act (PTracker F C) _) := .bind (.reads fun _ => panicOnly_mulScalarRep _ _ _) fun _ => noErr_virt _
theorem foldZero_noErr (H : Oracle F C) : ∀ (l : List Nat) (a : Nat), NoErr (foldZeroClaims H l a)
  | [], _ => .pure _
  | _ :: l, _ => .bind (.expect _) fun _ => .bind (mulScalar_noErr _ _) fun _ => .bind (addSub_noErr _ _ _) fun _ => foldZero_noErr H l _
theorem foldSum_noErr (H : Oracle F C) : ∀ (l : List (Nat × F)) (a : Nat) (s : F), NoErr (foldSumClaims H l a s)
  | [], _, _ => .pure _
  | _ :: l, _, _ => .bind (.expect _) fun _ => .bind (mulScalar_noErr _ _) fun _ => .bind (addSub_noErr _ _ _) fun _ => foldSum_noErr H l _ _
theorem challengesU_noErr (H : Oracle F C) (l : String) (n : Nat) : NoErr (challengesU H l n) := by
  intro t k t' e
  unfold challengesU at e
  split at e <;> cases (Prod.mk.inj e).1
theorem convertZero_noErr (H : Oracle F C) (nv : Nat) : NoErr (convertZero H nv) :=
  .bind (.lift (Par.panicOnly_fromEvals _ _)) fun _ => .bind (noErr_mat _) fun _ => .bind (.reads fun _ => panicOnly_ok _) fun _ => .bind (foldZero_noErr H _ _) fun _ =>
    .bind (challengesU_noErr H _ _) fun _ => .bind (.expect _) fun _ => .bind (noErr_mat _) fun _ => .bind (mul_noErr _ _) fun _ => .modify _
theorem aggregate_noErr (H : Oracle F C) : NoErr (PTracker.aggregate H) :=
  .bind equalize_noErr fun _ => .bind (convertZero_noErr H _) fun _ => .bind (.lift (Par.panicOnly_fromEvals _ _)) fun _ => .bind (noErr_mat _) fun _ =>
    .bind (.reads fun _ => panicOnly_ok _) fun _ => foldSum_noErr H _ _ _

/-- The errors of `K`, whatever the state. -/
def AnyErr {S α : Type} (K : ErrKind → Prop) (m : Act S α) : Prop := ∀ t k t', m t = (.error (.err k), t') → K k

namespace AnyErr
variable {S α β : Type} {K : ErrKind → Prop}
theorem bind {m : Act S α} {f : α → Act S β} (h : AnyErr K m) (hf : ∀ a, AnyErr K (f a)) : AnyErr K (m >>= f) := by
  intro t k t' e
  rcases hm : m t with ⟨x | a, t1⟩
  · rw [Act.bind_error hm] at e
    exact h t k t1 (by rw [hm, Except.error.inj (Prod.mk.inj e).1])
  · rw [Act.bind_ok hm] at e
    exact hf a t1 k t' e
theorem reads {f : S → Res α} (h : ∀ t, PanicOnly (f t)) : AnyErr K (Act.reads f) := fun t k _ e => (h t k (Prod.mk.inj e).1).elim
theorem lift {r : Res α} (h : PanicOnly r) : AnyErr K (Act.lift r : Act S α) := fun _ k _ e => (h k (Prod.mk.inj e).1).elim
theorem pure (a : α) : AnyErr K (Pure.pure a : Act S α) := fun _ _ _ h => by cases (Prod.mk.inj h).1
end AnyErr
theorem AnyErr.none {α : Type} {K : ErrKind → Prop} {m : Act (PTracker F C) α} (h : NoErr m) : AnyErr K m := fun t k t' e => (h t k t' e).elim

/-- `compile_proof` returns `InvalidProver`, either from the debug check or because opening the commitments returned an error. -/
theorem compile_kind (debug : Bool) (pcs : Pcs F C B) (H : Oracle F C) :
    AnyErr (fun k => k = .invalidProver ∧ (debug = true ∨ ∃ polys points evals tr k', pcs.multiOpen polys points evals tr = .error (.err k'))) (compile debug pcs H) := by
  unfold compile
  refine .bind (.none (aggregate_noErr H)) fun agg => .bind ?_ fun _ => .bind (.reads fun _ => panicOnly_toArith _ _) fun vp => .bind ?_ fun pf =>
    .bind (.reads fun _ => panicOnly_ok _) fun ids => .bind (.reads fun _ => panicOnly_mapM _ (fun _ => (panicOnly_unwrap _).bind fun _ => panicOnly_ok _) _) fun polys =>
    .bind (.lift (panicOnly_mapM _ (fun _ => panicOnly_unwrap _) _)) fun evals => .bind ?_ fun bp => .reads fun _ => panicOnly_ok _
  · unfold debugCheck
    rcases debug
    · rw [if_neg (by decide)]
      exact .pure _
    · rw [if_pos rfl]
      refine .bind (.none (evaluations_noErr _)) fun e => ?_
      intro t k t' h
      have h1 := (Prod.mk.inj h).1
      split at h1
      · cases h1
        exact ⟨rfl, .inl rfl⟩
      · cases h1
  · intro t k t' h
    unfold proveSumcheck at h
    split at h <;> cases (Prod.mk.inj h).1
  · intro t k t' h
    unfold openBatch at h
    split at h
    · cases (Prod.mk.inj h).1
    · cases (Prod.mk.inj h).1
    · rename_i k' hk
      cases (Prod.mk.inj h).1
      exact ⟨rfl, .inr ⟨_, _, _, _, _, hk⟩⟩

/-! ### `verify_claims` -/

theorem vany_expect {S α : Type} {K : ErrKind → Prop} (m : Act S α) : AnyErr K (Act.expect m) := by
  intro t k t' e
  unfold Act.expect at e
  rcases h : m t with ⟨x | a, s⟩ <;> rw [h] at e <;> cases (Prod.mk.inj e).1
theorem vany_virtual {K : ErrKind → Prop} (c : VComm F) : AnyErr K (VSt.trackVirtual c : Act (VSt F C B) Nat) := fun _ _ _ e => by cases (Prod.mk.inj e).1
theorem vfoldZero_any {K : ErrKind → Prop} (H : Oracle F C) : ∀ (l : List Nat) (a : Nat), AnyErr K (VSt.foldZeroClaims H l a : Act (VSt F C B) Nat)
  | [], _ => .pure _
  | _ :: l, _ => .bind (vany_expect _) fun _ => .bind (vany_virtual _) fun _ => .bind (vany_virtual _) fun _ => vfoldZero_any H l _
theorem vfoldSum_any {K : ErrKind → Prop} (H : Oracle F C) : ∀ (l : List (Nat × F)) (a : Nat) (s : F), AnyErr K (VSt.foldSumClaims H l a s : Act (VSt F C B) (Nat × F))
  | [], _, _ => .pure _
  | _ :: l, _, _ => .bind (vany_expect _) fun _ => .bind (vany_virtual _) fun _ => .bind (vany_virtual _) fun _ => vfoldSum_any H l _ _
theorem vaggregate_any {K : ErrKind → Prop} (H : Oracle F C) : AnyErr K (VSt.aggregate H : Act (VSt F C B) (Nat × F)) := by
  refine .bind (.reads fun _ => panicOnly_ok _) fun nv => .bind ?_ fun _ => .bind (vany_virtual _) fun _ => .bind (.reads fun _ => panicOnly_ok _) fun _ => vfoldSum_any H _ _ _
  refine .bind (vany_virtual _) fun _ => .bind (.reads fun _ => panicOnly_ok _) fun _ => .bind (vfoldZero_any H _ _) fun _ => .bind ?_ fun _ => .bind (vany_virtual _) fun _ =>
    .bind (vany_virtual _) fun _ => fun _ _ _ e => by cases (Prod.mk.inj e).1
  intro t k t' e
  unfold VSt.challengesU at e
  split at e <;> cases (Prod.mk.inj e).1

/-- `verify_claims` returns `InvalidVerifier` if the sumcheck returns an error, and passes on the errors of batch verification. -/
theorem verifyClaims_kind (pcs : Pcs F C B) (H : Oracle F C) (s : VSt F C B) (k : ErrKind) (h : (VSt.verifyClaims pcs H s).1 = .error (.err k)) :
    ∃ agg sm s1, VSt.aggregate H s = (.ok (agg, sm), s1) ∧
      (k = .invalidVerifier ∧ (∃ k', sumcheckVerify H sm s1.own.proof.scProof s1.own.proof.scMaxDegree s1.own.proof.scNumVars s1.own.transcript = .error (.err k')) ∨
        ∃ sub tr1 comms bp, comms.length = s1.own.proof.comms.length ∧
          sumcheckVerify H sm s1.own.proof.scProof s1.own.proof.scMaxDegree s1.own.proof.scNumVars s1.own.transcript = .ok (sub, tr1) ∧
          s1.own.proof.pcsProof[0]? = some bp ∧
          pcs.batchVerify comms ((PTracker.sortedIds s1.own.proof.comms).map fun _ => sub.point) bp tr1 = .error (.err k)) := by
  rcases ha : VSt.aggregate H s with ⟨x | ⟨agg, sm⟩, s1⟩
  · have : (VSt.verifyClaims pcs H s).1 = .error x := by
      unfold VSt.verifyClaims
      rw [Act.bind_error ha]
    rw [this] at h
    obtain rfl := Except.error.inj h
    exact (vaggregate_any (K := fun _ => False) H s k s1 ha).elim
  · refine ⟨agg, sm, s1, rfl, ?_⟩
    rw [verifyClaims_result pcs H ha] at h
    rcases hv : sumcheckVerify H sm s1.own.proof.scProof s1.own.proof.scMaxDegree s1.own.proof.scNumVars s1.own.transcript with (e | _) | ⟨sub, tr1⟩
    · rw [hv] at h
      cases h
      exact .inl ⟨rfl, e, rfl⟩
    · rw [hv] at h
      cases h
    · rw [hv] at h
      right
      dsimp only at h
      rcases h2 : (PTracker.sortedIds s1.own.proof.comms).mapM fun id => unwrap (s1.own.matComms.lookup id) with x | comms
      · rw [h2, error_bind] at h
        exact (panicOnly_mapM _ (fun _ => panicOnly_unwrap _) _ k (h2.trans (congrArg _ (Except.error.inj h)))).elim
      rw [h2, ok_bind] at h
      rcases h3 : s1.own.proof.pcsProof[0]? with _ | bp
      · simp only [idx, h3] at h
        cases h
      · simp only [idx, h3, unwrap_some, ok_bind] at h
        refine ⟨sub, tr1, comms, bp, ?_, rfl, rfl, ?_⟩
        · exact (mapM_ok_length _ _ _ h2).trans (by simp [PTracker.sortedIds])
        rcases h4 : pcs.batchVerify comms ((PTracker.sortedIds s1.own.proof.comms).map fun _ => sub.point) bp tr1 with x | b
        · rw [h4, error_bind] at h
          exact congrArg _ (Except.error.inj h)
        · rw [h4] at h
          cases h

theorem verifyLoop_nonempty (H : Oracle F C) (pf : IOPProof F) : ∀ (n i : Nat) (st st' : VerifierState F) (t t' : Transcript F C), t.isEmpty = false →
    verifyLoop H pf n i st t = .ok (st', t') → t'.isEmpty = false
  | 0, _, _, _, _, _, ht, h => by
    cases h
    exact ht
  | n + 1, i, st, st', t, t', ht, h => by
    unfold verifyLoop at h
    obtain ⟨msg, -, h⟩ := aft_bind_inv h
    dsimp only at h
    obtain ⟨⟨_, st1, t1⟩, h1, h2⟩ := aft_bind_inv h
    refine verifyLoop_nonempty H pf n (i + 1) st1 st' t1 t' ?_ h2
    unfold verifyRound at h1
    split at h1
    · cases h1
    · rcases transcript_challenge_cases H (t.append "prover msg" (.elems msg)) "Internal round" with ⟨-, e⟩ | ⟨c, t2, e, e2⟩
      · cases e
      · rw [e, ok_bind] at h1
        cases h1
        exact e2

theorem sumcheckVerify_nonempty {H : Oracle F C} {v : F} {pf : IOPProof F} {d n : Nat} {t t' : Transcript F C} {sub : SubClaim F}
    (h : sumcheckVerify H v pf d n t = .ok (sub, t')) : t'.isEmpty = false := by
  unfold sumcheckVerify at h
  obtain ⟨⟨st, t1⟩, h1, h⟩ := aft_bind_inv h
  obtain ⟨_, -, h⟩ := aft_bind_inv h
  cases h
  exact verifyLoop_nonempty H pf _ _ _ _ _ _ rfl h1

/-- The errors of `verify_claims` with the KZG scheme. -/
theorem verifyClaims_kzg_kind (H : Oracle F E.G1) (pp : ProverParam E) (vp : VerifierParam E) (s : VSt F E.G1 (BatchProof E)) (k : ErrKind)
    (h : (VSt.verifyClaims (kzgPcs H pp vp) H s).1 = .error (.err k)) :
    ∃ agg sm s1, VSt.aggregate H s = (.ok (agg, sm), s1) ∧
      (k = .invalidVerifier ∧ (∃ k', sumcheckVerify H sm s1.own.proof.scProof s1.own.proof.scMaxDegree s1.own.proof.scNumVars s1.own.transcript = .error (.err k')) ∨
        ∃ sub tr1 bp, sumcheckVerify H sm s1.own.proof.scProof s1.own.proof.scMaxDegree s1.own.proof.scNumVars s1.own.transcript = .ok (sub, tr1) ∧
          s1.own.proof.pcsProof[0]? = some bp ∧ (k = .invalidParameters ∧
              (s1.own.proof.comms.length ≤ 1 ∨ bp.sumCheckProof.point.length ≠ sub.point.length ∨ vp.numVars < bp.sumCheckProof.point.length) ∨
            k = .invalidProver ∧ ∃ claim tr' k', sumcheckVerify H claim bp.sumCheckProof 2 bp.sumCheckProof.point.length tr' = .error (.err k'))) := by
  obtain ⟨agg, sm, s1, h1, h2 | ⟨sub, tr1, comms, bp, h6, h2, h3, h4⟩⟩ := verifyClaims_kind _ H s k h
  · exact ⟨agg, sm, s1, h1, .inl h2⟩
  · refine ⟨agg, sm, s1, h1, .inr ⟨sub, tr1, bp, h2, h3, ?_⟩⟩
    rcases batchVerify_kind H vp comms _ bp tr1 k h4 with ⟨h5, h7 | ⟨p, h7, h8⟩ | h7⟩ | ⟨-, h5⟩ | h5
    · exact .inl ⟨h5, .inl (h6 ▸ h7)⟩
    · obtain ⟨_, -, rfl⟩ := List.mem_map.1 h7
      exact .inl ⟨h5, .inr (.inl h8)⟩
    · exact .inl ⟨h5, .inr (.inr h7)⟩
    · rw [sumcheckVerify_nonempty h2] at h5
      cases h5
    · exact .inr h5

theorem kzgCommit_kind (pp : ProverParam E) (p : Mle F) : ErrIn AK (kzgCommit pp p) := by
  unfold kzgCommit
  exact .ite (.err rfl) (.bind (.panics (panicOnly_idx _ _)) fun _ _ => .ok _)

end Zksql
