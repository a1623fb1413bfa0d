import Verif.Spec.Retry
import Verif.Lemmas.Trail
import Verif.Lemmas.HaltedV
import Verif.Lemmas.Session
import Verif.Lemmas.Crash
import Verif.Lemmas.After
/-!
What `verify_claims` leaves behind.
-/
set_option linter.unusedSectionVars false
namespace Zksql
open Spec VSt
variable {F C B : Type} [Field F] [DecidableEq F]

theorem kzg_onlyAdds {E : Curve F} (H : Oracle F E.G1) (pp : ProverParam E) (vp : VerifierParam E) : OnlyAdds (kzgPcs H pp vp) := by
  refine ⟨fun cs pts b tr => (batchVerifyTrail_begins H cs pts b tr).1.symm, fun cs pts b tr => (batchVerifyTrail_begins H cs pts b tr).2,
    fun cs pts b tr r tr' h => ?_, fun cs pts b tr r tr' h => ?_⟩
  all_goals
    have e : batchVerifyTrail H cs pts b tr = tr' := batchVerifyTrail_ok (vp := vp) h
    rw [← e]
  · exact (batchVerifyTrail_begins H cs pts b tr).1.symm
  · exact (batchVerifyTrail_begins H cs pts b tr).2

theorem onward_tr {s : VSt F C B} (h : Numbered s) {tr : Transcript F C} (hb : s.own.transcript.Begins tr) :
    Onward s { s with own := { s.own with transcript := tr } } :=
  ⟨⟨h.comms, h.mats⟩, fun _ _ h => h, rfl, fun _ _ h => h, List.prefix_refl _, List.prefix_refl _, hb.2, hb.1.symm, le_refl _, rfl⟩

namespace VGoes

theorem challengesU (H : Oracle F C) (l : String) (n : Nat) : VGoes (VSt.challengesU H l n : Act (VSt F C B) (List F)) := by
  intro s h
  unfold VSt.challengesU
  split
  · rename_i cs tr e
    exact onward_tr h (Transcript.begins_challenges e)
  · exact .refl h

theorem foldZeroClaims (H : Oracle F C) : ∀ (cs : List Nat) (agg : Nat), VGoes (VSt.foldZeroClaims H cs agg : Act (VSt F C B) Nat)
  | [], _ => pure _
  | _ :: cs, _ => by
    unfold VSt.foldZeroClaims
    exact bind (challenge H _).expect fun _ => bind (mulScalar _ _) fun _ => bind (add _ _) fun _ => foldZeroClaims H cs _

theorem foldSumClaims (H : Oracle F C) : ∀ (cs : List (Nat × F)) (agg : Nat) (v : F), VGoes (VSt.foldSumClaims H cs agg v : Act (VSt F C B) (Nat × F))
  | [], _, _ => pure _
  | _ :: cs, _, _ => by
    unfold VSt.foldSumClaims
    exact bind (challenge H _).expect fun _ => bind (mulScalar _ _) fun _ => bind (add _ _) fun _ => foldSumClaims H cs _ _

theorem convertZero (H : Oracle F C) (nv : Nat) : VGoes (VSt.convertZero H nv : Act (VSt F C B) Unit) :=
  bind (virtual _) fun _ => bind (reads _) fun _ => bind (foldZeroClaims H _ _) fun _ =>
    bind (challengesU H _ nv) fun _ => bind (virtual _) fun _ => bind (mul _ _) fun _ => sumClaim _ _

theorem aggregate (H : Oracle F C) : VGoes (VSt.aggregate H : Act (VSt F C B) (Nat × F)) :=
  bind (reads _) fun _ => bind (convertZero H _) fun _ => bind (virtual _) fun _ => bind (reads _) fun _ => foldSumClaims H _ _ _

theorem checkSumcheck (H : Oracle F C) (v : F) : VGoes (VSt.checkSumcheck H v : Act (VSt F C B) (SubClaim F)) := by
  intro s h
  unfold VSt.checkSumcheck
  split
  · rename_i sub tr e
    refine onward_tr h ?_
    rw [← sumcheckVerifyTrail_ok e]
    exact sumcheckVerifyTrail_begins _ _ _ _ _
  · exact onward_tr h (sumcheckVerifyTrail_begins _ _ _ _ _)
  · exact onward_tr h (sumcheckVerifyTrail_begins _ _ _ _ _)

theorem checkBatch {pcs : Pcs F C B} (ha : OnlyAdds pcs) (comms : List C) (points : List (List F)) (bp : B) : VGoes (VSt.checkBatch pcs comms points bp) := by
  intro s h
  unfold VSt.checkBatch
  split
  · rename_i b tr e
    exact onward_tr h ⟨(ha.okLabel _ _ _ _ _ _ e).symm, ha.okEvents _ _ _ _ _ _ e⟩
  · exact onward_tr h ⟨(ha.label _ _ _ _).symm, ha.events _ _ _ _⟩

theorem verifyClaims {pcs : Pcs F C B} (ha : OnlyAdds pcs) (H : Oracle F C) : VGoes (VSt.verifyClaims pcs H) :=
  bind (aggregate H) fun _ => bind (checkSumcheck H _) fun _ => bind (reads _) fun _ => bind (reads _) fun _ => bind (reads _) fun _ =>
    bind (checkBatch ha _ _ _) fun _ => pure _

end VGoes

/-- Once the claims are folded, only the transcript changes, whatever the verdict. -/
theorem verifyClaims_state (pcs : Pcs F C B) (H : Oracle F C) {s s1 : VSt F C B} {a : Nat × F} (h : VSt.aggregate H s = (.ok a, s1)) :
    ∃ tr, (VSt.verifyClaims pcs H s).2 = s1.setTr tr := by
  unfold VSt.verifyClaims
  rw [Act.bind_ok h]
  have h1 : ∀ (v : F) (t : VSt F C B), ∃ tr, (VSt.checkSumcheck H v t).2 = t.setTr tr := by
    intro v t
    unfold VSt.checkSumcheck
    split <;> exact ⟨_, rfl⟩
  have h2 : ∀ cs pts bp (t : VSt F C B), ∃ tr, (VSt.checkBatch pcs cs pts bp t).2 = t.setTr tr := by
    intro cs pts bp t
    unfold VSt.checkBatch
    split <;> exact ⟨_, rfl⟩
  have hb : ∀ {α β : Type} (m : Act (VSt F C B) α) (f : α → Act (VSt F C B) β) (_ : ∀ t, ∃ tr, (m t).2 = t.setTr tr)
      (_ : ∀ a t, ∃ tr, (f a t).2 = t.setTr tr), ∀ t, ∃ tr, ((m >>= f) t).2 = t.setTr tr := by
    intro α β m f hm hf t
    obtain ⟨tr, e⟩ := hm t
    rcases em : m t with ⟨x | a, t1⟩ <;> rw [em] at e <;> dsimp only at e <;> subst e
    · rw [Act.bind_error em]; exact ⟨tr, rfl⟩
    · rw [Act.bind_ok em]
      obtain ⟨tr', e'⟩ := hf a (t.setTr tr)
      exact ⟨tr', e'⟩
  have hr : ∀ {α : Type} (f : VSt F C B → Res α) (t : VSt F C B), ∃ tr, ((Act.reads f) t).2 = t.setTr tr := fun f t => ⟨t.own.transcript, rfl⟩
  exact hb _ _ (h1 _) (fun _ => hb _ _ (hr _) fun _ => hb _ _ (hr _) fun _ => hb _ _ (hr _) fun _ => hb _ _ (h2 _ _ _) fun _ t => ⟨t.own.transcript, rfl⟩) s1

/-! ### Folding the claims, from any state -/

theorem foldZero_exact (H : Oracle F C) : ∀ (cs : List Nat) (agg : Nat) (s : VSt F C B), s.own.transcript.isEmpty = false →
    ∃ ch tr agg' s', s.own.transcript.challengeLoop H "zerocheck challenge" cs.length = .ok (ch, tr) ∧ tr.isEmpty = false ∧
      VSt.foldZeroClaims H cs agg s = (.ok agg', s') ∧ s'.own = { s.own with idCounter := s.own.idCounter + 2 * cs.length, transcript := tr } ∧
      s'.sh.queries = s.sh.queries
  | [], agg, s, h => ⟨[], _, agg, s, rfl, h, rfl, rfl, rfl⟩
  | c :: cs, agg, s, h => by
    obtain ⟨ch, tr, agg', s', h1, h2, h3, h4, h5⟩ := foldZero_exact H cs (s.own.idCounter + 1)
      (((s.setTr (chalStep H s.own.transcript "zerocheck challenge").2).push (.mulScalar c (chalStep H s.own.transcript "zerocheck challenge").1)).push
        (.add agg s.own.idCounter)) rfl
    have h1 : (chalStep H s.own.transcript "zerocheck challenge").2.challengeLoop H "zerocheck challenge" cs.length = .ok (ch, tr) := h1
    refine ⟨(chalStep H s.own.transcript "zerocheck challenge").1 :: ch, tr, agg', s', ?_, h2, ?_, ?_, h5⟩
    · simp only [List.length_cons, Transcript.challengeLoop, challenge_ok H s.own.transcript _ h, ok_bind, h1]
    · unfold VSt.foldZeroClaims
      rw [Act.bind_ok (challengeU_run H _ h)]
      exact h3
    · rw [h4]
      show ({ s.own with idCounter := s.own.idCounter + 1 + 1 + 2 * cs.length, transcript := tr } : VTracker F C B) = _
      rw [List.length_cons, show s.own.idCounter + 1 + 1 + 2 * cs.length = s.own.idCounter + 2 * (cs.length + 1) by omega]

theorem foldSum_exact (H : Oracle F C) : ∀ (cs : List (Nat × F)) (agg : Nat) (v : F) (s : VSt F C B), s.own.transcript.isEmpty = false →
    ∃ ds tr agg' s', s.own.transcript.challengeLoop H "sumcheck challenge" cs.length = .ok (ds, tr) ∧ tr.isEmpty = false ∧ ds.length = cs.length ∧
      VSt.foldSumClaims H cs agg v s = (.ok (agg', v + dot ds (cs.map (·.2))), s') ∧
      s'.own = { s.own with idCounter := s.own.idCounter + 2 * cs.length, transcript := tr } ∧ s'.sh.queries = s.sh.queries
  | [], agg, v, s, h => ⟨[], _, agg, s, rfl, h, rfl, by simp [VSt.foldSumClaims, dot], rfl, rfl⟩
  | c :: cs, agg, v, s, h => by
    obtain ⟨ch, tr, agg', s', h1, h2, h6, h3, h4, h5⟩ := foldSum_exact H cs (s.own.idCounter + 1) (v + c.2 * (chalStep H s.own.transcript "sumcheck challenge").1)
      (((s.setTr (chalStep H s.own.transcript "sumcheck challenge").2).push (.mulScalar c.1 (chalStep H s.own.transcript "sumcheck challenge").1)).push
        (.add agg s.own.idCounter)) rfl
    have h1 : (chalStep H s.own.transcript "sumcheck challenge").2.challengeLoop H "sumcheck challenge" cs.length = .ok (ch, tr) := h1
    refine ⟨(chalStep H s.own.transcript "sumcheck challenge").1 :: ch, tr, agg', s', ?_, h2, by simp [h6], ?_, ?_, h5⟩
    · simp only [List.length_cons, Transcript.challengeLoop, challenge_ok H s.own.transcript _ h, ok_bind, h1]
    · unfold VSt.foldSumClaims
      rw [Act.bind_ok (challengeU_run H _ h)]
      refine Eq.trans (b := _) h3 ?_
      simp only [dot, List.map_cons, List.zipWith_cons_cons, List.sum_cons]
      rw [mul_comm c.2, add_assoc]
    · rw [h4]
      show ({ s.own with idCounter := s.own.idCounter + 1 + 1 + 2 * cs.length, transcript := tr } : VTracker F C B) = _
      rw [List.length_cons, show s.own.idCounter + 1 + 1 + 2 * cs.length = s.own.idCounter + 2 * (cs.length + 1) by omega]

theorem aggregate_exact (H : Oracle F C) (s : VSt F C B) (h : s.own.transcript.isEmpty = false) :
    ∃ cs tr1 r tr2 ds tr3 agg s', s.own.transcript.challengeLoop H "zerocheck challenge" s.own.zeroClaims.length = .ok (cs, tr1) ∧
      tr1.challenges H "0check r" s.own.proof.scNumVars = .ok (r, tr2) ∧
      tr2.challengeLoop H "sumcheck challenge" (s.own.sumClaims.length + 1) = .ok (ds, tr3) ∧ tr3.isEmpty = false ∧ ds.length = s.own.sumClaims.length + 1 ∧
      VSt.aggregate H s = (.ok (agg, dot ds (s.own.sumClaims.map (·.2) ++ [0])), s') ∧
      s'.own = { s.own with
        idCounter := s.own.idCounter + 2 * s.own.zeroClaims.length + 2 * s.own.sumClaims.length + 6
        transcript := tr3, sumClaims := s.own.sumClaims ++ [(addedClaim s, 0)] } ∧ s'.sh.queries = s.sh.queries := by
  obtain ⟨cs, tr1, a1, s1, h1, h2, h3, h4, h5⟩ := foldZero_exact H s.own.zeroClaims s.own.idCounter (s.push (.fn fun _ => .ok 0)) h
  obtain ⟨r, tr2, k1, _, k2⟩ := challenges_ok H "0check r" s.own.proof.scNumVars tr1 h2
  have ht1 : s1.own.transcript = tr1 := by rw [h4]
  have hcnt1 : s1.own.idCounter = s.own.idCounter + 2 * s.own.zeroClaims.length + 1 := by
    rw [h4]
    show s.own.idCounter + 1 + 2 * s.own.zeroClaims.length = _
    omega
  set s2 : VSt F C B := ((s1.setTr tr2).push (.fn fun pt => eqEval pt r)).push (.mul a1 s1.own.idCounter) with hs2
  set s3 : VSt F C B := ⟨{ s2.own with sumClaims := s2.own.sumClaims ++ [(addedClaim s, 0)] }, s2.sh⟩ with hs3
  have hown : s3.own = { s.own with
      idCounter := s.own.idCounter + 2 * s.own.zeroClaims.length + 3, transcript := tr2, sumClaims := s.own.sumClaims ++ [(addedClaim s, 0)] } := by
    show ({ s1.own with
      idCounter := s1.own.idCounter + 1 + 1, transcript := tr2, sumClaims := s1.own.sumClaims ++ [(addedClaim s, 0)] } : VTracker F C B) = _
    rw [hcnt1, h4]
    rfl
  have hc : VSt.convertZero H s.own.proof.scNumVars s = (.ok (), s3) := by
    unfold VSt.convertZero
    rw [Act.bind_ok (trackVirtual_run _ s), Act.reads_bind, show (s.push (.fn fun _ => .ok 0)).own.zeroClaims = s.own.zeroClaims from rfl,
      Act.bind_ok h3, Act.bind_ok (a := r) (s' := s1.setTr tr2) (by simp only [VSt.challengesU, ht1, k1]; rfl), Act.bind_ok (trackVirtual_run _ _)]
    unfold VSt.mulComms
    rw [Act.bind_ok (trackVirtual_run _ _), show ((s1.setTr tr2).push (.fn fun pt => eqEval pt r)).own.idCounter = addedClaim s by
      show s1.own.idCounter + 1 = _
      unfold addedClaim
      omega]
    rfl
  obtain ⟨ds, tr3, a3, s4, f1, f2, f3, f4, f5, f6⟩ := foldSum_exact H s3.own.sumClaims s3.own.idCounter 0 (s3.push (.fn fun _ => .ok 0)) (by
    show s3.own.transcript.isEmpty = false
    rw [hown]; exact k2)
  have hlen : s3.own.sumClaims.length = s.own.sumClaims.length + 1 := by rw [hown]; simp
  have f1 : s3.own.transcript.challengeLoop H "sumcheck challenge" s3.own.sumClaims.length = .ok (ds, tr3) := f1
  rw [hlen, hown] at f1
  refine ⟨cs, tr1, r, tr2, ds, tr3, a3, s4, h1, k1, f1, f2, f3.trans hlen, ?_, ?_, ?_⟩
  · unfold VSt.aggregate
    rw [Act.reads_bind, Act.bind_ok hc, Act.bind_ok (trackVirtual_run _ s3), Act.reads_bind]
    refine Eq.trans f4 ?_
    rw [hown, zero_add, List.map_append]
    rfl
  · rw [f5, hlen]
    show ({ s3.own with idCounter := s3.own.idCounter + 1 + 2 * (s.own.sumClaims.length + 1), transcript := tr3 } : VTracker F C B) = _
    rw [hown]
    dsimp only
    rw [show s.own.idCounter + 2 * s.own.zeroClaims.length + 3 + 1 + 2 * (s.own.sumClaims.length + 1) =
      s.own.idCounter + 2 * s.own.zeroClaims.length + 2 * s.own.sumClaims.length + 6 by omega]
  · rw [f6]
    exact h5

/-- The first round message of a sumcheck that verifies adds up to the claimed sum. -/
theorem sumcheckVerify_first {H : Oracle F C} {v : F} {pf : IOPProof F} {d n : Nat} {tr tr' : Transcript F C} {sub : SubClaim F}
    (h : sumcheckVerify H v pf d n tr = .ok (sub, tr')) : (pf.proofs.headD []).getD 0 0 + (pf.proofs.headD []).getD 1 0 = v := by
  obtain ⟨hn0, hlen, _⟩ := sumcheckVerify_shape H v pf d n tr tr' sub h
  have h1 := verifyLoop_ok H pf n d n 0 (by simp) (by omega) hlen [] [] (tr.append "aux info" (.aux d n))
  simp only [List.drop_zero, List.nil_append, Nat.zero_add] at h1
  simp only [sumcheckVerify, verifierInit, h1, ok_bind] at h
  unfold checkAndGenerateSubclaim at h
  rw [if_neg (by simp), if_neg (by simp [hlen])] at h
  obtain ⟨sub', h2, _⟩ := aft_bind_inv h
  obtain ⟨ex, _, h2⟩ := aft_bind_inv h2
  obtain ⟨_, h3, _⟩ := aft_bind_inv h2
  obtain ⟨m, ms, hm⟩ : ∃ m ms, pf.proofs = m :: ms := by
    rcases e : pf.proofs with _ | ⟨m, ms⟩
    · rw [e] at hlen; simp at hlen; omega
    · exact ⟨m, ms, rfl⟩
  obtain ⟨k, rfl⟩ : ∃ k, n = k + 1 := ⟨n - 1, by omega⟩
  rw [hm] at h3 ⊢
  simp only [List.take_succ_cons, deferredChecks] at h3
  obtain ⟨a, ha, h3⟩ := aft_bind_inv h3
  obtain ⟨b, hb, h3⟩ := aft_bind_inv h3
  split at h3
  · simp at h3
  rename_i hab
  have get : ∀ (i : Nat) (x : F), idx m i = .ok x → m.getD i 0 = x := by
    intro i x hx
    unfold idx at hx
    rcases e : m[i]? with _ | y
    · rw [e] at hx; simp at hx
    · rw [e] at hx
      simp at hx
      simp [List.getD, e, hx]
  simp only [List.headD_cons]
  rw [get 0 a ha, get 1 b hb]
  simpa using hab

theorem dot_set : ∀ (ds vs : List F) (i : Nat) (x d v : F), ds[i]? = some d → vs[i]? = some v → dot (ds.set i x) vs = dot ds vs + (x - d) * v
  | [], _, _, _, _, _, h, _ => by simp at h
  | _ :: _, [], _, _, _, _, _, h => by simp at h
  | a :: ds, b :: vs, 0, x, d, v, h, h' => by
    simp at h h'
    subst h h'
    simp [dot]
    ring
  | a :: ds, b :: vs, i + 1, x, d, v, h, h' => by
    have := dot_set ds vs i x d v (by simpa using h) (by simpa using h')
    simp only [dot, List.set_cons_succ, List.zipWith_cons_cons, List.sum_cons] at this ⊢
    rw [this]
    ring

end Zksql
