import Verif.Spec.Binding
import Verif.Lemmas.Twin
import Verif.Props.Compile
import Verif.Lemmas.RunEx
import Verif.Spec.EndToEnd
/-!
C94: whether the sums a proof claims are fixed before the challenges that depend on them.
-/
set_option linter.unusedSectionVars false
namespace Zksql
open Spec
variable {F C B : Type} [Field F] [DecidableEq F]

/-- C94 as one would expect it: a verifier that is given a proof with other claimed sums, and records other sums because of it, has another transcript,
so that the challenges drawn afterwards depend on the sums. -/
def C94_statement : Prop :=
  ∀ (F C B : Type) [Field F] [DecidableEq F] (debug : Bool) (H : Oracle F C) (p : CompiledProof F C B) (sc : List (Nat × F)) (ops : List (VOp F C B))
    (vs vs' : VState F C B), (∀ q, VOp.setProof q ∉ ops) → runVOps debug H VState.init (.setProof p :: ops) = .ok vs →
    runVOps debug H VState.init (.setProof (withSums sc p) :: ops) = .ok vs' → vs'.st.own.sumClaims ≠ vs.st.own.sumClaims →
    vs'.st.own.transcript ≠ vs.st.own.transcript

theorem twin_start (p : CompiledProof F C B) {sc : List (Nat × F)} (hk : SameKeys sc p.sumcheckClaims) :
    TwinState ((VState.init : VState F C B).re p) (VState.init.re (withSums sc p)) :=
  ⟨⟨rfl, rfl, rfl, rfl, rfl, rfl, rfl, hk⟩, rfl⟩

theorem twin_history (debug : Bool) (H : Oracle F C) (p : CompiledProof F C B) {sc : List (Nat × F)} (hk : SameKeys sc p.sumcheckClaims)
    (ops : List (VOp F C B)) (hops : ∀ q, VOp.setProof q ∉ ops) (vs : VState F C B) (hrun : runVOps debug H VState.init (.setProof p :: ops) = .ok vs) :
    ∃ vs', runVOps debug H VState.init (.setProof (withSums sc p) :: ops) = .ok vs' ∧ TwinState vs vs' := by
  unfold runVOps at hrun
  rw [List.foldlM_cons, withProof_run, ok_bind] at hrun
  have h := twin_ops debug H ops hops (twin_start p hk)
  change ResRel _ (runVOps debug H _ ops) (runVOps debug H _ ops) at h
  have e : runVOps debug H ((VState.init : VState F C B).re p) ops = .ok vs := hrun
  rw [e] at h
  rcases h' : runVOps debug H ((VState.init : VState F C B).re (withSums sc p)) ops with e | vs'
  · rw [h'] at h; exact h.elim
  · rw [h'] at h
    refine ⟨vs', ?_, h⟩
    unfold runVOps at h' ⊢
    rw [List.foldlM_cons, withProof_run, ok_bind]
    exact h'

/-- C94 is false of every history: whatever other sums the proof claims, the verifier runs alike, and its transcript, handles, closures, commitments
and zero claims are the same; only the recorded sums differ. -/
theorem C94_unbound (debug : Bool) (H : Oracle F C) (p : CompiledProof F C B) (sc : List (Nat × F)) (hk : SameKeys sc p.sumcheckClaims)
    (ops : List (VOp F C B)) (hops : ∀ q, VOp.setProof q ∉ ops) (vs : VState F C B) (hrun : runVOps debug H VState.init (.setProof p :: ops) = .ok vs) :
    ∃ vs', runVOps debug H VState.init (.setProof (withSums sc p) :: ops) = .ok vs' ∧ vs'.st.own.transcript = vs.st.own.transcript ∧
      vs'.handles = vs.handles ∧ vs'.st.sh = vs.st.sh ∧ vs'.st.own.matComms = vs.st.own.matComms ∧ vs'.st.own.zeroClaims = vs.st.own.zeroClaims ∧
      vs'.st.own.sumClaims.map (·.1) = vs.st.own.sumClaims.map (·.1) := by
  obtain ⟨vs', h1, h2, h3⟩ := twin_history debug H p hk ops hops vs hrun
  exact ⟨vs', h1, h2.tr, h3, h2.sh, h2.mats, h2.zeros, h2.sums⟩

/-- The two states of `C94_unbound` are indistinguishable for `verify_claims` as soon as the folded sums agree. -/
theorem twin_verdict (pcs : Pcs F C B) (H : Oracle F C) {s s' : VSt F C B} (h : Twin s s')
    (hsm : ∀ agg sm s1 agg' sm' s1', VSt.aggregate H s = (.ok (agg, sm), s1) → VSt.aggregate H s' = (.ok (agg', sm'), s1') → sm' = sm) :
    (VSt.verifyClaims pcs H s').1 = (VSt.verifyClaims pcs H s).1 ∧
      ∀ agg sm s1, VSt.aggregate H s = (.ok (agg, sm), s1) → ∃ s1', VSt.aggregate H s' = (.ok (agg, sm), s1') ∧ Twin s1 s1' := by
  obtain ⟨a1, a2⟩ := twin_aggregate H s s' h
  rw [verifyClaims_eq, Act.bind_run, Act.bind_run]
  rcases h1 : VSt.aggregate H s with ⟨e | ⟨agg, sm⟩, s1⟩ <;> rcases h2 : VSt.aggregate H s' with ⟨e' | ⟨agg', sm'⟩, s1'⟩ <;> rw [h1, h2] at a1 a2
  · refine ⟨?_, fun _ _ _ e => by simp at e⟩
    obtain rfl : e = e' := a1
    rfl
  · exact a1.elim
  · exact a1.elim
  · obtain rfl : agg' = agg := a1
    obtain rfl := hsm _ _ _ _ _ _ h1 h2
    refine ⟨?_, ?_⟩
    · have := (twin_after pcs H sm' s1 s1' a2).1
      show (VSt.afterAggregate pcs H sm' s1').1 = (VSt.afterAggregate pcs H sm' s1).1
      rcases e1 : (VSt.afterAggregate pcs H sm' s1).1 with e | _ <;> rcases e2 : (VSt.afterAggregate pcs H sm' s1').1 with e' | _ <;> rw [e1, e2] at this
      · exact congrArg _ (Eq.symm this)
      · exact this.elim
      · exact this.elim
    · intro agg sm s e
      obtain ⟨e1, rfl⟩ := Prod.mk.inj e
      obtain ⟨rfl, rfl⟩ := Prod.mk.inj (Except.ok.inj e1)
      exact ⟨s1', rfl, a2⟩

theorem twin_checks (pcs : Pcs F C B) (H : Oracle F C) {s s' : VSt F C B} (h : Twin s s')
    (hsm : ∀ agg sm s1 agg' sm' s1', VSt.aggregate H s = (.ok (agg, sm), s1) → VSt.aggregate H s' = (.ok (agg', sm'), s1') → sm' = sm) (hs : List Nat) :
    (FinalCheck H ⟨s, hs⟩ → FinalCheck H ⟨s', hs⟩) ∧ (OpeningCheck pcs H ⟨s, hs⟩ → OpeningCheck pcs H ⟨s', hs⟩) ∧
      ∀ P, TrueFinalCheck H P s → TrueFinalCheck H P s' := by
  have key : ∀ agg sm s1', VSt.aggregate H s' = (.ok (agg, sm), s1') → ∃ s1, VSt.aggregate H s = (.ok (agg, sm), s1) ∧ Twin s1 s1' := by
    intro agg sm s1' h2
    obtain ⟨a1, a2⟩ := twin_aggregate H s s' h
    rcases h1 : VSt.aggregate H s with ⟨e | ⟨agg0, sm0⟩, s1⟩ <;> rw [h1, h2] at a1 a2
    · exact a1.elim
    · obtain rfl : agg = agg0 := a1
      obtain rfl := hsm _ _ _ _ _ _ h1 h2
      exact ⟨s1, rfl, a2⟩
  obtain ⟨f1, -, f2, f3, f4, f5⟩ := h.field
  refine ⟨?_, ?_, ?_⟩
  · intro hf agg sm s1' sub tr1 e1 e2
    obtain ⟨s1, e3, ht⟩ := key _ _ _ e1
    rw [ht.tr] at e2
    change sumcheckVerify H sm s'.own.proof.scProof s'.own.proof.scMaxDegree s'.own.proof.scNumVars _ = _ at e2
    rw [f2, f3, f4] at e2
    rw [ht.sh]
    exact hf agg sm s1 sub tr1 e3 e2
  · intro hf agg sm s1' sub tr1 e1 e2
    obtain ⟨s1, e3, ht⟩ := key _ _ _ e1
    rw [ht.tr] at e2
    change sumcheckVerify H sm s'.own.proof.scProof s'.own.proof.scMaxDegree s'.own.proof.scNumVars _ = _ at e2
    rw [f2, f3, f4] at e2
    obtain ⟨comms, bp, tr2, g1, g2, g3⟩ := hf agg sm s1 sub tr1 e3 e2
    refine ⟨comms, bp, tr2, ?_, ?_, ?_⟩
    · show ((PTracker.sortedIds s'.own.proof.comms).mapM fun id => unwrap (s'.own.matComms.lookup id)) = _
      rw [f1, h.mats]; exact g1
    · show s'.own.proof.pcsProof[0]? = _
      rw [f5]; exact g2
    · show pcs.batchVerify comms ((PTracker.sortedIds s'.own.proof.comms).map fun _ => sub.point) bp tr1 = _
      rw [f1]; exact g3
  · intro P hf agg sm s1' sub tr1 e1 e2
    obtain ⟨s1, e3, ht⟩ := key _ _ _ e1
    rw [ht.tr, f2, f3, f4] at e2
    have := hf agg sm s1 sub tr1 e3 e2
    unfold valueAt answer at this ⊢
    rw [ht.sh, ht.mats]
    exact this

/-- The two states of `C94_unbound` when moreover the folded sums agree: `verify_claims` returns the same, the same polynomial is aggregated, and neither
the comparison it leaves out nor the opening can tell the proofs apart. -/
theorem C94_exchange (pcs : Pcs F C B) (debug : Bool) (H : Oracle F C) (p : CompiledProof F C B) (sc : List (Nat × F))
    (hk : SameKeys sc p.sumcheckClaims) (ops : List (VOp F C B)) (hops : ∀ q, VOp.setProof q ∉ ops) (vs vs' : VState F C B)
    (hrun : runVOps debug H VState.init (.setProof p :: ops) = .ok vs) (hrun' : runVOps debug H VState.init (.setProof (withSums sc p) :: ops) = .ok vs')
    (hne : vs.st.own.transcript.isEmpty = false)
    (hds : ∀ cs r ds, FoldingChallenges H vs.st cs r ds → foldedSum ds (vs'.st.own.sumClaims.map (·.2)) = foldedSum ds (vs.st.own.sumClaims.map (·.2))) :
    (VSt.verifyClaims pcs H vs'.st).1 = (VSt.verifyClaims pcs H vs.st).1 ∧
      (∀ agg sm s1, VSt.aggregate H vs.st = (.ok (agg, sm), s1) → ∃ s1', VSt.aggregate H vs'.st = (.ok (agg, sm), s1') ∧ s1'.sh = s1.sh ∧
        s1'.own.transcript = s1.own.transcript) ∧
      (FinalCheck H vs → FinalCheck H vs') ∧ (OpeningCheck pcs H vs → OpeningCheck pcs H vs') ∧ ∀ P, TrueFinalCheck H P vs.st → TrueFinalCheck H P vs'.st := by
  obtain ⟨vs'', e, ht, hh⟩ := twin_history debug H p hk ops hops vs hrun
  obtain rfl : vs'' = vs' := by rw [hrun'] at e; exact (Except.ok.inj e).symm
  have hinv : VInv vs := (runVOps_stepOk vinv_init _ hrun).inv
  have hinv' : VInv vs'' := (runVOps_stepOk vinv_init _ hrun').inv
  have hsm : ∀ agg sm s1 agg' sm' s1', VSt.aggregate H vs.st = (.ok (agg, sm), s1) → VSt.aggregate H vs''.st = (.ok (agg', sm'), s1') → sm' = sm := by
    intro agg sm s1 agg' sm' s1' h1 h2
    obtain ⟨cs, tr1, r, tr2, ds, tr3, agg0, t0, a1, _, a3, _, a5, _, _, hagg, _⟩ :=
      VSt.aggregate_run H (s := vs.st) rfl hinv.wf hne hinv.claims.2 hinv.claims.1
    obtain ⟨cs', tr1', r', tr2', ds', tr3', agg0', t0', b1, _, b3, _, b5, _, _, hagg', _⟩ :=
      VSt.aggregate_run H (s := vs''.st) rfl hinv'.wf (by rw [ht.tr]; exact hne) hinv'.claims.2 hinv'.claims.1
    rw [ht.tr, ht.zeros, a1] at b1
    obtain ⟨rfl, rfl⟩ := Prod.mk.inj (Except.ok.inj b1)
    rw [ht.field.2.2.2.2.1, a3] at b3
    obtain ⟨rfl, rfl⟩ := Prod.mk.inj (Except.ok.inj b3)
    have hl : vs''.st.own.sumClaims.length = vs.st.own.sumClaims.length := by simpa using congrArg List.length ht.sums
    rw [hl, a5] at b5
    obtain ⟨rfl, rfl⟩ := Prod.mk.inj (Except.ok.inj b5)
    rw [hagg] at h1
    rw [hagg'] at h2
    obtain ⟨-, rfl⟩ := Prod.mk.inj (Except.ok.inj (Prod.mk.inj h1).1)
    obtain ⟨-, rfl⟩ := Prod.mk.inj (Except.ok.inj (Prod.mk.inj h2).1)
    exact hds cs r ds ⟨_, _, _, a1, a3, a5⟩
  obtain ⟨v1, v2⟩ := twin_verdict pcs H ht hsm
  obtain ⟨k1, k2, k3⟩ := twin_checks pcs H ht hsm vs.handles
  refine ⟨v1, ?_, k1, k2, k3⟩
  intro agg sm s1 h1
  obtain ⟨s1', h2, ht'⟩ := v2 agg sm s1 h1
  exact ⟨s1', h2, ht'.sh, ht'.tr⟩

theorem foldedSum_change (ds : List F) (ids : List Nat) (f g : Nat → F) (a b : Nat) (hab : a ≠ b) (hfg : ∀ i, i ≠ a → i ≠ b → g i = f i) :
    foldedSum ds (ids.map g) = foldedSum ds (ids.map f) + (g a - f a) * weightOf ds ids a + (g b - f b) * weightOf ds ids b := by
  unfold foldedSum weightOf
  induction ids generalizing ds with
  | nil => cases ds <;> simp [dot]
  | cons i ids ih =>
    cases ds with
    | nil => simp [dot]
    | cons d ds =>
      simp only [List.map_cons, List.cons_append, dot_cons, ih]
      by_cases h1 : i = a
      · subst h1
        rw [if_pos rfl, if_neg hab]
        ring
      · by_cases h2 : i = b
        · subst h2
          rw [if_pos rfl, if_neg (fun h => hab h.symm)]
          ring
        · rw [if_neg h1, if_neg h2, hfg i h1 h2]
          ring

/-- A proof can be changed to claim any sum whatever for one polynomial, if it claims a sum for another one too.  Let a history read all its sums
from the proof, and let `a` and `b` be two identifiers it claims sums for.  If the challenges of the claims about `b` do not cancel, then for every
value `v` there is a proof that claims `v` for `a`, the same as before for all but `a` and `b`, and differs in nothing else, such that the
verifier records that sum and neither `verify_claims`, nor the comparison it leaves out, nor the opening tells the proofs apart. -/
theorem C94_any_sum (pcs : Pcs F C B) (debug : Bool) (H : Oracle F C) (p : CompiledProof F C B) (ops : List (VOp F C B))
    (hops : ∀ q, VOp.setProof q ∉ ops) (hsums : ∀ i v, VOp.sumClaim i v ∉ ops) (vs : VState F C B)
    (hrun : runVOps debug H VState.init (.setProof p :: ops) = .ok vs) (hne : vs.st.own.transcript.isEmpty = false)
    (a b : Nat) (hab : a ≠ b) (ha : a ∈ vs.st.own.sumClaims.map (·.1)) (hb : b ∈ vs.st.own.sumClaims.map (·.1))
    (cs r ds : List F) (hch : FoldingChallenges H vs.st cs r ds) (hw : weightOf ds (vs.st.own.sumClaims.map (·.1)) b ≠ 0) (v : F) :
    ∃ sc, SameKeys sc p.sumcheckClaims ∧ sc.lookup a = some v ∧ (∀ id, id ≠ a → id ≠ b → sc.lookup id = p.sumcheckClaims.lookup id) ∧
      ∃ vs', runVOps debug H VState.init (.setProof (withSums sc p) :: ops) = .ok vs' ∧ vs'.st.own.transcript = vs.st.own.transcript ∧
        vs'.handles = vs.handles ∧ vs'.st.sh = vs.st.sh ∧ (a, v) ∈ vs'.st.own.sumClaims ∧
        (Accepts pcs H vs' ↔ Accepts pcs H vs) ∧ (FinalCheck H vs → FinalCheck H vs') ∧ (OpeningCheck pcs H vs → OpeningCheck pcs H vs') ∧
        ∀ P, TrueFinalCheck H P vs.st → TrueFinalCheck H P vs'.st := by
  have hread : ∀ o ∈ ops, Reading o := fun o ho => ⟨fun q e => hops q (e ▸ ho), fun i v e => hsums i v (e ▸ ho)⟩
  have hproof : ∀ q : CompiledProof F C B, ∀ w, runVOps debug H VState.init (.setProof q :: ops) = .ok w → SumsRead w ∧ w.st.own.proof = q := by
    intro q w h
    unfold runVOps at h
    rw [List.foldlM_cons, withProof_run, ok_bind] at h
    have h0 : SumsRead ((VState.init : VState F C B).re q) := by intro c hc; simp [VState.init, VState.re, VSt.re, VSt.new] at hc
    exact ⟨runVOps_sums ops hread h0 h, (swap_ops (p := q) (p' := q) debug H rfl rfl rfl ops hops rfl h).2⟩
  obtain ⟨hr1, hp1⟩ := hproof p vs hrun
  unfold SumsRead at hr1
  rw [hp1] at hr1
  obtain ⟨ca, hca, rfl⟩ := List.mem_map.1 ha
  obtain ⟨cb, hcb, rfl⟩ := List.mem_map.1 hb
  set ids := vs.st.own.sumClaims.map (·.1) with hids
  let f : Nat → F := fun i => (p.sumcheckClaims.lookup i).getD 0
  let w : F := cb.2 - (v - ca.2) * weightOf ds ids ca.1 / weightOf ds ids cb.1
  let sc := amInsert ca.1 v (amInsert cb.1 w p.sumcheckClaims)
  have hla : sc.lookup ca.1 = some v := by rw [lookup_amInsert, if_pos rfl]
  have hlb : sc.lookup cb.1 = some w := by rw [lookup_amInsert, if_neg (fun h => hab h.symm), lookup_amInsert, if_pos rfl]
  have hlo : ∀ id, id ≠ ca.1 → id ≠ cb.1 → sc.lookup id = p.sumcheckClaims.lookup id := by
    intro id h1 h2
    rw [lookup_amInsert, if_neg h1, lookup_amInsert, if_neg h2]
  have hk : SameKeys sc p.sumcheckClaims := by
    intro id
    by_cases h1 : id = ca.1
    · rw [h1, hla, hr1 ca hca]
      rfl
    · by_cases h2 : id = cb.1
      · rw [h2, hlb, hr1 cb hcb]
        rfl
      · rw [hlo id h1 h2]
  obtain ⟨vs', hrun', ht, hh⟩ := twin_history debug H p hk ops hops vs hrun
  obtain ⟨hr2, hp2⟩ := hproof _ vs' hrun'
  unfold SumsRead at hr2
  rw [hp2] at hr2
  have hr2' : ∀ c ∈ vs'.st.own.sumClaims, sc.lookup c.1 = some c.2 := hr2
  let g : Nat → F := fun i => (sc.lookup i).getD 0
  have e1 : vs.st.own.sumClaims.map (·.2) = ids.map f := by
    rw [hids, List.map_map]
    refine List.map_congr_left fun c hc => ?_
    simp only [f, Function.comp, hr1 c hc, Option.getD_some]
  have e2 : vs'.st.own.sumClaims.map (·.2) = ids.map g := by
    rw [hids, ← ht.sums, List.map_map]
    refine List.map_congr_left fun c hc => ?_
    simp only [g, Function.comp, hr2' c hc, Option.getD_some]
  have hds : ∀ cs' r' ds', FoldingChallenges H vs.st cs' r' ds' →
      foldedSum ds' (vs'.st.own.sumClaims.map (·.2)) = foldedSum ds' (vs.st.own.sumClaims.map (·.2)) := by
    rintro cs' r' ds' ⟨_, _, _, q1, q2, q3⟩
    obtain ⟨_, _, _, q4, q5, q6⟩ := hch
    rw [q4] at q1
    obtain ⟨rfl, rfl⟩ := Prod.mk.inj (Except.ok.inj q1)
    rw [q5] at q2
    obtain ⟨rfl, rfl⟩ := Prod.mk.inj (Except.ok.inj q2)
    rw [q6] at q3
    obtain ⟨rfl, rfl⟩ := Prod.mk.inj (Except.ok.inj q3)
    rw [e1, e2, foldedSum_change ds ids f g ca.1 cb.1 hab (fun i h1 h2 => by simp only [f, g, hlo i h1 h2])]
    have ga : g ca.1 = v := by simp only [g, hla, Option.getD_some]
    have gb : g cb.1 = w := by simp only [g, hlb, Option.getD_some]
    have fa : f ca.1 = ca.2 := by simp only [f, hr1 ca hca, Option.getD_some]
    have fb : f cb.1 = cb.2 := by simp only [f, hr1 cb hcb, Option.getD_some]
    rw [ga, gb, fa, fb]
    simp only [w]
    field_simp
    ring
  obtain ⟨x1, -, x3, x4, x5⟩ := C94_exchange pcs debug H p sc hk ops hops vs vs' hrun hrun' hne hds
  refine ⟨sc, hk, hla, hlo, vs', hrun', ht.tr, hh, ht.sh, ?_, ?_, x3, x4, x5⟩
  · have : ca.1 ∈ vs'.st.own.sumClaims.map (·.1) := by rw [ht.sums]; exact ha
    obtain ⟨c, hc, he⟩ := List.mem_map.1 this
    have h1 := hr2' c hc
    rw [he, hla] at h1
    have : c = (ca.1, v) := Prod.ext he (Option.some.inj h1).symm
    rw [← this]; exact hc
  · unfold Accepts
    rw [x1]

/-! ### Bag equality -/

theorem verifySub_step (E : Env F C) (bag : BagComm) (m : Nat) (γ : F) {s : VSt F C B} {c : C} {v : F}
    (hc : s.own.proof.comms.lookup s.own.idCounter = some c) (hv : s.own.proof.sumcheckClaims.lookup (s.own.idCounter + 2) = some v) :
    ∃ s', Multitool.verifySub E bag m γ s = (.ok v, s') ∧ s'.own.idCounter = s.own.idCounter + 8 ∧ s'.own.proof = s.own.proof ∧
      s'.own.sumClaims = s.own.sumClaims ++ [(s.own.idCounter + 2, v)] := by
  unfold Multitool.verifySub
  have e0 : VSt.transferComm E.debug s.own.idCounter s = (.ok s.own.idCounter, s.pushMat c) := by
    unfold VSt.transferComm
    rw [Act.bind_ok (a := c) (s' := s) (by simp [hc]), Act.bind_ok (Act.expect_ok (VSt.trackMatComm_run c s)), Act.bind_ok (Act.assert_true (fun _ => rfl) _)]
    rfl
  rw [Act.bind_ok (show VSt.getNextId s = (.ok s.own.idCounter, s) from rfl), Act.bind_ok e0]
  rw [VSt.mulComms, Act.bind_ok (VSt.trackVirtual_run _ _), VSt.mulComms, Act.bind_ok (VSt.trackVirtual_run _ _), VSt.mulComms,
    Act.bind_ok (VSt.trackVirtual_run _ _), VSt.mulScalar, Act.bind_ok (VSt.trackVirtual_run _ _), VSt.subComms, Act.bind_ok (VSt.trackVirtual_run _ _),
    Act.bind_ok (VSt.addScalar_run _ _ _)]
  rw [Act.bind_ok (a := v) (s' := _) (by
    unfold VSt.claimedSum
    rw [Act.reads_run]
    show (unwrap (s.own.proof.sumcheckClaims.lookup (s.own.idCounter + 2)), _) = _
    rw [hv]
    rfl)]
  exact ⟨_, rfl, rfl, rfl, rfl⟩

theorem twin_verifySub (E : Env F C) (bag : BagComm) (m : Nat) (γ : F) :
    TwinRun (fun _ _ => True) (Multitool.verifySub E bag m γ : Act (VSt F C B) F) (Multitool.verifySub E bag m γ) := by
  unfold Multitool.verifySub
  refine twin_getNextId.bind fun a b hab => ?_
  subst hab
  refine (twin_transfer _ _).bind fun a b hab => ?_
  subst hab
  refine (twin_virt _).bind fun a b hab => ?_
  subst hab
  refine (twin_virt _).bind fun a b hab => ?_
  subst hab
  refine (twin_virt _).bind fun a b hab => ?_
  subst hab
  refine (twin_virt _).bind fun a b hab => ?_
  subst hab
  refine (twin_virt _).bind fun a b hab => ?_
  subst hab
  refine (twin_addScalar _ _).bind fun a b hab => ?_
  subst hab
  exact (twin_claimed _).bind fun v v' _ => (twin_addSum _ v v').bind fun _ _ _ => (twin_addZero _).bind fun _ _ _ => twin_pure trivial

/-- The calls of the equality check up to the comparison of the two sums. -/
def bagEqSums (E : Env F C) (fx gx : BagComm) : Act (VSt F C B) (F × F) := do
  let one ← VSt.trackVirtual (oneFn F)
  let γ ← VSt.challenge E.H "gamma"
  let v ← Multitool.verifySub E fx one γ
  let w ← Multitool.verifySub E gx one γ
  pure (v, w)

theorem bagEqSums_run (E : Env F C) (fx gx : BagComm) {s : VSt F C B} {c1 c2 : C} {t1 t2 : F} (hne : s.own.transcript.isEmpty = false)
    (hc1 : s.own.proof.comms.lookup (s.own.idCounter + 1) = some c1) (hc2 : s.own.proof.comms.lookup (s.own.idCounter + 9) = some c2)
    (ht1 : s.own.proof.sumcheckClaims.lookup (s.own.idCounter + 3) = some t1) (ht2 : s.own.proof.sumcheckClaims.lookup (s.own.idCounter + 11) = some t2) :
    ∃ s', bagEqSums E fx gx s = (.ok (t1, t2), s') ∧ s'.own.sumClaims = s.own.sumClaims ++ [(s.own.idCounter + 3, t1), (s.own.idCounter + 11, t2)] := by
  unfold bagEqSums
  rw [Act.bind_ok (VSt.trackVirtual_run _ _)]
  obtain ⟨γ, tr, hγ⟩ : ∃ γ tr, s.own.transcript.challenge E.H "gamma" = .ok (γ, tr) := by
    unfold Transcript.challenge
    rw [if_neg (by simp [hne])]
    exact ⟨_, _, rfl⟩
  rw [Act.bind_ok (a := γ) (s' := { s.push (oneFn F) with own := { (s.push (oneFn F)).own with transcript := tr } }) (by
    unfold VSt.challenge
    rw [show (s.push (oneFn F)).own.transcript = s.own.transcript from rfl, hγ])]
  obtain ⟨s1, e1, e2, e3, e4⟩ := verifySub_step (B := B) E fx s.own.idCounter γ
    (s := { s.push (oneFn F) with own := { (s.push (oneFn F)).own with transcript := tr } }) (c := c1) (v := t1) hc1 ht1
  have k : s1.own.idCounter = s.own.idCounter + 9 := e2
  have k3 : s1.own.proof = s.own.proof := e3
  rw [Act.bind_ok e1]
  obtain ⟨s2, f1, f2, f3, f4⟩ := verifySub_step (B := B) E gx s.own.idCounter γ (s := s1) (c := c2) (v := t2) (by rw [k, k3]; exact hc2) (by rw [k, k3]; exact ht2)
  rw [Act.bind_ok f1]
  refine ⟨s2, rfl, ?_⟩
  rw [f4, e4, k]
  show s.own.sumClaims ++ [(s.own.idCounter + 3, t1)] ++ [(s.own.idCounter + 11, t2)] = _
  rw [List.append_assoc]
  rfl

theorem bagEq_eq (E : Env F C) (fx gx : BagComm) (hnv : fx.numVars = gx.numVars) :
    (BagEq.verify E fx gx : Act (VSt F C B) Unit) = bagEqSums E fx gx >>= fun q => if q.1 = q.2 then pure () else Act.lift (.error (.err .invalidVerifier)) := by
  have hd : ∀ v : F, Multitool.divPow2 v 0 = .ok v := by
    intro v
    unfold Multitool.divPow2
    rw [if_neg (by simp)]
    simp
  unfold BagEq.verify bagEqSums Multitool.verify
  simp only [List.isEmpty_cons, List.length_cons, List.zip_cons_cons, List.zip_nil_left,
    Multitool.verifySubs, Multitool.maxNv, List.map_cons, List.map_nil, List.foldl_cons, List.foldl_nil, Act.bind_assoc]
  have hm : max (max 0 fx.numVars) (max 0 gx.numVars) = fx.numVars := by omega
  rw [hm, ← hnv, Nat.sub_self]
  simp only [hd, zero_add]
  rfl

/-- Any two bags of the same size can be shown equal.  Take a verifier about to check that two bags are equal, holding any proof with the two
commitments and the two sums the check reads, whatever the bags and the sums are (the check fails when the sums differ).  Unless the challenges of
the two sums cancel, the proof can be given other values for these two sums so that the check succeeds; and neither `verify_claims`, nor the comparison
it leaves out made with the committed polynomials themselves, nor the opening tells that proof from the first one.  So a prover who follows the
protocol with unequal bags has only to replace the two sums at the end. -/
theorem C94_bag_equality (pcs : Pcs F C B) (E : Env F C) (fx gx : BagComm) (hnv : fx.numVars = gx.numVars) (s : VSt F C B)
    (hne : s.own.transcript.isEmpty = false) (c1 c2 : C) (t1 t2 : F)
    (hc1 : s.own.proof.comms.lookup (s.own.idCounter + 1) = some c1) (hc2 : s.own.proof.comms.lookup (s.own.idCounter + 9) = some c2)
    (ht1 : s.own.proof.sumcheckClaims.lookup (s.own.idCounter + 3) = some t1) (ht2 : s.own.proof.sumcheckClaims.lookup (s.own.idCounter + 11) = some t2) :
    ∃ s', BagEq.verify E fx gx s = (if t1 = t2 then .ok () else .error (.err .invalidVerifier), s') ∧
      ∀ cs r ds, FoldingChallenges E.H s' cs r ds → ds.getD s.own.sumClaims.length 0 + ds.getD (s.own.sumClaims.length + 1) 0 ≠ 0 →
        ∃ sc, SameKeys sc s.own.proof.sumcheckClaims ∧
          (∀ id, id ≠ s.own.idCounter + 3 → id ≠ s.own.idCounter + 11 → sc.lookup id = s.own.proof.sumcheckClaims.lookup id) ∧
          ∃ s'', BagEq.verify E fx gx (withProof s (withSums sc s.own.proof)) = (.ok (), s'') ∧
            (VSt.verifyClaims pcs E.H s'').1 = (VSt.verifyClaims pcs E.H s').1 ∧ (∀ P, TrueFinalCheck E.H P s' → TrueFinalCheck E.H P s'') ∧
            ∀ hs, OpeningCheck pcs E.H ⟨s', hs⟩ → OpeningCheck pcs E.H ⟨s'', hs⟩ := by
  obtain ⟨s', h1, h2⟩ := bagEqSums_run E fx gx hne hc1 hc2 ht1 ht2
  refine ⟨s', ?_, ?_⟩
  · rw [bagEq_eq E fx gx hnv, Act.bind_ok h1]
    split <;> rfl
  intro cs r ds hch hw
  set n := s.own.idCounter with hn
  set w1 := ds.getD s.own.sumClaims.length 0 with hw1
  set w2 := ds.getD (s.own.sumClaims.length + 1) 0 with hw2
  let v : F := (w1 * t1 + w2 * t2) / (w1 + w2)
  let sc := amInsert (n + 3) v (amInsert (n + 11) v s.own.proof.sumcheckClaims)
  have hla : sc.lookup (n + 3) = some v := by rw [lookup_amInsert, if_pos rfl]
  have hlb : sc.lookup (n + 11) = some v := by rw [lookup_amInsert, if_neg (by omega), lookup_amInsert, if_pos rfl]
  have hlo : ∀ id, id ≠ n + 3 → id ≠ n + 11 → sc.lookup id = s.own.proof.sumcheckClaims.lookup id := by
    intro id h1 h2
    rw [lookup_amInsert, if_neg h1, lookup_amInsert, if_neg h2]
  have hk : SameKeys sc s.own.proof.sumcheckClaims := by
    intro id
    by_cases h1 : id = n + 3
    · rw [h1, hla, ht1]; rfl
    · by_cases h2 : id = n + 11
      · rw [h2, hlb, ht2]; rfl
      · rw [hlo id h1 h2]
  obtain ⟨s'', g1, g2⟩ := bagEqSums_run E fx gx (s := withProof s (withSums sc s.own.proof)) (c1 := c1) (c2 := c2) (t1 := v) (t2 := v) hne hc1 hc2 hla hlb
  have ht : Twin s' s'' := by
    have hstart : Twin s (withProof s (withSums sc s.own.proof)) := ⟨rfl, rfl, rfl, rfl, rfl, rfl, rfl, hk⟩
    have hrun : TwinRun (fun _ _ => True) (bagEqSums E fx gx : Act (VSt F C B) (F × F)) (bagEqSums E fx gx) := by
      unfold bagEqSums
      refine (twin_virt _).bind fun a b hab => ?_
      subst hab
      refine (twin_challenge _ _).bind fun a b hab => ?_
      subst hab
      exact (twin_verifySub _ _ _ _).bind fun _ _ _ => (twin_verifySub _ _ _ _).bind fun _ _ _ => twin_pure trivial
    have := (hrun s _ hstart).2
    rw [h1, g1] at this
    exact this
  have hf : foldedSum ds (s''.own.sumClaims.map (·.2)) = foldedSum ds (s'.own.sumClaims.map (·.2)) := by
    rw [h2, g2]
    show foldedSum ds ((s.own.sumClaims ++ [(n + 3, v), (n + 11, v)]).map (·.2)) = _
    have gen : ∀ (l : List (Nat × F)) (x y : F) (ds : List F), foldedSum ds ((l ++ [(n + 3, x), (n + 11, y)]).map (·.2)) =
        dot ds (l.map (·.2)) + x * ds.getD l.length 0 + y * ds.getD (l.length + 1) 0 := by
      intro l x y ds
      unfold foldedSum
      induction l generalizing ds with
      | nil =>
        rcases ds with _ | ⟨d, _ | ⟨e, _ | ⟨g, ds⟩⟩⟩ <;> simp [dot, mul_comm]
      | cons c l ih =>
        rcases ds with _ | ⟨d, ds⟩
        · simp [dot]
        · simp only [List.cons_append, List.map_cons, dot_cons, List.length_cons, List.getD_cons_succ]
          rw [ih]
          ring
    rw [gen, gen, ← hw1, ← hw2]
    simp only [v]
    field_simp
    ring
  have hsm := twin_folded E.H ht hch hf
  refine ⟨sc, hk, hlo, s'', ?_, (twin_verdict pcs E.H ht hsm).1, fun P => (twin_checks pcs E.H ht hsm []).2.2 P, fun hs => (twin_checks pcs E.H ht hsm hs).2.1⟩
  rw [bagEq_eq E fx gx hnv, Act.bind_ok g1]
  show (if v = v then (pure () : Act (VSt F C B) Unit) else _) s'' = _
  rw [if_pos rfl]
  rfl

/-! ### A false equality that is accepted -/

/-- The comparison `verify_claims` leaves out, computed with the committed polynomials (for examples). -/
def trueBit (H : Oracle F C) (P : C → List F → F) (s : VSt F C B) : Option Bool :=
  match VSt.aggregate H s with
  | (.ok (agg, sm), s1) =>
    match sumcheckVerify H sm s.own.proof.scProof s.own.proof.scMaxDegree s.own.proof.scNumVars s1.own.transcript with
    | .ok (sub, _) => some (decide (valueAt s1 P agg sub.point = .ok sub.expectedEvaluation))
    | .error _ => none
  | _ => none

theorem trueBit_true {H : Oracle F C} {P : C → List F → F} {s : VSt F C B} (h : trueBit H P s = some true) : TrueFinalCheck H P s := by
  intro agg sm s1 sub tr1 h1 h2
  unfold trueBit at h
  rw [h1] at h
  simp only [h2, Option.some.injEq, decide_eq_true_eq] at h
  exact h

/-- Whether the opening proof verifies (for examples). -/
def openBit (pcs : Pcs F C B) (H : Oracle F C) (s : VSt F C B) : Option Bool :=
  match VSt.aggregate H s with
  | (.ok (_, sm), s1) =>
    match sumcheckVerify H sm s.own.proof.scProof s.own.proof.scMaxDegree s.own.proof.scNumVars s1.own.transcript with
    | .ok (sub, tr1) =>
      match (PTracker.sortedIds s.own.proof.comms).mapM fun id => unwrap (s.own.matComms.lookup id) with
      | .ok comms =>
        match s.own.proof.pcsProof[0]? with
        | some bp =>
          match pcs.batchVerify comms ((PTracker.sortedIds s.own.proof.comms).map fun _ => sub.point) bp tr1 with
          | .ok (b, _) => some b
          | .error _ => none
        | none => none
      | .error _ => none
    | .error _ => none
  | _ => none

theorem openBit_true {pcs : Pcs F C B} {H : Oracle F C} {s : VSt F C B} (h : openBit pcs H s = some true) (hs : List Nat) : OpeningCheck pcs H ⟨s, hs⟩ := by
  intro agg sm s1 sub tr1 h1 h2
  unfold openBit at h
  change VSt.aggregate H s = _ at h1
  change sumcheckVerify H sm s.own.proof.scProof s.own.proof.scMaxDegree s.own.proof.scNumVars s1.own.transcript = _ at h2
  rw [h1] at h
  simp only [h2] at h
  show ∃ comms bp tr2, ((PTracker.sortedIds s.own.proof.comms).mapM fun id => unwrap (s.own.matComms.lookup id)) = .ok comms ∧ s.own.proof.pcsProof[0]? = some bp ∧
    pcs.batchVerify comms ((PTracker.sortedIds s.own.proof.comms).map fun _ => sub.point) bp tr1 = .ok (true, tr2)
  rcases e1 : ((PTracker.sortedIds s.own.proof.comms).mapM fun id => unwrap (s.own.matComms.lookup id)) with _ | comms <;> rw [e1] at h
  · simp at h
  rcases e2 : s.own.proof.pcsProof[0]? with _ | bp <;> rw [e2] at h
  · simp at h
  simp only at h
  rcases e3 : pcs.batchVerify comms ((PTracker.sortedIds s.own.proof.comms).map fun _ => sub.point) bp tr1 with _ | ⟨b, tr2⟩ <;> rw [e3] at h
  · simp at h
  simp only [Option.some.injEq] at h
  subst h
  exact ⟨comms, bp, tr2, rfl, rfl, e3⟩

namespace SumEx

/-- The field with 101 elements. -/
abbrev G := ZMod 101
/-- A curve over it. -/
abbrev EC : Curve G := fieldCurve G
/-- The oracle: its answers depend on the length of the history. -/
def H : Oracle G G := fun _ es => (11 + 7 * es.length : Nat)
/-- The KZG scheme with trapdoor 3. -/
def pcs : Pcs G G (BatchProof EC) := kzgOf (E := EC) H (1 : G) (1 : G) [3]
/-- Debug checks are on. -/
def env : Env G G := ⟨pcs.commit, H, true, ZMod.val⟩

/-- A proof with the true sums 22 and 34: what a prover gets that follows the protocol for the equality of the bags `{1, 2}` and `{5, 9}` and
compiles a proof although the equality is false. -/
def proof : CompiledProof G G (BatchProof EC) :=
  { comms := [(12, 16), (4, 5), (2, 17), (1, 1), (0, 4)]
    sumcheckClaims := [(26, 0), (14, 34), (6, 22)]
    scProof := ⟨[64], [[72, 44, 30, 80]]⟩
    scMaxDegree := 3
    scNumVars := 1
    queryMap := []
    pcsProof := [⟨⟨[33], [[4, 16, 94]]⟩, [65, 1, 59, 0, 32], ([34] : List G)⟩] }

/-- The sums put in their place once the challenges 8 and 22 for them are known: `(8 * 22 + 22 * 34) / (8 + 22)` is 51. -/
def forgedSums : List (Nat × G) := [(14, 51), (6, 51)]

/-- The tables behind the commitments: the columns `1, 2`, ones and `5, 9`, and the inverses the protocol asks for. -/
def tables : List (G × Mle G) := [(4, ⟨1, [1, 2]⟩), (1, ⟨1, [1, 1]⟩), (17, ⟨1, [5, 9]⟩), (5, ⟨1, [93, 30]⟩), (16, ⟨1, [98, 37]⟩)]

/-- They are committed to. -/
theorem tables_commit : ∀ e ∈ tables, pcs.commit e.2 = .ok e.1 := by decide +kernel

/-- The polynomials behind the commitments. -/
def P (c : G) (x : List G) : G := ((tables.lookup c).bind fun m => m.evaluate x).getD 0

/-- The verifier's state when it holds a proof and the three columns. -/
def start (p : CompiledProof G G (BatchProof EC)) : Res (VState G G (BatchProof EC)) := runVOps true H VState.init (.setProof p :: List.replicate 3 .transferNext)

/-- Everything the verifier finds out. -/
def report (p : CompiledProof G G (BatchProof EC)) : Res (Res Unit × Res Unit × Option Bool × Option Bool) := do
  let vs ← start p
  let r := BagEq.verify env ⟨0, 1, 1⟩ ⟨2, 1, 1⟩ vs.st
  .ok (r.1, (VSt.verifyClaims pcs H r.2).1, trueBit H P r.2, openBit pcs H r.2)

theorem report_honest : report proof = .ok (.error (.err .invalidVerifier), .ok (), some true, some true) := by decide +kernel
theorem report_forged : report (withSums forgedSums proof) = .ok (.ok (), .ok (), some true, some true) := by decide +kernel

/-- The contents of the two bags. -/
def bagF : BagTab G := ⟨1, (⟨1, [1, 2]⟩ : Mle G).tbl, fun _ => 1⟩
/-- The second. -/
def bagG : BagTab G := ⟨1, (⟨1, [5, 9]⟩ : Mle G).tbl, fun _ => 1⟩

/-- The verifier's handles have these contents. -/
def columnsRight (p : CompiledProof G G (BatchProof EC)) : Bool :=
  match start p with
  | .ok vs => [0, 1].all fun b => decide ((valueAt vs.st P 0 (boolPt 1 b)).toOption = some (bagF.val b)) &&
      decide ((valueAt vs.st P 1 (boolPt 1 b)).toOption = some 1) && decide ((valueAt vs.st P 2 (boolPt 1 b)).toOption = some (bagG.val b))
  | .error _ => false

theorem columns_forged : columnsRight (withSums forgedSums proof) = true := by decide +kernel

end SumEx

/-- A false equality accepted by a verifier that makes every comparison: the columns committed to are `1, 2` and `5, 9`; the equality check ends
successfully; `verify_claims` returns `Ok`; the value left by the sumcheck is the value of the aggregated polynomial, computed from the committed
columns; and the opening proof verifies. -/
theorem C94_false_equality : ∃ (p : CompiledProof SumEx.G SumEx.G (BatchProof SumEx.EC)) (vs : VState SumEx.G SumEx.G (BatchProof SumEx.EC))
    (s' : VSt SumEx.G SumEx.G (BatchProof SumEx.EC)),
    runVOps true SumEx.H VState.init (.setProof p :: List.replicate 3 .transferNext) = .ok vs ∧
      HoldsBag vs.st SumEx.P 1 ⟨0, 1, 1⟩ SumEx.bagF ∧ HoldsBag vs.st SumEx.P 1 ⟨2, 1, 1⟩ SumEx.bagG ∧
      BagEq.verify SumEx.env ⟨0, 1, 1⟩ ⟨2, 1, 1⟩ vs.st = (.ok (), s') ∧ Accepts SumEx.pcs SumEx.H ⟨s', vs.handles⟩ ∧
      TrueFinalCheck SumEx.H SumEx.P s' ∧ OpeningCheck SumEx.pcs SumEx.H ⟨s', vs.handles⟩ ∧
      SumEx.bagF.count 1 = 1 ∧ SumEx.bagG.count 1 = 0 := by
  have h := SumEx.report_forged
  have hc := SumEx.columns_forged
  unfold SumEx.report at h
  unfold SumEx.columnsRight at hc
  rcases hv : SumEx.start (withSums SumEx.forgedSums SumEx.proof) with e | vs <;> rw [hv] at h hc
  · simp at h
  rw [ok_bind] at h
  have hc : ∀ b ∈ [0, 1], ((valueAt vs.st SumEx.P 0 (boolPt 1 b)).toOption = some (SumEx.bagF.val b) ∧ (valueAt vs.st SumEx.P 1 (boolPt 1 b)).toOption = some 1) ∧
      (valueAt vs.st SumEx.P 2 (boolPt 1 b)).toOption = some (SumEx.bagG.val b) := fun b hb => by
    have := List.all_eq_true.1 hc b hb
    simpa only [Bool.and_eq_true, decide_eq_true_eq] using this
  simp only [Except.ok.injEq, Prod.mk.injEq] at h
  obtain ⟨h1, h2, h3, h4⟩ := h
  have hval : ∀ {k : Nat} {T : Nat → SumEx.G}, (∀ b ∈ [0, 1], (valueAt vs.st SumEx.P k (boolPt 1 b)).toOption = some (T b)) → Holds vs.st SumEx.P 1 k 1 T := by
    intro k T hT
    refine ⟨le_rfl, fun b hb => ?_⟩
    have h := hT b (by simp at hb ⊢; omega)
    beta_reduce
    rw [Nat.mod_eq_of_lt hb]
    rcases e : valueAt vs.st SumEx.P k (boolPt 1 b) with e' | v <;> rw [e] at h
    · simp [Except.toOption] at h
    · rw [Option.some.inj h]
  refine ⟨_, vs, _, hv, ⟨rfl, hval fun b hb => (hc b hb).1.1, hval fun b hb => (hc b hb).1.2⟩, ⟨rfl, hval fun b hb => (hc b hb).2, hval fun b hb => (hc b hb).1.2⟩,
    Prod.ext h1 rfl, h2, trueBit_true h3, openBit_true h4 _, by decide +kernel, by decide +kernel⟩

/-- C94 is false: a verifier that reads the sum of its only polynomial from the proof. -/
theorem C94_violated : ¬ C94_statement := by
  intro h
  let p : CompiledProof SumEx.G Unit Unit := { (CompiledProof.default : CompiledProof SumEx.G Unit Unit) with sumcheckClaims := [(0, 1)] }
  exact h SumEx.G Unit Unit true (fun _ _ => 0) p [(0, 2)] [.virt fun _ => .ok 0, .proverSum 0] _ _ (by simp) rfl rfl (by decide) rfl

/-- The folding challenges (for examples). -/
def foldingBit (H : Oracle F C) (s : VSt F C B) : Res (List F × List F × List F) := do
  let a ← s.own.transcript.challengeLoop H "zerocheck challenge" s.own.zeroClaims.length
  let b ← a.2.challenges H "0check r" s.own.proof.scNumVars
  let c ← b.2.challengeLoop H "sumcheck challenge" (s.own.sumClaims.length + 1)
  .ok (a.1, b.1, c.1)

theorem foldingBit_ok {H : Oracle F C} {s : VSt F C B} {cs r ds : List F} (h : foldingBit H s = .ok (cs, r, ds)) : FoldingChallenges H s cs r ds := by
  unfold foldingBit at h
  obtain ⟨⟨a, t1⟩, h1, h⟩ := twin_res_bind h
  obtain ⟨⟨b, t2⟩, h2, h⟩ := twin_res_bind h
  obtain ⟨⟨c, t3⟩, h3, h⟩ := twin_res_bind h
  obtain ⟨rfl, k⟩ := Prod.mk.inj (Except.ok.inj h)
  obtain ⟨rfl, rfl⟩ := Prod.mk.inj k
  exact ⟨t1, t2, t3, h1, h2, h3⟩

/-- What `C94_bag_equality` asks for, for the run above. -/
def SumEx.meets : Bool :=
  match SumEx.start SumEx.proof with
  | .ok vs => decide (vs.st.own.transcript.isEmpty = false ∧ vs.st.own.idCounter = 3 ∧ (vs.st.own.proof.comms.lookup 4).isSome ∧ (vs.st.own.proof.comms.lookup 12).isSome ∧
      vs.st.own.proof.sumcheckClaims.lookup 6 = some 22 ∧ vs.st.own.proof.sumcheckClaims.lookup 14 = some 34 ∧ vs.st.own.sumClaims.length = 0) &&
    (match foldingBit SumEx.H (BagEq.verify SumEx.env ⟨0, 1, 1⟩ ⟨2, 1, 1⟩ vs.st).2 with
      | .ok q => decide (q.2.2 = [8, 22, 36])
      | .error _ => false)
  | .error _ => false

theorem SumEx.meets_true : SumEx.meets = true := by decide +kernel

/-- The proof with the true sums 22 and 34, which fails the check, meets the hypotheses of `C94_bag_equality`: with other sums the check succeeds. -/
example : ∃ (vs : VState SumEx.G SumEx.G (BatchProof SumEx.EC)) (sc : List (Nat × SumEx.G)) (s'' : VSt SumEx.G SumEx.G (BatchProof SumEx.EC)),
    SumEx.start SumEx.proof = .ok vs ∧ (BagEq.verify SumEx.env ⟨0, 1, 1⟩ ⟨2, 1, 1⟩ vs.st).1 = .error (.err .invalidVerifier) ∧
      BagEq.verify SumEx.env ⟨0, 1, 1⟩ ⟨2, 1, 1⟩ (withProof vs.st (withSums sc vs.st.own.proof)) = (.ok (), s'') := by
  have h := SumEx.meets_true
  unfold SumEx.meets at h
  rcases hv : SumEx.start SumEx.proof with e | vs <;> rw [hv] at h
  · simp at h
  simp only [Bool.and_eq_true, decide_eq_true_eq] at h
  obtain ⟨⟨h1, h2, h3, h4, h5, h6, h7⟩, h8⟩ := h
  obtain ⟨c1, hc1⟩ := Option.isSome_iff_exists.1 h3
  obtain ⟨c2, hc2⟩ := Option.isSome_iff_exists.1 h4
  obtain ⟨s', g1, g2⟩ := C94_bag_equality SumEx.pcs SumEx.env ⟨0, 1, 1⟩ ⟨2, 1, 1⟩ rfl vs.st h1 c1 c2 22 34 (by rw [h2]; exact hc1) (by rw [h2]; exact hc2)
    (by rw [h2]; exact h5) (by rw [h2]; exact h6)
  rw [g1] at h8
  rcases hq : foldingBit SumEx.H s' with e | ⟨cs, r, ds⟩ <;> simp only [hq] at h8
  · simp at h8
  obtain rfl : ds = [8, 22, 36] := of_decide_eq_true h8
  obtain ⟨sc, -, -, s'', k1, -⟩ := g2 cs r _ (foldingBit_ok hq) (by rw [h7]; decide)
  exact ⟨vs, sc, s'', rfl, by rw [g1]; rfl, k1⟩

/-- A history with two sums read from the proof meets the hypotheses of `C94_any_sum`. -/
example : ∃ (p : CompiledProof SumEx.G SumEx.G Unit) (sc : List (Nat × SumEx.G)) (vs' : VState SumEx.G SumEx.G Unit), p.sumcheckClaims = [(1, 4), (0, 3)] ∧
    runVOps true SumEx.H VState.init (.setProof (withSums sc p) :: [.transferNext, .virt fun _ => .ok 2, .proverSum 0, .proverSum 1]) = .ok vs' ∧
      (0, 55) ∈ vs'.st.own.sumClaims := by
  let p : CompiledProof SumEx.G SumEx.G Unit := { (CompiledProof.default : CompiledProof SumEx.G SumEx.G Unit) with comms := [(0, 9)], sumcheckClaims := [(1, 4), (0, 3)] }
  obtain ⟨sc, -, -, -, vs', h1, -, -, -, h2, -⟩ := C94_any_sum ⟨fun _ => .ok 0, fun _ _ _ _ => .error .panic, fun _ _ _ _ => .error .panic, fun _ _ tr => tr, fun _ _ _ tr => tr⟩ true SumEx.H p
    [.transferNext, .virt fun _ => .ok 2, .proverSum 0, .proverSum 1] (by simp) (by simp) _ rfl rfl 0 1 (by decide) (by decide) (by decide) _ _ _ ⟨_, _, _, rfl, rfl, rfl⟩
    (by decide) 55
  exact ⟨p, sc, vs', rfl, h1, h2⟩

end Zksql
