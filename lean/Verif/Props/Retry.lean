import Verif.Lemmas.Retry
import Verif.Lemmas.Unread
import Verif.Props.Unread
/-!
# Property C108: calling `verify_claims` again
-/
set_option linter.unusedSectionVars false
namespace Zksql
open Spec
variable {F C B : Type} [Field F] [DecidableEq F]

/-- C108 in full: a verifier that has refused a proof answers the next one as if the first had not been there.  Both proofs carry the same commitments and the
same claimed sums, so that the calls before `verify_claims` find the same. -/
def C108_statement : Prop :=
  ∀ (F C B : Type) [Field F] [DecidableEq F] (E : Env F C) (pcs : Pcs F C B) (prog : List (Step F)) (p p' : CompiledProof F C B),
    p'.comms = p.comms → p'.sumcheckClaims = p.sumcheckClaims →
    (VSt.verifyClaims pcs E.H (Step.verifyAll E prog [] (loadProof p VSt.new)).2).1.isOk = false →
    (retry pcs E.H p' (Step.verifyAll E prog [] (loadProof p VSt.new)).2).isOk =
      (VSt.verifyClaims pcs E.H (Step.verifyAll E prog [] (loadProof p' VSt.new)).2).1.isOk

/-- The same question gets the same answer: `verify_claims`, called again with the same proof loaded, returns the same. -/
def C108_same_statement : Prop :=
  ∀ (F C B : Type) [Field F] [DecidableEq F] (E : Env F C) (pcs : Pcs F C B) (prog : List (Step F)) (p : CompiledProof F C B),
    (retry pcs E.H p (Step.verifyAll E prog [] (loadProof p VSt.new)).2).isOk =
      (VSt.verifyClaims pcs E.H (Step.verifyAll E prog [] (loadProof p VSt.new)).2).1.isOk

/-! ### A run -/
namespace RtyEx
open PfEx

/-- A hash whose answers depend on how much has been absorbed. -/
def hash : Oracle (ZMod 7) (ZMod 7) := fun _ es => if es.length % 3 = 0 then 5 else if es.length % 3 = 1 then 4 else 6

def env : Env (ZMod 7) (ZMod 7) := { env84 with H := hash }

def kzg : Pcs (ZMod 7) (ZMod 7) (BatchProof E7) := kzgOf (E := E7) hash (1 : ZMod 7) (1 : ZMod 7) [3]

/-- The proof that the honest prover makes. -/
def proof : Res (CompiledProof (ZMod 7) (ZMod 7) (BatchProof E7)) :=
  (PTracker.compile true kzg hash (Step.proveAll env prog85 (startHandles cols84) (committed env.commit cols84)).2).1

/-- The verifier just before `verify_claims`. -/
def before (p : CompiledProof (ZMod 7) (ZMod 7) (BatchProof E7)) : VSt (ZMod 7) (ZMod 7) (BatchProof E7) :=
  (Step.verifyAll (B := BatchProof E7) env UnrEx.prog [] (loadProof p VSt.new)).2

/-- The honest proof with the first value of its first message changed. -/
def wrong (p : CompiledProof (ZMod 7) (ZMod 7) (BatchProof E7)) : CompiledProof (ZMod 7) (ZMod 7) (BatchProof E7) :=
  { p with scProof := { p.scProof with proofs := [[1, 0]] } }

/-- The same, with the messages of the opening's sumcheck changed as well. -/
def tuned (p : CompiledProof (ZMod 7) (ZMod 7) (BatchProof E7)) : CompiledProof (ZMod 7) (ZMod 7) (BatchProof E7) :=
  { wrong p with pcsProof := p.pcsProof.map fun b => ⟨⟨b.sumCheckProof.point, b.sumCheckProof.proofs.map fun m => m.set 0 6⟩, b.evals, b.gPrimeProof⟩ }

/-- The honest proof is accepted, and refused when the verifier is asked again. -/
theorem again : (proof.toOption.map fun p => ((VSt.verifyClaims kzg hash (before p)).1.isOk, (retry kzg hash p (before p)).isOk)) = some (true, false) := by
  decide +kernel

/-- After a wrong proof has been refused, the honest proof is refused too. -/
theorem spoiled : (proof.toOption.map fun p => ((VSt.verifyClaims kzg hash (before (wrong p))).1.isOk, (retry kzg hash p (before (wrong p))).isOk)) =
    some (false, false) := by
  decide +kernel

/-- A proof that is refused when the verifier is asked for the first time can be accepted when it is asked again. -/
theorem second : (proof.toOption.map fun p => ((VSt.verifyClaims kzg hash (before (tuned p))).1.isOk, (retry kzg hash (tuned p) (before (tuned p))).isOk)) =
    some (false, true) := by
  decide +kernel

end RtyEx

theorem C108_violated : ¬ C108_statement := by
  intro hall
  have h1 := RtyEx.again
  have h2 := RtyEx.spoiled
  rcases hp : RtyEx.proof with e | p
  · rw [hp] at h1
    cases h1
  · rw [hp] at h1 h2
    simp only [Except.toOption, Option.map_some, Option.some.injEq, Prod.mk.injEq] at h1 h2
    have c := hall (ZMod 7) (ZMod 7) (BatchProof PfEx.E7) RtyEx.env RtyEx.kzg UnrEx.prog (RtyEx.wrong p) p rfl rfl h2.1
    exact Bool.false_ne_true (h2.2.symm.trans (c.trans h1.1))

/-- An accepted proof is refused when it is asked for again, and a refused one may be accepted. -/
theorem C108_violated_same : ¬ C108_same_statement := by
  intro hall
  have h1 := RtyEx.again
  rcases hp : RtyEx.proof with e | p
  · rw [hp] at h1
    cases h1
  · rw [hp] at h1
    simp only [Except.toOption, Option.map_some, Option.some.injEq, Prod.mk.injEq] at h1
    have c := hall (ZMod 7) (ZMod 7) (BatchProof PfEx.E7) RtyEx.env RtyEx.kzg UnrEx.prog p
    exact Bool.false_ne_true (h1.2.symm.trans (c.trans h1.1))

/-- Nor is a refusal final: a proof exists that is refused at first and accepted when the verifier is asked again. -/
theorem C108_violated_final :
    ¬ ∀ (F C B : Type) [Field F] [DecidableEq F] (E : Env F C) (pcs : Pcs F C B) (prog : List (Step F)) (p : CompiledProof F C B),
      (VSt.verifyClaims pcs E.H (Step.verifyAll E prog [] (loadProof p VSt.new)).2).1.isOk = false →
      (retry pcs E.H p (Step.verifyAll E prog [] (loadProof p VSt.new)).2).isOk = false := by
  intro hall
  have h1 := RtyEx.second
  rcases hp : RtyEx.proof with e | p
  · rw [hp] at h1
    cases h1
  · rw [hp] at h1
    simp only [Except.toOption, Option.map_some, Option.some.injEq, Prod.mk.injEq] at h1
    have c := hall (ZMod 7) (ZMod 7) (BatchProof PfEx.E7) RtyEx.env RtyEx.kzg UnrEx.prog (RtyEx.tuned p) h1.1
    exact Bool.false_ne_true (c.symm.trans h1.2)

/-- A proof that was loaded and not verified leaves no trace in the verdict on the next one. -/
theorem C108_overwritten_partial (pcs : Pcs F C B) (H : Oracle F C) (p p' : CompiledProof F C B) (s : VSt F C B) :
    (VSt.verifyClaims pcs H (loadProof p' (loadProof p s))).1 = (VSt.verifyClaims pcs H (loadProof p' s)).1 :=
  (VBlind.verifyClaims pcs H (loadProof p' (loadProof p s)) (loadProof p' s)
    ⟨rfl, rfl, rfl, rfl, rfl, rfl, ⟨rfl, fun _ => rfl, rfl, rfl, rfl, rfl⟩⟩).1

/-- `verify_claims` loses nothing, whatever its verdict and whatever calls follow: handles keep their values, claims, commitments and messages stay. -/
theorem C108_keeps (E : Env F C) {pcs : Pcs F C B} (ha : OnlyAdds pcs) (p : CompiledProof F C B) (early cs ds : List (VerifierCall F C)) :
    VKeeps (vcallsOn E cs (loadProof p (vcallsOn E early VSt.new)))
      (vcallsOn E ds (VSt.verifyClaims pcs E.H (vcallsOn E cs (loadProof p (vcallsOn E early VSt.new)))).2) := by
  have h0 := vcallsOn_onward E early (vnumbered_new (F := F) (C := C) (B := B))
  have hl : VSt.Numbered (loadProof p (vcallsOn E early VSt.new)) := ⟨h0.num.comms, h0.num.mats⟩
  have h := vcallsOn_onward E cs hl
  have h' := VGoes.verifyClaims ha E.H _ h.num
  exact (h'.trans (vcallsOn_onward E ds h'.num)).keeps

/-- The multilinear KZG scheme only adds to the transcript. -/
theorem C108_kzg {E : Curve F} (H : Oracle F E.G1) (pp : ProverParam E) (vp : VerifierParam E) : OnlyAdds (kzgPcs H pp vp) := kzg_onlyAdds H pp vp

/-- What `verify_claims` leaves behind in any verifier, whatever the proof and the verdict: one more sum claim, which it does not remove, and identifiers handed
out.  The loaded proof, the commitments and the zero claims stay. -/
theorem C108_trace (pcs : Pcs F C B) (H : Oracle F C) (s : VSt F C B) (h : s.own.transcript.isEmpty = false) :
    ∃ tr, (VSt.verifyClaims pcs H s).2.own = { s.own with
      idCounter := s.own.idCounter + 2 * s.own.zeroClaims.length + 2 * s.own.sumClaims.length + 6
      transcript := tr
      sumClaims := s.own.sumClaims ++ [(addedClaim s, 0)] } := by
  obtain ⟨cs, tr1, r, tr2, ds, tr3, agg, s', _, _, _, _, _, h1, h2, _⟩ := aggregate_exact H s h
  obtain ⟨tr, e⟩ := verifyClaims_state pcs H h1
  refine ⟨tr, ?_⟩
  rw [e]
  show ({ s'.own with transcript := tr } : VTracker F C B) = _
  rw [h2]

/-- What the next proof has to meet: the folding challenges are drawn after everything that was absorbed before, and the sums claimed so far, folded with them, have
to be the sum that the proof's first round message stands for. -/
theorem C108_needs (pcs : Pcs F C B) (H : Oracle F C) (s : VSt F C B) (p' : CompiledProof F C B) (h : s.own.transcript.isEmpty = false)
    (hr : retry pcs H p' s = .ok ()) :
    ∃ cs tr1 r tr2 ds tr3,
      (VSt.verifyClaims pcs H s).2.own.transcript.challengeLoop H "zerocheck challenge" s.own.zeroClaims.length = .ok (cs, tr1) ∧
      tr1.challenges H "0check r" p'.scNumVars = .ok (r, tr2) ∧
      tr2.challengeLoop H "sumcheck challenge" (s.own.sumClaims.length + 2) = .ok (ds, tr3) ∧ ds.length = s.own.sumClaims.length + 2 ∧
      dot ds (s.own.sumClaims.map (·.2) ++ [0, 0]) = firstSum p' := by
  obtain ⟨tr, ht⟩ := C108_trace pcs H s h
  have hown : (loadProof p' (VSt.verifyClaims pcs H s).2).own = { s.own with
      idCounter := s.own.idCounter + 2 * s.own.zeroClaims.length + 2 * s.own.sumClaims.length + 6
      transcript := tr
      sumClaims := s.own.sumClaims ++ [(addedClaim s, 0)]
      proof := p' } := by
    show ({ (VSt.verifyClaims pcs H s).2.own with proof := p' } : VTracker F C B) = _
    rw [ht]
  unfold retry at hr
  set s1 := loadProof p' (VSt.verifyClaims pcs H s).2 with hs1
  rcases ha : VSt.aggregate H s1 with ⟨e | a, s2⟩
  · unfold VSt.verifyClaims at hr
    rw [Act.bind_error ha] at hr
    cases hr
  obtain ⟨cs, tr1, r, tr2, ds, tr3, agg, s', k1, k2, k3, _, k4, k5, k6, _⟩ := aggregate_exact H s1 (aggregate_nonempty H ha)
  obtain ⟨sub, t1, _, _, _, _, hv, _⟩ := (verifyClaims_iff pcs H k5).1 ⟨_, Prod.ext hr rfl⟩
  have hf := sumcheckVerify_first hv
  rw [hown] at k1 k2 k3 k4 k5 k6
  rw [k6] at hf
  refine ⟨cs, tr1, r, tr2, ds, tr3, ?_, k2, ?_, ?_, ?_⟩
  · rw [ht]; exact k1
  · rw [← k3]; simp
  · rw [k4]; simp
  · unfold firstSum
    rw [hf, hown]
    simp

/-- So if a claimed sum is not zero, an honest proof for the same claims is accepted for a single value of the challenge at that claim. -/
theorem C108_spoiled (pcs : Pcs F C B) (H : Oracle F C) (s : VSt F C B) (p' : CompiledProof F C B) (h : s.own.transcript.isEmpty = false)
    (hr : retry pcs H p' s = .ok ()) (i : Nat) (c : Nat × F) (hi : s.own.sumClaims[i]? = some c) (hc : c.2 ≠ 0) :
    ∃ ds : List F, ds.length = s.own.sumClaims.length + 2 ∧
      (∃ cs tr1 r tr2 tr3, (VSt.verifyClaims pcs H s).2.own.transcript.challengeLoop H "zerocheck challenge" s.own.zeroClaims.length = .ok (cs, tr1) ∧
        tr1.challenges H "0check r" p'.scNumVars = .ok (r, tr2) ∧
        tr2.challengeLoop H "sumcheck challenge" (s.own.sumClaims.length + 2) = .ok (ds, tr3)) ∧
      ∀ x, dot (ds.set i x) (s.own.sumClaims.map (·.2) ++ [0, 0]) = firstSum p' ↔ ds[i]? = some x := by
  obtain ⟨cs, tr1, r, tr2, ds, tr3, k1, k2, k3, k4, k5⟩ := C108_needs pcs H s p' h hr
  refine ⟨ds, k4, ⟨cs, tr1, r, tr2, tr3, k1, k2, k3⟩, fun x => ?_⟩
  have hlt : i < s.own.sumClaims.length := (List.getElem?_eq_some_iff.1 hi).1
  have hds : i < ds.length := by omega
  have key := dot_set ds (s.own.sumClaims.map (·.2) ++ [0, 0]) i x (ds[i]) c.2 (by simp [hds]) (by
    rw [List.getElem?_append_left (by simpa using hlt)]
    simp [hi])
  rw [key, k5]
  constructor
  · intro e
    have : (x - ds[i]) * c.2 = 0 := by simpa using e
    rcases mul_eq_zero.1 this with e | e
    · rw [List.getElem?_eq_getElem hds, sub_eq_zero.1 e]
    · exact absurd e hc
  · intro e
    rw [List.getElem?_eq_getElem hds] at e
    rw [Option.some.inj e]
    simp

namespace RtyEx

/-- The verifier has zero claims and two sum claims that are not zero when it is asked, its transcript is in use, and `verify_claims` adds the claim under
identifier 42. -/
example : (proof.toOption.map fun p => ((before p).own.zeroClaims.length, (before p).own.sumClaims, addedClaim (before p), (before p).own.transcript.isEmpty)) =
    some (4, [(13, 2), (21, 2)], 42, false) := by decide +kernel

/-- What it leaves behind. -/
example : (proof.toOption.map fun p => ((VSt.verifyClaims kzg hash (before p)).2.own.sumClaims, (VSt.verifyClaims kzg hash (before p)).2.own.idCounter,
    (VSt.verifyClaims kzg hash (before p)).2.own.zeroClaims.length)) = some ([(13, 2), (21, 2), (42, 0)], 50, 4) := by decide +kernel

/-- The commitment scheme of the run only adds to the transcript. -/
example : OnlyAdds kzg := C108_kzg (E := PfEx.E7) hash _ _

end RtyEx

end Zksql
