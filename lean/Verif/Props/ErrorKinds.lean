import Verif.Lemmas.ErrorEnds
import Verif.Props.Retry
/-!
# Property C110: what the kind of a returned error says

An error that wraps one of another error type (`PCSErrors(..)`, `Transcript(..)`, `ArithErrors(..)`) counts with the kind of the wrapped error.
-/
set_option linter.unusedSectionVars false
namespace Zksql
open Spec
variable {F C B : Type} [Field F] [DecidableEq F]

/-- C110 in full: an error names the side that is at fault.  No call of the verifier returns `InvalidProver`, and `verify_claims` does not either. -/
def C110_statement : Prop :=
  ∀ (F : Type) [Field F] [DecidableEq F] (V : Curve F) (E : Env F V.G1) (g : V.G1) (h : V.G2) (T : List F) (s : VSt F V.G1 (BatchProof V)),
    (∀ c : VerifierCall F V.G1, (c.run E s).1 ≠ .error (.err .invalidProver)) ∧ (VSt.verifyClaims (kzgOf E.H g h T) E.H s).1 ≠ .error (.err .invalidProver)

/-! ### Runs -/
namespace RtyEx
open PfEx

/-- The honest proof, with the messages of the opening's sumcheck changed. -/
def bent (p : CompiledProof (ZMod 7) (ZMod 7) (BatchProof E7)) : CompiledProof (ZMod 7) (ZMod 7) (BatchProof E7) :=
  { p with pcsProof := p.pcsProof.map fun b => ⟨⟨b.sumCheckProof.point, b.sumCheckProof.proofs.map fun m => m.set 0 6⟩, b.evals, b.gPrimeProof⟩ }

/-- The honest proof, with a coordinate added to the opening's point. -/
def long (p : CompiledProof (ZMod 7) (ZMod 7) (BatchProof E7)) : CompiledProof (ZMod 7) (ZMod 7) (BatchProof E7) :=
  { p with pcsProof := p.pcsProof.map fun b => ⟨⟨b.sumCheckProof.point ++ [1], b.sumCheckProof.proofs⟩, b.evals, b.gPrimeProof⟩ }

/-- Four verdicts of `verify_claims`: the honest proof, and three wrong ones, each with another kind of error. -/
theorem kinds : (proof.toOption.map fun p => ((VSt.verifyClaims kzg hash (before p)).1, (VSt.verifyClaims kzg hash (before (wrong p))).1,
    (VSt.verifyClaims kzg hash (before (bent p))).1, (VSt.verifyClaims kzg hash (before (long p))).1)) =
      some (.ok (), .error (.err .invalidVerifier), .error (.err .invalidProver), .error (.err .invalidParameters)) := by
  decide +kernel

end RtyEx

/-- The verifier says `InvalidProver` of a proof whose opening has a wrong sumcheck. -/
theorem C110_violated : ¬ C110_statement := by
  intro hall
  have h1 := RtyEx.kinds
  rcases hp : RtyEx.proof with e | p
  · rw [hp] at h1
    cases h1
  · rw [hp] at h1
    simp only [Except.toOption, Option.map_some, Option.some.injEq, Prod.mk.injEq] at h1
    exact (hall (ZMod 7) PfEx.E7 RtyEx.env (1 : ZMod 7) (1 : ZMod 7) [3] (RtyEx.before (RtyEx.bent p))).2 h1.2.2.1

/-- What the calls of the prover return: `InvalidTranscript` only if nothing has been absorbed yet, and otherwise what `proverKind` lists. -/
theorem C110_prover_calls (E : Env F C) (c : ProverCall F C) (t : PTracker F C) (k : ErrKind) (h : (c.run E t).1 = .error (.err k)) :
    proverKind E k c ∨ k = .invalidTranscript ∧ t.transcript.isEmpty = true :=
  (call_errs E c t).1 k h

/-- So the calls of the prover return no `InvalidVerifier`, no `InvalidProver` and no `InvalidProof`, unless the scheme's `commit` does. -/
theorem C110_prover_side (E : Env F C) (c : ProverCall F C) (t : PTracker F C) (k : ErrKind) (h : (c.run E t).1 = .error (.err k)) :
    k = .invalidParameters ∨ k = .invalidTranscript ∨ ∃ p, E.commit p = .error (.err k) := by
  rcases C110_prover_calls E c t k h with h | h
  · rcases c with o | _ | _ | _ | _ | _ | _ | _ | c | _ | _ | _ | _ | _ | _ | _ | _
    · cases o <;> first | exact .inr (.inr ⟨_, h⟩) | exact h.elim
    all_goals first | exact h.elim | exact .inr (.inr h) | (rcases h with h | h; exacts [.inl h, .inr (.inr h)]) | skip
    cases c <;> first | exact h.elim | exact .inr (.inr h) | (rcases h with h | h; exacts [.inl h, .inr (.inr h)])
  · exact .inr (.inl h.1)

/-- The KZG scheme's `commit` only complains about its argument. -/
theorem C110_kzg_commit {E : Curve F} (pp : ProverParam E) (p : Mle F) (k : ErrKind) (h : kzgCommit pp p = .error (.err k)) : k = .invalidParameters :=
  kzgCommit_kind pp p k h

/-- What the calls of the verifier return. -/
theorem C110_verifier_calls (E : Env F C) (c : VerifierCall F C) (s : VSt F C B) (k : ErrKind) (h : (c.run E s).1 = .error (.err k)) :
    verifierKind k c ∨ k = .invalidTranscript ∧ s.own.transcript.isEmpty = true :=
  (VErrs.call E c s).1 k h

/-- So the calls of the verifier return neither `InvalidProver` nor `InvalidProof`: the first half of C110. -/
theorem C110_verifier_side_partial (E : Env F C) (c : VerifierCall F C) (s : VSt F C B) :
    (c.run E s).1 ≠ .error (.err .invalidProver) ∧ (c.run E s).1 ≠ .error (.err .invalidProof) := by
  have key : ∀ k, k = .invalidProver ∨ k = .invalidProof → (c.run E s).1 ≠ .error (.err k) := by
    intro k hk h
    rcases C110_verifier_calls E c s k h with h | ⟨h, -⟩
    · rcases c with _ | _ | _ | _ | _ | _ | c | _ | _
      all_goals first | exact h.elim | (rcases hk with rfl | rfl <;> cases h) | skip
      cases c <;> first | exact h.elim | (rcases hk with rfl | rfl <;> rcases h with h | h <;> cases h) | (rcases hk with rfl | rfl <;> cases h)
    · subst h
      rcases hk with h | h <;> cases h
  exact ⟨key _ (.inl rfl), key _ (.inr rfl)⟩

/-- `compile_proof` returns nothing but `InvalidProver`: in a debug build, or because opening the commitments returned an error, of whatever kind. -/
theorem C110_compile (debug : Bool) (pcs : Pcs F C B) (H : Oracle F C) (t : PTracker F C) (k : ErrKind) (h : (PTracker.compile debug pcs H t).1 = .error (.err k)) :
    k = .invalidProver ∧ (debug = true ∨ ∃ polys points evals tr k', pcs.multiOpen polys points evals tr = .error (.err k')) :=
  compile_kind debug pcs H t k _ (Prod.ext h rfl)

/-- The second half: what `verify_claims` returns, with any scheme.  `InvalidVerifier` is a sumcheck of the proof that does not verify; any other error comes, unchanged, from
the scheme, after the sumcheck has verified.  Here `s1` is the verifier after the claims have been folded and `sm` the sum they must have. -/
theorem C110_verify_claims (pcs : Pcs F C B) (H : Oracle F C) (s : VSt F C B) (k : ErrKind) (h : (VSt.verifyClaims pcs H s).1 = .error (.err k)) :
    ∃ agg sm s1, VSt.aggregate H s = (.ok (agg, sm), s1) ∧
      (k = .invalidVerifier ∧ (∃ k', sumcheckVerify H sm s1.own.proof.scProof s1.own.proof.scMaxDegree s1.own.proof.scNumVars s1.own.transcript = .error (.err k')) ∨
        ∃ sub tr1 comms bp, comms.length = s1.own.proof.comms.length ∧
          sumcheckVerify H sm s1.own.proof.scProof s1.own.proof.scMaxDegree s1.own.proof.scNumVars s1.own.transcript = .ok (sub, tr1) ∧
          s1.own.proof.pcsProof[0]? = some bp ∧
          pcs.batchVerify comms ((PTracker.sortedIds s1.own.proof.comms).map fun _ => sub.point) bp tr1 = .error (.err k)) :=
  verifyClaims_kind pcs H s k h

/-- With the KZG scheme an error of `verify_claims` tells the step that failed: `InvalidVerifier` the sumcheck of the claims; `InvalidProver` the sumcheck of the opening;
`InvalidParameters` a proof with at most one commitment, or an opening point of a wrong length.  `InvalidProof` and `InvalidTranscript` are not returned. -/
theorem C110_verify_claims_kzg {E : Curve F} (H : Oracle F E.G1) (pp : ProverParam E) (vp : VerifierParam E) (s : VSt F E.G1 (BatchProof E)) (k : ErrKind)
    (h : (VSt.verifyClaims (kzgPcs H pp vp) H s).1 = .error (.err k)) :
    ∃ agg sm s1, VSt.aggregate H s = (.ok (agg, sm), s1) ∧
      (k = .invalidVerifier ∧ (∃ k', sumcheckVerify H sm s1.own.proof.scProof s1.own.proof.scMaxDegree s1.own.proof.scNumVars s1.own.transcript = .error (.err k')) ∨
        ∃ sub tr1 bp, sumcheckVerify H sm s1.own.proof.scProof s1.own.proof.scMaxDegree s1.own.proof.scNumVars s1.own.transcript = .ok (sub, tr1) ∧
          s1.own.proof.pcsProof[0]? = some bp ∧ (k = .invalidParameters ∧
              (s1.own.proof.comms.length ≤ 1 ∨ bp.sumCheckProof.point.length ≠ sub.point.length ∨ vp.numVars < bp.sumCheckProof.point.length) ∨
            k = .invalidProver ∧ ∃ claim tr' k', sumcheckVerify H claim bp.sumCheckProof 2 bp.sumCheckProof.point.length tr' = .error (.err k'))) :=
  verifyClaims_kzg_kind H pp vp s k h

/-- The sumcheck itself returns `InvalidVerifier` or `InvalidProof`. -/
theorem C110_sumcheck (H : Oracle F C) (v : F) (pf : IOPProof F) (d n : Nat) (tr : Transcript F C) (k : ErrKind) (h : sumcheckVerify H v pf d n tr = .error (.err k)) :
    k = .invalidVerifier ∨ k = .invalidProof :=
  sumcheckVerify_kind H v pf d n tr k h

/-- No wrong proof is ever called an `InvalidProof`. -/
theorem C110_never_invalid_proof {E : Curve F} (H : Oracle F E.G1) (pp : ProverParam E) (vp : VerifierParam E) (s : VSt F E.G1 (BatchProof E)) :
    (VSt.verifyClaims (kzgPcs H pp vp) H s).1 ≠ .error (.err .invalidProof) ∧ (VSt.verifyClaims (kzgPcs H pp vp) H s).1 ≠ .error (.err .invalidTranscript) := by
  refine ⟨fun h => ?_, fun h => ?_⟩ <;>
    obtain ⟨_, _, _, _, ⟨h, _⟩ | ⟨_, _, _, _, _, ⟨h, _⟩ | ⟨h, _⟩⟩⟩ := C110_verify_claims_kzg H pp vp s _ h <;> cases h

/-! ### Errors that do occur -/

/-- Each of the three kinds is returned by `verify_claims` for some proof (`RtyEx.kinds`); the sumcheck inside says `InvalidProof`, which is not passed on. -/
example : sumcheckVerify RtyEx.hash 1 ⟨[5], [[1, 1]]⟩ 1 1 (Transcript.new "x") = .error (.err .invalidProof) := by decide +kernel

/-- A challenge drawn before anything is absorbed. -/
example : ((ProverCall.challenge "a" : ProverCall (ZMod 7) (ZMod 7)).run PfEx.env84 PTracker.new).1 = .error (.err .invalidTranscript) := by decide +kernel

/-- Two bags without multiplicities: the prover's and the verifier's complaint. -/
example : ((ProverCall.check (.multiset [] []) : ProverCall (ZMod 7) (ZMod 7)).run PfEx.env84 PTracker.new).1 = .error (.err .invalidParameters) ∧
    ((VerifierCall.check (.multiset [] []) : VerifierCall (ZMod 7) (ZMod 7)).run PfEx.env84 (VSt.new (B := Unit))).1 = .error (.err .invalidParameters) := by decide +kernel

end Zksql
