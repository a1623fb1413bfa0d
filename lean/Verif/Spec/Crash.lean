import Verif.Spec.Compile
/-!
Proofs that a verifier can read to the end.
-/
namespace Zksql.Spec
variable {F C B : Type} [Field F]

/-- A call returned `Ok` or `Err`. -/
def NoPanic {α : Type} (r : Res α) : Prop := r ≠ .error .panic

/-- What the verifier loaded has the shape it indexes into: something was absorbed before; as many sumcheck messages as rounds and messages of at least two
values; commitments only under identifiers that the verifier tracked; one opening, with a value for each commitment and a message for each coordinate
of its point. -/
structure WellShaped {E : Curve F} (vs : VState F E.G1 (BatchProof E)) : Prop where
  absorbed : vs.st.own.transcript.isEmpty = false
  rounds : vs.st.own.proof.scNumVars ≤ vs.st.own.proof.scProof.proofs.length
  degree : 1 ≤ vs.st.own.proof.scMaxDegree
  tracked : ∀ id ∈ vs.st.own.proof.comms.map (·.1), id ∈ vs.st.own.matComms.map (·.1)
  opening : ∃ bp, vs.st.own.proof.pcsProof[0]? = some bp ∧ vs.st.own.proof.comms.length ≤ bp.evals.length ∧
    bp.sumCheckProof.point.length ≤ bp.sumCheckProof.proofs.length

/-- None of the challenges drawn from now on is one of the interpolation nodes `0, .., d`. -/
def FutureAvoids (H : Oracle F C) (tr : Transcript F C) (d : Nat) : Prop :=
  ∀ evs, tr.events.length < evs.length → ∀ i : Nat, i ≤ d → H tr.label evs ≠ (i : F)

end Zksql.Spec
