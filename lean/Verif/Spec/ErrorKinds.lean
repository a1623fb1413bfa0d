import Verif.Spec.Halted
/-!
The kinds of the errors that calls return.
-/
namespace Zksql.Spec
variable {F C B : Type} [Field F] [DecidableEq F]

/-- The kinds of errors that a call of the prover may return, besides the transcript's own: those the commitment scheme's `commit` returns, and
`InvalidParameters` from the checks and the join, but not from the handle operations, the claims and the split functions. -/
def proverKind (E : Env F C) (k : ErrKind) : ProverCall F C → Prop
  | .op (.commit p) => E.commit p = .error (.err k)
  | .op _ => False
  | .read _ => False
  | .challenge _ => False
  | .append _ _ => False
  | .sumClaim _ _ => False
  | .zeroClaim _ => False
  | .bag _ _ => False
  | .table _ _ => False
  | .check (.selector _) => False
  | .check (.noZeros _) => ∃ p, E.commit p = .error (.err k)
  | .check _ => k = .invalidParameters ∨ ∃ p, E.commit p = .error (.err k)
  | .join _ _ _ _ => k = .invalidParameters ∨ ∃ p, E.commit p = .error (.err k)
  | .cross _ _ => False
  | .split _ _ => ∃ p, E.commit p = .error (.err k)
  | .setSplit _ _ => ∃ p, E.commit p = .error (.err k)
  | .multSplit _ _ => ∃ p, E.commit p = .error (.err k)
  | .inclusionAdvice _ _ => False
  | .supportAdvice _ => False
  | .disjointAdvice _ _ => False

/-- The kinds of errors that a call of the verifier may return, besides the transcript's own: `InvalidVerifier` from the checks that compare sums, and
`InvalidParameters` from the two checks that look at the shape of the request. -/
def verifierKind (k : ErrKind) : VerifierCall F C → Prop
  | .op _ => False
  | .challenge _ => False
  | .append _ _ => False
  | .claimedSum _ => False
  | .sumClaim _ _ => False
  | .zeroClaim _ => False
  | .check (.selector _) => False
  | .check (.noZeros _) => False
  | .check (.multiset _ _) => k = .invalidParameters ∨ k = .invalidVerifier
  | .check (.groupBy _ _ _ _ _ _) => k = .invalidParameters ∨ k = .invalidVerifier
  | .check _ => k = .invalidVerifier
  | .join _ _ _ _ => k = .invalidVerifier
  | .cross _ _ => False

end Zksql.Spec
