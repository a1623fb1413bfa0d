import Verif.Spec.Iop
import Verif.Spec.Compile
import Verif.Spec.Claims
/-!
Proofs with other claimed sums, and verification with the comparison the code leaves out.
-/
namespace Zksql.Spec
open Zksql
variable {F C B : Type} [Field F]

/-- The same proof with other claimed sums. -/
def withSums (sc : List (Nat × F)) (p : CompiledProof F C B) : CompiledProof F C B := { p with sumcheckClaims := sc }

/-- Both give a sum for the same identifiers. -/
def SameKeys (a b : List (Nat × F)) : Prop := ∀ id, (a.lookup id).isSome = (b.lookup id).isSome

/-- How much the sum claimed for `id` counts in the folded sum: the challenges of the claims about it, added up. -/
def weightOf (ds : List F) (ids : List Nat) (id : Nat) : F := dot ds (ids.map fun i => if i = id then 1 else 0)

/-- The challenges `verify_claims` draws to fold the claims: one per claim that a polynomial vanishes, one per variable, one per claimed sum and one
more. -/
def FoldingChallenges (H : Oracle F C) (s : VSt F C B) (cs r ds : List F) : Prop :=
  ∃ tr1 tr2 tr3, s.own.transcript.challengeLoop H "zerocheck challenge" s.own.zeroClaims.length = .ok (cs, tr1) ∧
    tr1.challenges H "0check r" s.own.proof.scNumVars = .ok (r, tr2) ∧ tr2.challengeLoop H "sumcheck challenge" (s.own.sumClaims.length + 1) = .ok (ds, tr3)

variable [DecidableEq F]

/-- Whenever the claims can be aggregated and the sumcheck proof checks, the value the sumcheck leaves to be checked is the value there of the
aggregated polynomial, computed from the committed polynomials `P` themselves. -/
def TrueFinalCheck (H : Oracle F C) (P : C → List F → F) (s : VSt F C B) : Prop :=
  ∀ agg sm s1 sub tr1, VSt.aggregate H s = (.ok (agg, sm), s1) →
    sumcheckVerify H sm s.own.proof.scProof s.own.proof.scMaxDegree s.own.proof.scNumVars s1.own.transcript = .ok (sub, tr1) →
    valueAt s1 P agg sub.point = .ok sub.expectedEvaluation

end Zksql.Spec
