import Verif.Spec.Joint
import Verif.Spec.Kzg
import Verif.Model.VerifierTracker
/-!
Compiling a proof after a history and verifying it after the matching history.
-/
namespace Zksql.Spec
variable {F C B : Type} [Field F]

/-- The zero claims recorded by the prover are true. -/
def ZerosTrue (ps : PState F C) : Prop :=
  ∀ h ∈ ps.handles, h.id ∈ ps.tracker.zeroClaims → ∀ l, evalsOf ps h = .ok l → ∀ y ∈ l, y = 0

/-- The sum claims recorded by the prover are true. -/
def SumsTrue (ps : PState F C) : Prop :=
  ∀ h ∈ ps.handles, ∀ v, (h.id, v) ∈ ps.tracker.sumClaims → ∀ l, evalsOf ps h = .ok l → l.sum = v

/-- The claimed polynomials are sums of products of at most `d` tables. -/
def ClaimDegree (ps : PState F C) (d : Nat) : Prop :=
  ∀ id, id ∈ ps.tracker.zeroClaims ∨ id ∈ ps.tracker.sumClaims.map (·.1) → ∀ v, ps.tracker.virts.lookup id = some v → ∀ q ∈ v, q.2.length ≤ d

/-- All tables fit the parameters of the commitment scheme and some table has a variable. -/
def Sized (ps : PState F C) (n : Nat) : Prop :=
  (∀ e ∈ ps.tracker.mats, e.2.mle.numVars ≤ n) ∧ ∃ e ∈ ps.tracker.mats, e.2.mle.numVars ≠ 0

/-- No coordinate is one of the interpolation nodes `0, .., d`. -/
def Avoids (pt : List F) (d : Nat) : Prop := ∀ c ∈ pt, ∀ i : Nat, i ≤ d → c ≠ (i : F)

/-- The multilinear KZG scheme with the parameters for the trapdoor `T`, prover and verifier side. -/
def kzgOf [DecidableEq F] {E : Curve F} (H : Oracle F E.G1) (g : E.G1) (h : E.G2) (T : List F) : Pcs F E.G1 (BatchProof E) :=
  kzgPcs H (proverParamOf g h T) (verifierParamOf g h T)

/-- `verify_claims` returns `Ok`. -/
def Accepts [DecidableEq F] (pcs : Pcs F C B) (H : Oracle F C) (vs : VState F C B) : Prop := (VSt.verifyClaims pcs H vs.st).1 = .ok ()

/-- Whenever the claims can be aggregated and the sumcheck proof checks, the value the sumcheck leaves to be checked is the evaluation of the
aggregated polynomial at the sumcheck point. -/
def FinalCheck [DecidableEq F] (H : Oracle F C) (vs : VState F C B) : Prop :=
  ∀ agg sm s1 sub tr1, VSt.aggregate H vs.st = (.ok (agg, sm), s1) →
    sumcheckVerify H sm vs.st.own.proof.scProof vs.st.own.proof.scMaxDegree vs.st.own.proof.scNumVars s1.own.transcript = .ok (sub, tr1) →
    VSt.evalVirtual s1.sh agg sub.point = .ok sub.expectedEvaluation

/-- Whenever the claims can be aggregated and the sumcheck proof checks, the opening proof verifies for the commitments of the proof at the sumcheck
point. -/
def OpeningCheck [DecidableEq F] (pcs : Pcs F C B) (H : Oracle F C) (vs : VState F C B) : Prop :=
  ∀ agg sm s1 sub tr1, VSt.aggregate H vs.st = (.ok (agg, sm), s1) →
    sumcheckVerify H sm vs.st.own.proof.scProof vs.st.own.proof.scMaxDegree vs.st.own.proof.scNumVars s1.own.transcript = .ok (sub, tr1) →
    ∃ comms bp tr2, ((PTracker.sortedIds vs.st.own.proof.comms).mapM fun id => unwrap (vs.st.own.matComms.lookup id)) = .ok comms ∧
      vs.st.own.proof.pcsProof[0]? = some bp ∧ pcs.batchVerify comms ((PTracker.sortedIds vs.st.own.proof.comms).map fun _ => sub.point) bp tr1 = .ok (true, tr2)

/-- Every committed table is as large as any table of the tracker. -/
def SameSizes (ps : PState F C) : Prop :=
  ∀ id c a, ps.tracker.comms.lookup id = some c → ps.tracker.mats.lookup id = some a → ∀ e ∈ ps.tracker.mats, e.2.mle.numVars ≤ a.mle.numVars

end Zksql.Spec
