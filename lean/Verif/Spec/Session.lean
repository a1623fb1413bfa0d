import Verif.Spec.After
import Verif.Spec.Joint
import Verif.Spec.Compile
/-!
Sessions: several proofs made and checked with the same pair of trackers.
-/
namespace Zksql.Spec
open Zksql
variable {F C B : Type} [Field F] [DecidableEq F]

/-- A round of the prover: further calls on the tracker, then `compile_proof`. -/
def proveNext (debug : Bool) (commit : Mle F → Res C) (pcs : Pcs F C B) (H : Oracle F C) (ps : PState F C) (ops : List (POp F C)) : Res (CompiledProof F C B × PState F C) := do
  let ps ← runOps commit H ps ops
  let r := PTracker.compile debug pcs H ps.tracker
  let p ← r.1
  .ok (p, ⟨r.2, ps.handles⟩)

/-- A round of the verifier: `set_compiled_proof`, the matching calls, then `verify_claims`. -/
def verifyNext (debug : Bool) (pcs : Pcs F C B) (H : Oracle F C) (pub : Mle F → List F → Res F) (vs : VState F C B) (p : CompiledProof F C B) (ops : List (POp F C)) :
    Res (VState F C B) := do
  let vs ← runVOps debug H vs (.setProof p :: mirrorOps pub ops)
  let r := VSt.verifyClaims pcs H vs.st
  r.1
  .ok ⟨r.2, vs.handles⟩

/-- Any number of rounds, one after the other.  The session fails at the first round that cannot be proved or is not accepted. -/
def session (debug : Bool) (commit : Mle F → Res C) (pcs : Pcs F C B) (H : Oracle F C) (pub : Mle F → List F → Res F) :
    PState F C → VState F C B → List (List (POp F C)) → Res (PState F C × VState F C B)
  | ps, vs, [] => .ok (ps, vs)
  | ps, vs, ops :: rest => do
    let (p, ps) ← proveNext debug commit pcs H ps ops
    let vs ← verifyNext debug pcs H pub vs p ops
    session debug commit pcs H pub ps vs rest

/-- An honest session.  In every round the prover's calls succeed, its tables have the sizes allowed by `Sizes`, there are two commitments, claims have degree
at most `d`, and what is claimed to vanish does.  The two sumchecks of each proof draw no interpolation node. -/
def HonestRounds {E : Curve F} (Sizes : PState F E.G1 → Prop) (debug : Bool) (H : Oracle F E.G1) (g : E.G1) (h : E.G2) (T : List F) (d : Nat) :
    PState F E.G1 → List (List (POp F E.G1)) → Prop
  | _, [] => True
  | ps, ops :: rest =>
    CommitsOk (kzgCommit (proverParamOf g h T)) ops ∧
    ∃ ps', runOps (kzgCommit (proverParamOf g h T)) H ps ops = .ok ps' ∧ Sizes ps' ∧ 2 ≤ ps'.tracker.comms.length ∧ ClaimDegree ps' d ∧ ZerosTrue ps' ∧
      ∀ p t, PTracker.compile debug (kzgOf H g h T) H ps'.tracker = (.ok p, t) →
        Avoids p.scProof.point p.scMaxDegree ∧ (∀ bp ∈ p.pcsProof, Avoids bp.sumCheckProof.point 2) ∧ HonestRounds Sizes debug H g h T d ⟨t, ps'.handles⟩ rest

/-- All tables have `N` variables. -/
def OneSize (N : Nat) (ps : PState F C) : Prop := ∀ e ∈ ps.tracker.mats, e.2.mle.numVars = N

end Zksql.Spec
