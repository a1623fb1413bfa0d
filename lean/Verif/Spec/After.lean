import Verif.Spec.EndToEnd
/-!
The trackers after `compile_proof` and `verify_claims`.
-/
namespace Zksql.Spec
open Zksql
variable {F C B : Type} [Field F] [DecidableEq F]

/-- Same counter, same transcript, same commitments under the same identifiers, same claims in the same order and with the same values. -/
structure Level (t : PTracker F C) (s : VSt F C B) : Prop where
  counter : s.own.idCounter = t.idCounter
  transcript : s.own.transcript = t.transcript
  comms : s.own.matComms = t.comms
  sums : s.own.sumClaims = t.sumClaims
  zeros : s.own.zeroClaims = t.zeroClaims

/-- Honest accepted runs end level, with `bad` the exceptional values of a challenge, given the history before it.  The prover's side `m` runs from `t`, and the prover compiles a
proof `p`.  The verifier holds `p`, is in step with `t` and knows the handles (`Inputs`).  Its side `v` runs and `verify_claims` accepts.  Then both trackers are in the same
state. -/
def EndsLevelOutside {E : Curve F} (bad : List (TEvent F E.G1) → Finset F) (V : Env F E.G1) (g : E.G1) (h : E.G2) (T : List F) {α β : Type}
    (m : Env F E.G1 → Act (PTracker F E.G1) α) (v : Env F E.G1 → Act (VSt F E.G1 (BatchProof E)) β) (t : PTracker F E.G1)
    (Inputs : VSt F E.G1 (BatchProof E) → Prop) (Valid : Prop) : Prop :=
  ∀ (H : Oracle F E.G1) (a : α) (t1 t2 : PTracker F E.G1) (p : CompiledProof F E.G1 (BatchProof E)) (b : β) (s s1 s2 : VSt F E.G1 (BatchProof E)),
    Valid → SumsTrueP t → ZerosTrueP t → (∀ hist ∈ drawn t t1, H t.transcript.label hist ∉ bad hist) →
    m (V.withH H) t = (.ok a, t1) → PTracker.compile V.debug (kzgOf H g h T) H t1 = (.ok p, t2) →
    Sane s → Together t s → Inputs s → s.own.proof = p → v (V.withH H) s = (.ok b, s1) → VSt.verifyClaims (kzgOf H g h T) H s1 = (.ok (), s2) →
    Level t2 s2

end Zksql.Spec
