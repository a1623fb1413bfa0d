import Verif.Spec.Tables
/-!
Prover and verifier of a protocol use identifiers, transcript and claims in the same way.
-/
namespace Zksql.Spec
open Zksql
variable {F C B : Type} [Field F] [DecidableEq F]

/-- No identifier with a commitment is still to be issued; so it is in every reachable tracker. -/
def FreshIds (t : PTracker F C) : Prop := ∀ id c, t.comms.lookup id = some c → id < t.idCounter

/-- Start the prover's call `m` and the verifier's call `v` in trackers that are in step.  If both succeed and the proof contains the commitments the
prover made, then the trackers are in step again: equal counters, transcripts, commitments and claim labels.  The results are related by `same`. -/
def Lockstep {α β : Type} (m : Act (PTracker F C) α) (v : Act (VSt F C B) β) (same : α → β → Prop) : Prop :=
  ∀ (t : PTracker F C) (s : VSt F C B) (a : α) (b : β) (t' : PTracker F C) (s' : VSt F C B), FreshIds t → Together t s →
    (∀ id c, t'.comms.lookup id = some c → s.own.proof.comms.lookup id = some c) →
    m t = (.ok a, t') → v s = (.ok b, s') → FreshIds t' ∧ Together t' s' ∧ s'.own.proof = s.own.proof ∧ same a b

/-- The verifier's request for the prover's request. -/
def sameInstr (i : GroupInstr TPoly) : GroupInstr Nat :=
  ⟨i.groupingCols, i.supportCols.map (·.id), i.supportSel.id, i.supportMult.id, i.aggs.map fun e => (e.1, e.2.1, e.2.2.id)⟩

end Zksql.Spec
