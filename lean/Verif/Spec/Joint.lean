import Verif.Spec.Tracker
import Verif.Spec.Mle
import Verif.Model.VerifierTracker
/-!
Histories of a verifier tracker, and histories a prover and a verifier run together.
-/
namespace Zksql.Spec
variable {F C B : Type} [Field F]

/-- One call on the verifier's side.  Handles are named by their position in the list of handles returned so far.  `transferNext` is the pattern
`let id = tracker.get_next_id(); tracker.transfer_prover_comm(id)` and `proverSum` the pattern
`let s = tracker.get_prover_claimed_sum(id); tracker.add_sumcheck_claim(id, s)` used by all protocols. -/
inductive VOp (F C B : Type) where
  | trackComm (c : C)
  | transfer (id : Nat)
  | transferNext
  | virt (f : List F → Res F)
  | add (i j : Nat)
  | sub (i j : Nat)
  | mul (i j : Nat)
  | addScalar (i : Nat) (c : F)
  | mulScalar (i : Nat) (c : F)
  | incFront (i k : Nat)
  | incBack (i k : Nat)
  | setProof (p : CompiledProof F C B)
  | transferEvals
  | challenge (label : String)
  | append (label : String) (d : TItem F C)
  | sumClaim (i : Nat) (v : F)
  | proverSum (i : Nat)
  | zeroClaim (i : Nat)

/-- A verifier tracker and the identifiers of the handles returned so far. -/
structure VState (F C B : Type) where
  st : VSt F C B
  handles : List Nat

/-- A call that returns a handle. -/
def vstepHandle (vs : VState F C B) (a : Act (VSt F C B) Nat) : Res (VState F C B) :=
  match a vs.st with
  | (.ok h, s) => .ok ⟨s, vs.handles ++ [h]⟩
  | (.error (.err _), s) => .ok ⟨s, vs.handles⟩
  | (.error .panic, _) => .error .panic

/-- A call that returns anything else. -/
def vstepOther {α : Type} (vs : VState F C B) (a : Act (VSt F C B) α) : Res (VState F C B) :=
  match a vs.st with
  | (.ok _, s) => .ok ⟨s, vs.handles⟩
  | (.error (.err _), s) => .ok ⟨s, vs.handles⟩
  | (.error .panic, _) => .error .panic

/-- Run one call. -/
def VOp.run [DecidableEq F] (debug : Bool) (H : Oracle F C) (vs : VState F C B) : VOp F C B → Res (VState F C B)
  | .trackComm c => vstepHandle vs (VSt.trackMatComm c)
  | .transfer id => vstepHandle vs (VSt.transferComm debug id)
  | .transferNext => vstepHandle vs (VSt.getNextId >>= VSt.transferComm debug)
  | .virt f => vstepHandle vs (VSt.trackVirtual (.fn f))
  | .add i j => do
    let a ← idx vs.handles i
    let b ← idx vs.handles j
    vstepHandle vs (VSt.addComms a b)
  | .sub i j => do
    let a ← idx vs.handles i
    let b ← idx vs.handles j
    vstepHandle vs (VSt.subComms a b)
  | .mul i j => do
    let a ← idx vs.handles i
    let b ← idx vs.handles j
    vstepHandle vs (VSt.mulComms a b)
  | .addScalar i c => do
    let a ← idx vs.handles i
    vstepHandle vs (VSt.addScalar a c)
  | .mulScalar i c => do
    let a ← idx vs.handles i
    vstepHandle vs (VSt.mulScalar a c)
  | .incFront i k => do
    let a ← idx vs.handles i
    vstepHandle vs (VSt.incFront a k)
  | .incBack i k => do
    let a ← idx vs.handles i
    vstepHandle vs (VSt.incBack a k)
  | .setProof p => vstepOther vs (VSt.setProof p)
  | .transferEvals => vstepOther vs VSt.transferEvals
  | .challenge label => vstepOther vs (VSt.challenge H label)
  | .append label d => vstepOther vs (VSt.append label d)
  | .sumClaim i v => do
    let a ← idx vs.handles i
    vstepOther vs (VSt.addSumClaim a v)
  | .proverSum i => do
    let a ← idx vs.handles i
    vstepOther vs (VSt.claimedSum a >>= VSt.addSumClaim a)
  | .zeroClaim i => do
    let a ← idx vs.handles i
    vstepOther vs (VSt.addZeroClaim a)

/-- Run a history. -/
def runVOps [DecidableEq F] (debug : Bool) (H : Oracle F C) (vs : VState F C B) (ops : List (VOp F C B)) : Res (VState F C B) :=
  ops.foldlM (VOp.run debug H) vs

/-- A fresh verifier tracker. -/
def VState.init : VState F C B := ⟨VSt.new, []⟩

/-- A state a history can lead to. -/
def VReachable [DecidableEq F] (debug : Bool) (H : Oracle F C) (vs : VState F C B) : Prop :=
  ∃ ops, runVOps debug H VState.init ops = .ok vs

/-- What a handle evaluates to when queries to committed polynomials are answered by `ans`. -/
def vEval (vs : VState F C B) (ans : Nat → List F → Res F) (id : Nat) (x : List F) : Res F := VSt.evalC vs.st.sh.comms ans (id + 1) id x

/-- The verifier's counterpart of a prover call: a public table is replaced by its closed form `pub`, a commitment is read from the proof,
reading evaluations has no counterpart, a claimed sum is read from the proof. -/
def mirror (pub : Mle F → List F → Res F) : POp F C → Option (VOp F C B)
  | .track p _ => some (.virt (pub p))
  | .commit _ _ => some .transferNext
  | .add i j => some (.add i j)
  | .sub i j => some (.sub i j)
  | .mul i j => some (.mul i j)
  | .addScalar i c => some (.addScalar i c)
  | .mulScalar i c => some (.mulScalar i c)
  | .incFront i k => some (.incFront i k)
  | .incBack i k => some (.incBack i k)
  | .evaluations _ => none
  | .challenge label => some (.challenge label)
  | .append label d => some (.append label d)
  | .sumClaim i _ => some (.proverSum i)
  | .zeroClaim i => some (.zeroClaim i)

/-- The verifier's counterpart of a prover's history. -/
def mirrorOps (pub : Mle F → List F → Res F) (ops : List (POp F C)) : List (VOp F C B) := ops.filterMap (mirror pub)

/-- Prover and verifier are in step: same counter, same transcript, same identifiers handed out, same commitments under the same identifiers,
same claimed identifiers. -/
structure InStep (ps : PState F C) (vs : VState F C B) : Prop where
  counter : vs.st.own.idCounter = ps.tracker.idCounter
  transcript : vs.st.own.transcript = ps.tracker.transcript
  handles : vs.handles = ps.handles.map (·.id)
  comms : vs.st.own.matComms = ps.tracker.comms
  sums : vs.st.own.sumClaims.map (·.1) = ps.tracker.sumClaims.map (·.1)
  zeros : vs.st.own.zeroClaims = ps.tracker.zeroClaims

/-- The proof the verifier holds carries the prover's commitments and a value for each of its sum claims. -/
def ProofCovers (vs : VState F C B) (ps : PState F C) : Prop :=
  (∀ id c, ps.tracker.comms.lookup id = some c → vs.st.own.proof.comms.lookup id = some c) ∧
    ∀ e ∈ ps.tracker.sumClaims, ∃ s, vs.st.own.proof.sumcheckClaims.lookup e.1 = some s

/-- All commitments of a history succeed. -/
def CommitsOk (commit : Mle F → Res C) (ops : List (POp F C)) : Prop :=
  ∀ p wf, POp.commit p wf ∈ ops → ∃ c, commit p = .ok c

/-- The closed forms the verifier uses for public tables are their multilinear extensions. -/
def PubOk (pub : Mle F → List F → Res F) : Prop := ∀ p : Mle F, p.WF → ∀ x : List F, x.length = p.numVars → pub p x = .ok (mle p.tbl x)

/-- Queries to committed polynomials are answered with the prover's evaluations. -/
def Truthful (ans : Nat → List F → Res F) (ps : PState F C) : Prop :=
  ∀ id c, ps.tracker.comms.lookup id = some c → ∀ x y, ps.tracker.evaluate id x = .ok (some y) → ans id x = .ok y

/-- Reading the evaluations of a handle does not change what it evaluates to. -/
def SameAfter (ps : PState F C) (a : TPoly) : Prop :=
  ∀ x : List F, x.length = a.numVars → a.evaluate (afterEvaluations ps a) x = a.evaluate ps.tracker x

/-- A call the verifier's counterpart follows faithfully: evaluations are read, and variables added, only for handles for which reading
evaluations changes nothing; and variables added at the back double their number. -/
def Faithful (ps : PState F C) : POp F C → Prop
  | .evaluations i => ∀ a, ps.handles[i]? = some a → SameAfter ps a
  | .incFront i _ => ∀ a, ps.handles[i]? = some a → SameAfter ps a
  | .incBack i k => ∀ a, ps.handles[i]? = some a → SameAfter ps a ∧ k = a.numVars
  | _ => True

/-- All calls of a history are faithful. -/
def FaithfulRun (commit : Mle F → Res C) (H : Oracle F C) : PState F C → List (POp F C) → Prop
  | _, [] => True
  | ps, op :: ops => Faithful ps op ∧ ∀ ps', op.run commit H ps = .ok ps' → FaithfulRun commit H ps' ops

end Zksql.Spec
