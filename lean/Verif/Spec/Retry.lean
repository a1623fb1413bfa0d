import Verif.Spec.Halted
/-!
Calling `verify_claims` more than once.
-/
namespace Zksql.Spec
variable {F C B : Type} [Field F] [DecidableEq F]

/-- `verify_claims` is called, with any result; then another proof is loaded and `verify_claims` is called again. -/
def retry (pcs : Pcs F C B) (H : Oracle F C) (p' : CompiledProof F C B) (s : VSt F C B) : Res Unit :=
  (VSt.verifyClaims pcs H (loadProof p' (VSt.verifyClaims pcs H s).2)).1

/-- The identifier of the claim that `verify_claims` adds for the recorded zero claims. -/
def addedClaim (s : VSt F C B) : Nat := s.own.idCounter + 2 * s.own.zeroClaims.length + 2

/-- The sum that a proof's first round message stands for. -/
def firstSum (p : CompiledProof F C B) : F := ((p.scProof.proofs.headD []).getD 0 0) + ((p.scProof.proofs.headD []).getD 1 0)

/-- The commitment scheme adds to the transcript and leaves what is there, also when it fails. -/
structure OnlyAdds (pcs : Pcs F C B) : Prop where
  label : ∀ cs pts b tr, (pcs.checkTrail cs pts b tr).label = tr.label
  events : ∀ cs pts b tr, tr.events <+: (pcs.checkTrail cs pts b tr).events
  okLabel : ∀ cs pts b tr r tr', pcs.batchVerify cs pts b tr = .ok (r, tr') → tr'.label = tr.label
  okEvents : ∀ cs pts b tr r tr', pcs.batchVerify cs pts b tr = .ok (r, tr') → tr.events <+: tr'.events

end Zksql.Spec
