import Verif.Spec.Halted
/-!
The parts of a proof that a verifier reads.
-/
namespace Zksql.Spec
variable {F C B : Type} [Field F] [DecidableEq F]

/-- Two proofs agree on the commitments, on every claimed sum, on the degree and number of variables, on as many round messages as there are variables, and on
the first opening proof.  They may differ in the answers to queries, in the point, in further round messages and in further opening proofs. -/
structure SameRead (p p' : CompiledProof F C B) : Prop where
  comms : p.comms = p'.comms
  claims : ∀ id, p.sumcheckClaims.lookup id = p'.sumcheckClaims.lookup id
  degree : p.scMaxDegree = p'.scMaxDegree
  size : p.scNumVars = p'.scNumVars
  rounds : p.scProof.proofs.take p.scNumVars = p'.scProof.proofs.take p.scNumVars
  opening : p.pcsProof.head? = p'.pcsProof.head?

/-- The results of calls that may fail, one after the other. -/
def voutcomes (E : Env F C) : List (VerifierCall F C) → VSt F C B → List (Res Unit)
  | [], _ => []
  | c :: cs, s => (c.run E s).1 :: voutcomes E cs (c.run E s).2

/-- A verifier that loads a proof, checks a program and verifies the claims. -/
def checkProof (E : Env F C) (pcs : Pcs F C B) (prog : List (Step F)) (p : CompiledProof F C B) : Act (VSt F C B) (List TPoly) := do
  VSt.setProof p
  VSt.transferEvals
  let hs ← Step.verifyAll E prog []
  VSt.verifyClaims pcs E.H
  pure hs

end Zksql.Spec
