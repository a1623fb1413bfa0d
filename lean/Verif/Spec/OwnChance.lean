import Verif.Spec.OwnProver
import Verif.Spec.Chance
/-!
A whole session with the library's own prover and given challenges.
-/
namespace Zksql.Spec
open Zksql
variable {F C B : Type} [Field F] [DecidableEq F]

/-- With the challenges `H` the prover, which has committed to the columns `cols`, runs its side `m` and ends in `t'`.  In a debug build or a release build it compiles the proof `p` from there.  A new verifier
is given `p`, takes over the commitments to the columns, runs its side `v` and accepts. -/
def OwnPasses (V : Env F C) (pcs : Oracle F C → Pcs F C B) {α β : Type} (m : Env F C → Act (PTracker F C) α) (v : Env F C → Act (VSt F C B) β) (cols : List (Mle F)) (H : Oracle F C)
    (t' : PTracker F C) (p : CompiledProof F C B) : Prop :=
  ∃ (a : α) (debug : Bool) (vs : VState F C B) (b : β) (s' : VSt F C B), m (V.withH H) (committed V.commit cols) = (.ok a, t') ∧ (PTracker.compile debug (pcs H) H t').1 = .ok p ∧
    runVOps V.debug H VState.init (.setProof p :: List.replicate cols.length .transferNext) = .ok vs ∧ v (V.withH H) vs.st = (.ok b, s') ∧ (VSt.verifyClaims (pcs H) H s').1 = .ok ()

end Zksql.Spec
