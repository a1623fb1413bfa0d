import Verif.Spec.Layout
import Verif.Spec.Program
/-!
Programs in which memory is rearranged.
-/
namespace Zksql.Spec
variable {F C B : Type} [Field F] [DecidableEq F]

/-- The prover's side of a program; memory is rearranged before every step. -/
def proveRearranged (d : Nat → PTracker F C → PTracker F C) (E : Env F C) : Nat → List (Step F) → List TPoly → Act (PTracker F C) (List TPoly)
  | _, [], hs => pure hs
  | k, s :: r, hs => Act.modify (d k) >>= fun _ => Step.proveAll E [s] hs >>= fun hs' => proveRearranged d E (k + 1) r hs'

/-- The verifier's side of a program; memory is rearranged before every step. -/
def checkRearranged (d : Nat → VSt F C B → VSt F C B) (E : Env F C) : Nat → List (Step F) → List TPoly → Act (VSt F C B) (List TPoly)
  | _, [], hs => pure hs
  | k, s :: r, hs => Act.modify (d k) >>= fun _ => Step.verifyAll E [s] hs >>= fun hs' => checkRearranged d E (k + 1) r hs'

end Zksql.Spec
