import Verif.Spec.Binding
import Verif.Spec.Joint
/-!
The polynomials an honest prover has committed to, at the points with a coordinate for every variable of the largest table.
-/
namespace Zksql.Spec
open Zksql
variable {F C : Type} [Field F]

/-- `P` gives the committed polynomials: at a point with further coordinates, the value at its first ones. -/
def Behind (P : C → List F → F) (ps : PState F C) : Prop :=
  ∀ id c, ps.tracker.comms.lookup id = some c → ∀ nv x y, nv ≤ x.length → ps.tracker.evaluate id (x.take nv) = .ok (some y) → P c x = y

/-- The verifier's closed forms are the tracked polynomials, at points with further coordinates too. -/
def PubLong (pub : Mle F → List F → Res F) : Prop :=
  ∀ p : Mle F, p.WF → ∀ x : List F, p.numVars ≤ x.length → pub p x = .ok (mle p.tbl (x.take p.numVars))

/-- Reading the evaluations of a polynomial whose sum is claimed changes no evaluation. -/
def SumsSteady (ps : PState F C) : Prop := ∀ a ∈ ps.handles, a.id ∈ ps.tracker.sumClaims.map (·.1) → SameAfter ps a

end Zksql.Spec
