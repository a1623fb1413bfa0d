import Verif.Spec.Tracker
import Verif.Model.Compile
/-! Counting, from the calls of a session alone, how large its proof is. -/
namespace Zksql.Spec
variable {F C : Type} [Field F]

/-- The degrees of the handles after one more call.  A table has degree 1; sums take the larger degree, products add the degrees; a call that reads or extends
the table of a handle turns the handle into a table; a refused commitment gives no handle. -/
def degStep (commit : Mle F → Res C) (ds : List Nat) : POp F C → List Nat
  | .track _ _ => ds ++ [1]
  | .commit p _ => if (commit p).isOk then ds ++ [1] else ds
  | .add i j => ds ++ [max (ds.getD i 1) (ds.getD j 1)]
  | .sub i j => ds ++ [max (ds.getD i 1) (ds.getD j 1)]
  | .mul i j => ds ++ [ds.getD i 1 + ds.getD j 1]
  | .addScalar i _ => ds ++ [ds.getD i 1]
  | .mulScalar i _ => ds ++ [ds.getD i 1]
  | .incFront i _ => ds.set i 1 ++ [1]
  | .incBack i _ => ds.set i 1 ++ [1]
  | .evaluations i => ds.set i 1
  | .challenge _ => ds
  | .append _ _ => ds
  | .sumClaim _ _ => ds
  | .zeroClaim _ => ds

/-- The degrees of the handles of a session, in the order in which they were returned. -/
def degrees (commit : Mle F → Res C) (ops : List (POp F C)) : List Nat := ops.foldl (degStep commit) []

/-- The numbers of variables of the handles after one more call. -/
def sizeStep (commit : Mle F → Res C) (ns : List Nat) : POp F C → List Nat
  | .track p _ => ns ++ [p.numVars]
  | .commit p _ => if (commit p).isOk then ns ++ [p.numVars] else ns
  | .add i _ => ns ++ [ns.getD i 0]
  | .sub i _ => ns ++ [ns.getD i 0]
  | .mul i _ => ns ++ [ns.getD i 0]
  | .addScalar i _ => ns ++ [ns.getD i 0]
  | .mulScalar i _ => ns ++ [ns.getD i 0]
  | .incFront i k => ns ++ [ns.getD i 0 + k]
  | .incBack i k => ns ++ [ns.getD i 0 + k]
  | .evaluations _ => ns
  | .challenge _ => ns
  | .append _ _ => ns
  | .sumClaim _ _ => ns
  | .zeroClaim _ => ns

/-- The numbers of variables of the handles of a session. -/
def sizes (commit : Mle F → Res C) (ops : List (POp F C)) : List Nat := ops.foldl (sizeStep commit) []

/-- The handle a call claims to be zero. -/
def POp.zeroed : POp F C → Option Nat
  | .zeroClaim i => some i
  | _ => none

/-- The handle whose sum a call claims. -/
def POp.summed : POp F C → Option Nat
  | .sumClaim i _ => some i
  | _ => none

/-- The commitment a call makes. -/
def POp.committed (commit : Mle F → Res C) : POp F C → Option C
  | .commit p _ => (commit p).toOption
  | _ => none

/-- The largest degree among the handles claimed to be zero and of which no sum is claimed; at least 1. -/
def zeroDegree (commit : Mle F → Res C) (ops : List (POp F C)) : Nat :=
  (((ops.filterMap POp.zeroed).filter fun i => i ∉ ops.filterMap POp.summed).map fun i => (degrees commit ops).getD i 1).foldl max 1

/-- The number of variables of the largest handle. -/
def largest (commit : Mle F → Res C) (ops : List (POp F C)) : Nat := (sizes commit ops).foldl max 0

/-- How many handles have a claimed sum. -/
def sumCount (ops : List (POp F C)) : Nat := (ops.filterMap POp.summed).dedup.length

/-- How many commitments are made. -/
def commitCount (commit : Mle F → Res C) (ops : List (POp F C)) : Nat := (ops.filterMap (POp.committed commit)).length

/-- The degree of the sumcheck of a session. -/
def proofDegree (debug : Bool) (commit : Mle F → Res C) (ops : List (POp F C)) : Nat := if debug then 1 else zeroDegree commit ops + 1

/-- Two calls of the same kind on the same handles, with tables of the same size but any values, scalars, claimed sums, labels and data; both commitments succeed or
both are refused. -/
def SameKind (commit commit' : Mle F → Res C) : POp F C → POp F C → Prop
  | .track p _, .track p' _ => p.numVars = p'.numVars
  | .commit p _, .commit p' _ => p.numVars = p'.numVars ∧ (commit p).isOk = (commit' p').isOk
  | .add i j, .add i' j' => i = i' ∧ j = j'
  | .sub i j, .sub i' j' => i = i' ∧ j = j'
  | .mul i j, .mul i' j' => i = i' ∧ j = j'
  | .addScalar i _, .addScalar i' _ => i = i'
  | .mulScalar i _, .mulScalar i' _ => i = i'
  | .incFront i k, .incFront i' k' => i = i' ∧ k = k'
  | .incBack i k, .incBack i' k' => i = i' ∧ k = k'
  | .evaluations i, .evaluations i' => i = i'
  | .challenge _, .challenge _ => True
  | .append _ _, .append _ _ => True
  | .sumClaim i _, .sumClaim i' _ => i = i'
  | .zeroClaim i, .zeroClaim i' => i = i'
  | _, _ => False

/-- The number of field elements in a proof: the claimed sums, the point and the messages of the sumcheck, and the answers with their points. -/
def fieldSize {B : Type} (p : CompiledProof F C B) : Nat :=
  p.sumcheckClaims.length + p.scProof.point.length + (p.scProof.proofs.map List.length).sum + (p.queryMap.map fun e => e.1.2.length + 1).sum

/-- The number of field elements in a batch opening. -/
def batchFieldSize {E : Curve F} (b : BatchProof E) : Nat := b.sumCheckProof.point.length + (b.sumCheckProof.proofs.map List.length).sum + b.evals.length

end Zksql.Spec
