import Verif.Spec.Program
import Verif.Spec.Chance
/-!
What checks and programs cost: a table.
-/
namespace Zksql.Spec
open Zksql
variable {F C B K : Type} [Field F]

/-- Numbers of commitments, of challenges drawn, of claims that a handle is zero, and of claimed sums. -/
@[ext] structure Cost where
  commits : Nat
  draws : Nat
  zeros : Nat
  sums : Nat
  deriving DecidableEq, Repr

instance : Add Cost := ⟨fun a b => ⟨a.commits + b.commits, a.draws + b.draws, a.zeros + b.zeros, a.sums + b.sums⟩⟩
instance : Zero Cost := ⟨⟨0, 0, 0, 0⟩⟩

/-- What a prover has spent so far. -/
def spent (t : PTracker F C) : Cost := ⟨t.comms.length, Spec.draws t.transcript.events, t.zeroClaims.length, t.sumClaims.length⟩

/-- What a verifier has taken over, drawn and recorded so far. -/
def spentV (s : VSt F C B) : Cost := ⟨s.own.matComms.length, Spec.draws s.own.transcript.events, s.own.zeroClaims.length, s.own.sumClaims.length⟩

/-- The price of a check.  For each bag with multiplicities one commitment, one claim of a zero and one of a sum; and so on. -/
def Check.cost : Check K → Cost
  | .multiset fs gs => ⟨fs.length + gs.length, 1, fs.length + gs.length, fs.length + gs.length⟩
  | .bagEq _ _ => ⟨2, 1, 2, 2⟩
  | .bagSum _ _ _ => ⟨3, 1, 3, 3⟩
  | .inclusion _ _ => ⟨3, 1, 2, 2⟩
  | .inclusionAdvice _ _ _ => ⟨2, 1, 2, 2⟩
  | .noZeros _ => ⟨1, 0, 1, 0⟩
  | .selector _ => ⟨0, 0, 1, 0⟩
  | .permutation _ _ _ => ⟨4, 2, 4, 2⟩
  | .sort _ _ => ⟨9, 3, 7, 4⟩
  | .support _ _ _ => ⟨13, 4, 10, 6⟩
  | .supportAdvice _ _ _ _ => ⟨12, 4, 10, 6⟩
  | .disjoint _ _ _ => ⟨17, 5, 12, 8⟩
  | .setDisjoint _ _ _ => ⟨14, 4, 10, 7⟩
  | .union _ _ _ _ => ⟨18, 5, 13, 9⟩
  | .diff _ _ _ _ _ _ => ⟨19, 6, 15, 12⟩
  | .intersect _ _ _ _ _ _ => ⟨20, 6, 16, 13⟩
  | .joinReduction _ _ _ _ _ => ⟨57, 17, 42, 28⟩
  | .indexTransform _ _ => ⟨3, 2, 2, 2⟩
  | .joinAdvice _ _ _ _ _ => ⟨3, 2, 3, 2⟩
  | .groupBy _ _ _ _ aggs _ => ⟨12 + 2 * (aggs.countP fun e => e.2.1 = .sum), 4 + (aggs.countP fun e => e.2.1 = .sum), 10 + 2 * (aggs.countP fun e => e.2.1 = .sum),
      6 + 2 * (aggs.countP fun e => e.2.1 = .sum)⟩

/-- The price of a step.  Arithmetic on columns costs nothing; a join costs one commitment for each column of the first table and the price of its check. -/
def Step.cost : Step F → Cost
  | .commit _ => ⟨1, 0, 0, 0⟩
  | .check c => c.cost
  | .join a _ _ _ => ⟨a.1.length + 3, 2, 3, 2⟩
  | _ => 0

/-- The price of a program: the sum of the prices of its steps. -/
def Step.costAll : List (Step F) → Cost
  | [] => 0
  | s :: r => s.cost + costAll r

end Zksql.Spec
