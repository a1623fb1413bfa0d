import Verif.Spec.Program
import Verif.Spec.Unread
/-!
What a user may expect of the two ways to build the program: with debug assertions and without.
-/
namespace Zksql.Spec
variable {F C B : Type} [Field F]

/-- The same program, built with debug assertions or without. -/
abbrev built (d : Bool) (E : Env F C) : Env F C := { E with debug := d }

/-- A prover that runs a program and compiles the proof, with a fresh tracker. -/
def makeProof [DecidableEq F] (E : Env F C) (pcs : Pcs F C B) (prog : List (Step F)) : Res (CompiledProof F C B) :=
  ((Step.proveAll E prog [] >>= fun _ => PTracker.compile E.debug pcs E.H) PTracker.new).1

/-- A user of two prover trackers sees no difference: the same messages were sent, identifiers and commitments given and claims recorded,
and every column has the same size and the same table. -/
structure SameForUser (t t' : PTracker F C) : Prop where
  transcript : t.transcript = t'.transcript
  counter : t.idCounter = t'.idCounter
  comms : t.comms = t'.comms
  sums : t.sumClaims = t'.sumClaims
  zeros : t.zeroClaims = t'.zeroClaims
  sizes : ∀ id, t.getPolyNv id = t'.getPolyNv id
  tables : ∀ id, (PTracker.evaluations id t).1 = (PTracker.evaluations id t').1

/-- The number of columns a step adds. -/
def Step.added : Step F → Nat
  | .check _ => 0
  | .join a _ _ _ => a.1.length
  | _ => 1

/-- The step only names columns there are, and commits to tables of the right length. -/
def Step.Named (n : Nat) : Step F → Prop
  | .commit p => p.WF
  | .add i j => i < n ∧ j < n
  | .sub i j => i < n ∧ j < n
  | .mul i j => i < n ∧ j < n
  | .addScalar i _ => i < n
  | .mulScalar i _ => i < n
  | .check c => ∀ i ∈ c.names, i < n
  | .join a b _ _ => ∀ i ∈ a.1 ++ a.2 :: (b.1 ++ [b.2]), i < n

/-- All steps of a program only name columns there are. -/
def NamedAll : Nat → List (Step F) → Prop
  | _, [] => True
  | n, s :: r => s.Named n ∧ NamedAll (n + s.added) r

end Zksql.Spec
