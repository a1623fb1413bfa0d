import Verif.Spec.ProgramDegree
import Verif.Spec.Cost
/-!
Programs a proof can be compiled for, read off from the program and the sizes of its columns.
-/
namespace Zksql.Spec
open Zksql
variable {F C B K : Type} [Field F] [DecidableEq F]

/-- The check makes the prover commit to a table of `N` variables, twice the size of the larger of two bags. -/
def Check.Reaches (N : Nat) (W : K → Column F) : Check K → Prop
  | disjoint f g _ => max (W f.1).nv (W g.1).nv + 1 = N
  | setDisjoint f g _ => max (W f.1).nv (W g.1).nv + 1 = N
  | union f g _ _ => max (W f.1).nv (W g.1).nv + 1 = N
  | diff _ g l _ _ _ => max (W l.1).nv (W g.1).nv + 1 = N
  | intersect _ _ l _ r _ => max (W l.1).nv (W r.1).nv + 1 = N
  | joinReduction f g _ _ _ => max (W f.1).nv (W g.1).nv + 1 = N
  | _ => False

/-- The step makes the prover commit to a table of `N` variables. -/
def Step.Reaches (N : Nat) (W : List (Column F)) : Step F → Prop
  | commit p => p.numVars = N
  | check c => c.Reaches N (colAt W)
  | _ => False

/-- Some step does. -/
def Step.ReachesAll (N : Nat) : List (Column F) → List (Step F) → Prop
  | _, [] => False
  | W, s :: r => s.Reaches N W ∨ ReachesAll N (s.next W) r

/-- A proof can be compiled for a program that starts with nothing, with parameters for `n` variables: all tables have at most `N` variables and one has as many, the claims have
degree at most `d`, and there are at least two commitments.  This is about the program and the sizes of its columns only. -/
structure ProgramCompiles (prog : List (Step F)) (n d N : Nat) : Prop where
  fits : Step.FitsAll N [] prog
  top : Step.ReachesAll N [] prog
  pos : 0 < N
  room : N ≤ n
  two : 2 ≤ (Step.costAll prog).commits
  degree : Step.degreeAll [] prog ≤ d

/-- The same for a program that starts with the columns `cols`. -/
structure ProgramCompilesOn (cols : List (Mle F)) (prog : List (Step F)) (n d N : Nat) : Prop where
  sizes : ∀ p ∈ cols, p.WF ∧ p.numVars ≤ N
  fits : Step.FitsAll N (startCols cols) prog
  top : (∃ p ∈ cols, p.numVars = N) ∨ Step.ReachesAll N (startCols cols) prog
  pos : 0 < N
  room : N ≤ n
  two : 2 ≤ cols.length + (Step.costAll prog).commits
  degree : Step.degreeAll (List.replicate cols.length 1) prog ≤ d

/-- An honest run from scratch, as in `FromScratchOutside`, without a condition on the prover's state: whenever the data is valid and no challenge is exceptional, the prover compiles a proof and the verifier
accepts it. -/
def SurelyAccepted {E : Curve F} (V : Env F E.G1) (g : E.G1) (h : E.G2) (T : List F) (d : Nat) {α β : Type} (m : Env F E.G1 → Act (PTracker F E.G1) α)
    (v : Env F E.G1 → Act (VSt F E.G1 (BatchProof E)) β) (cols : List (Mle F)) (bounds : List Nat) (Valid : Prop) : Prop :=
  ∃ bad : List (TEvent F E.G1) → Finset F, ∀ H : Oracle F E.G1, ∃ (a : α) (t' : PTracker F E.G1), m (V.withH H) (committed V.commit cols) = (.ok a, t') ∧
    (drawn (committed V.commit cols) t').length = bounds.length ∧
    (∀ k hist, (drawn (committed V.commit cols) t')[k]? = some hist → (bad hist).card ≤ bounds.getD k 0) ∧
    (Valid → (∀ hist ∈ drawn (committed V.commit cols) t', H (committed V.commit cols).transcript.label hist ∉ bad hist) →
      ∃ (p : CompiledProof F E.G1 (BatchProof E)) (bp : BatchProof E), (PTracker.compile V.debug (kzgOf H g h T) H t').1 = .ok p ∧ p.pcsProof = [bp] ∧ p.scMaxDegree ≤ d + 1 ∧
        ∃ (vs : VState F E.G1 (BatchProof E)) (b : β) (s' : VSt F E.G1 (BatchProof E)),
          runVOps V.debug H VState.init (.setProof p :: List.replicate cols.length .transferNext) = .ok vs ∧ v (V.withH H) vs.st = (.ok b, s') ∧
            (Avoids p.scProof.point p.scMaxDegree → Avoids bp.sumCheckProof.point 2 → (VSt.verifyClaims (kzgOf H g h T) H s').1 = .ok ()))

end Zksql.Spec
