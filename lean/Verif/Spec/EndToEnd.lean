import Verif.Spec.Honest
import Verif.Spec.Compile
/-!
Whole runs with an honest prover: the prover's side of a check, `compile_proof`, the verifier's side of the check, `verify_claims`.
-/
namespace Zksql.Spec
open Zksql
variable {F C B : Type} [Field F] [DecidableEq F]

/-- The claimed polynomials are sums of products of at most `d` tables. -/
def ClaimDegreeP (t : PTracker F C) (d : Nat) : Prop :=
  ∀ id, id ∈ t.zeroClaims ∨ id ∈ t.sumClaims.map (·.1) → ∀ v, t.virts.lookup id = some v → ∀ q ∈ v, q.2.length ≤ d

/-- A prover tracker from which a proof can be compiled with parameters for `n` variables.  The largest table has `N` variables, of which there is at least
one, the claims have degree at most `d`, and there are at least two commitments. -/
structure Compilable (t : PTracker F C) (n d N : Nat) : Prop where
  fits : ∀ e ∈ t.mats, e.2.mle.numVars ≤ N
  top : ∃ e ∈ t.mats, e.2.mle.numVars = N
  pos : 0 < N
  room : N ≤ n
  two : 2 ≤ t.comms.length
  degree : ClaimDegreeP t d

/-- Honest runs are accepted, with `bad` the exceptional values of a challenge, given the history before it.  Whatever the challenges are, the prover's side `m` succeeds
from `t` and draws as many challenges as there are `bounds`.  The `k`-th of them has at most `bounds[k]` exceptional values.  If a proof can be compiled from the state the prover ends
in, the data is `Valid`, earlier claims are true and no drawn challenge is exceptional, then the prover compiles a proof `p`.  Every verifier that holds
`p`, is in step with `t` and knows the handles (`Inputs`) runs its side `v` without rejecting.  After that `verify_claims` returns `Ok`, unless a
sumcheck challenge is one of the interpolation nodes. -/
def RunAcceptedOutside {E : Curve F} (bad : List (TEvent F E.G1) → Finset F) (V : Env F E.G1) (g : E.G1) (h : E.G2) (T : List F) (N d : Nat) {α β : Type}
    (m : Env F E.G1 → Act (PTracker F E.G1) α) (v : Env F E.G1 → Act (VSt F E.G1 (BatchProof E)) β) (t : PTracker F E.G1) (bounds : List Nat)
    (Inputs : VSt F E.G1 (BatchProof E) → Prop) (Valid : Prop) : Prop :=
  ∀ H : Oracle F E.G1, ∃ (a : α) (t' : PTracker F E.G1), m (V.withH H) t = (.ok a, t') ∧
    (drawn t t').length = bounds.length ∧ (∀ k hist, (drawn t t')[k]? = some hist → (bad hist).card ≤ bounds.getD k 0) ∧
    (Compilable t' T.length d N → Valid → SumsTrueP t → ZerosTrueP t → (∀ hist ∈ drawn t t', H t.transcript.label hist ∉ bad hist) →
      ∃ (p : CompiledProof F E.G1 (BatchProof E)) (bp : BatchProof E), (PTracker.compile V.debug (kzgOf H g h T) H t').1 = .ok p ∧ p.pcsProof = [bp] ∧ p.scMaxDegree ≤ d + 1 ∧
        ∀ s : VSt F E.G1 (BatchProof E), Sane s → Together t s → Inputs s → s.own.proof = p →
          ∃ (b : β) (s' : VSt F E.G1 (BatchProof E)), v (V.withH H) s = (.ok b, s') ∧
            (Avoids p.scProof.point p.scMaxDegree → Avoids bp.sumCheckProof.point 2 → (VSt.verifyClaims (kzgOf H g h T) H s').1 = .ok ()))

/-- The same for some choice of exceptional values. -/
def RunAccepted {E : Curve F} (V : Env F E.G1) (g : E.G1) (h : E.G2) (T : List F) (N d : Nat) {α β : Type}
    (m : Env F E.G1 → Act (PTracker F E.G1) α) (v : Env F E.G1 → Act (VSt F E.G1 (BatchProof E)) β) (t : PTracker F E.G1) (bounds : List Nat)
    (Inputs : VSt F E.G1 (BatchProof E) → Prop) (Valid : Prop) : Prop :=
  ∃ bad : List (TEvent F E.G1) → Finset F, RunAcceptedOutside bad V g h T N d m v t bounds Inputs Valid

/-- The prover's tracker after committing to the columns, in order. -/
def committed (commit : Mle F → Res C) (cols : List (Mle F)) : PTracker F C := cols.foldl (fun t p => (TPoly.trackAndCommit commit p t).2) PTracker.new

/-- The same from scratch.  The prover commits to the columns `cols`, runs its side and compiles the proof `p`.  A new verifier is given `p`, takes over the commitments to
the columns, runs its side and then `verify_claims`. -/
def FromScratchOutside {E : Curve F} (bad : List (TEvent F E.G1) → Finset F) (V : Env F E.G1) (g : E.G1) (h : E.G2) (T : List F) (N d : Nat) {α β : Type}
    (m : Env F E.G1 → Act (PTracker F E.G1) α) (v : Env F E.G1 → Act (VSt F E.G1 (BatchProof E)) β) (cols : List (Mle F)) (bounds : List Nat)
    (Valid : Prop) : Prop :=
  ∀ H : Oracle F E.G1, ∃ (a : α) (t' : PTracker F E.G1), m (V.withH H) (committed V.commit cols) = (.ok a, t') ∧
    (drawn (committed V.commit cols) t').length = bounds.length ∧
    (∀ k hist, (drawn (committed V.commit cols) t')[k]? = some hist → (bad hist).card ≤ bounds.getD k 0) ∧
    (Compilable t' T.length d N → Valid → (∀ hist ∈ drawn (committed V.commit cols) t', H (committed V.commit cols).transcript.label hist ∉ bad hist) →
      ∃ (p : CompiledProof F E.G1 (BatchProof E)) (bp : BatchProof E), (PTracker.compile V.debug (kzgOf H g h T) H t').1 = .ok p ∧ p.pcsProof = [bp] ∧ p.scMaxDegree ≤ d + 1 ∧
        ∃ (vs : VState F E.G1 (BatchProof E)) (b : β) (s' : VSt F E.G1 (BatchProof E)),
          runVOps V.debug H VState.init (.setProof p :: List.replicate cols.length .transferNext) = .ok vs ∧ v (V.withH H) vs.st = (.ok b, s') ∧
            (Avoids p.scProof.point p.scMaxDegree → Avoids bp.sumCheckProof.point 2 → (VSt.verifyClaims (kzgOf H g h T) H s').1 = .ok ()))

/-- The same for some choice of exceptional values. -/
def FromScratch {E : Curve F} (V : Env F E.G1) (g : E.G1) (h : E.G2) (T : List F) (N d : Nat) {α β : Type}
    (m : Env F E.G1 → Act (PTracker F E.G1) α) (v : Env F E.G1 → Act (VSt F E.G1 (BatchProof E)) β) (cols : List (Mle F)) (bounds : List Nat)
    (Valid : Prop) : Prop :=
  ∃ bad : List (TEvent F E.G1) → Finset F, FromScratchOutside bad V g h T N d m v cols bounds Valid

end Zksql.Spec
