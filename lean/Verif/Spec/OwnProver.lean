import Verif.Spec.EndToEnd
/-!
False statements and the library's own prover: the code of the prover is run on data for which what it claims is false.
-/
namespace Zksql.Spec
open Zksql
variable {F C B : Type} [Field F] [DecidableEq F]

/-- The prover has claimed to vanish only polynomials it has. -/
def ZerosKnownP (t : PTracker F C) : Prop := ∀ i ∈ t.zeroClaims, ∃ (a : TPoly) (T : Nat → F), a.id = i ∧ HoldsP t a T

/-- The histories of the challenges drawn while `compile_proof` folds the claims into one. -/
def foldDrawn (H : Oracle F C) (t : PTracker F C) : List (List (TEvent F C)) := drawn t (PTracker.aggregate H t).2

/-- If one of the polynomials the prover has claimed to vanish does not, its proof does not pass.  There is one challenge for each of these claims, one for each variable, one for each
claimed sum and one more.  Each of them has at most one exceptional value, which depends on the prover's state before the claims are folded and on what is drawn before it.  Unless
one of them is exceptional, `compile_proof` returns `InvalidProver` in a debug build, and no verifier in step with the prover accepts the proof it makes in a release build. -/
def FalseZerosRefused (commit : Mle F → Res C) (pcs : Oracle F C → Pcs F C B) (n d : Nat) : Prop :=
  ∃ bad : PTracker F C → List (TEvent F C) → Finset F, (∀ t h, (bad t h).card ≤ 1) ∧
    ∀ (t : PTracker F C) (N : Nat) (H : Oracle F C), Ready commit t → Compilable t n d N → SumsTrueP t → ZerosKnownP t →
      (foldDrawn H t).length = t.zeroClaims.length + N + (t.sumClaims.length + 1) ∧
      (¬ ZerosTrueP t → (∀ h ∈ foldDrawn H t, H t.transcript.label h ∉ bad t h) →
        (PTracker.compile true (pcs H) H t).1 = .error (.err .invalidProver) ∧
        ∀ p, (PTracker.compile false (pcs H) H t).1 = .ok p → ∀ s : VSt F C B, Sane s → Together t s → s.own.proof = p → (VSt.verifyClaims (pcs H) H s).1 ≠ .ok ())

/-- `P` is what the prover has committed to: on a larger hypercube the tables repeat. -/
def OpensRun (P : C → List F → F) (N : Nat) (t : PTracker F C) : Prop := ∀ id c a, t.comms.lookup id = some c → t.mats.lookup id = some a → a.mle.numVars ≤ N →
  ∀ b < 2 ^ N, P c (boolPt N b) = a.mle.tbl (b % 2 ^ a.mle.numVars)

/-- The whole run with the library's own prover: it commits to the columns `cols`, runs its side `m` and compiles a proof; a new verifier is given the proof, takes over the commitments to the
columns, runs its side `v` and then `verify_claims`.  Nothing is assumed of the data.  The prover's side succeeds.  If the verifier accepts, the conclusion holds of whatever `P` opens the
prover's commitments, unless a challenge is exceptional.  The two sides draw the same challenges, with the same histories.  For the `k`-th challenge drawn by `v` there are at most `bounds[k]` exceptional values, given by the history before it and the polynomials
committed to in it; for a challenge that folds the claims there is at most one. -/
def OwnProverSound (V : Env F C) (pcs : Oracle F C → Pcs F C B) (N n d : Nat) {α β : Type} (m : Env F C → Act (PTracker F C) α) (v : Env F C → Act (VSt F C B) β) (cols : List (Mle F))
    (bounds : List Nat) (Concl : CompiledProof F C B → (C → List F → F) → Prop) : Prop :=
  ∃ (bad : List (TEvent F C) → (C → List F → F) → Finset F) (foldBad : PTracker F C → List (TEvent F C) → Finset F), (∀ t h, (foldBad t h).card ≤ 1) ∧
    ∀ H : Oracle F C, ∃ (a : α) (t' : PTracker F C), m (V.withH H) (committed V.commit cols) = (.ok a, t') ∧
      (Compilable t' n d N → (foldDrawn H t').length = t'.zeroClaims.length + N + (t'.sumClaims.length + 1) ∧
        ∀ (debug : Bool) (p : CompiledProof F C B), (PTracker.compile debug (pcs H) H t').1 = .ok p →
        ∀ (vs : VState F C B) (b : β) (s' : VSt F C B), runVOps V.debug H VState.init (.setProof p :: List.replicate cols.length .transferNext) = .ok vs → v (V.withH H) vs.st = (.ok b, s') →
          (VSt.verifyClaims (pcs H) H s').1 = .ok () →
          newChallenges vs.st s' = drawn (committed V.commit cols) t' ∧ (newChallenges vs.st s').length = bounds.length ∧
          (∀ k h, (newChallenges vs.st s')[k]? = some h → (∀ P, (bad h P).card ≤ bounds.getD k 0) ∧
            ∀ P P' : C → List F → F, (∀ c, TEvent.absorb "comm" (.comm c) ∈ h → P c = P' c) → bad h P = bad h P') ∧
          ∀ P, OpensRun P N t' → (∀ h ∈ newChallenges vs.st s', H vs.st.own.transcript.label h ∉ bad h P) → (∀ h ∈ foldDrawn H t', H t'.transcript.label h ∉ foldBad t' h) → Concl p P)

end Zksql.Spec
