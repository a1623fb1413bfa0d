import Verif.Spec.Binding
import Verif.Spec.SumCheck
/-!
Verification with the comparison the code leaves out: what the claimed polynomials have to be, and what is drawn.
-/
namespace Zksql.Spec
open Zksql
variable {F C B : Type} [Field F] [DecidableEq F]

/-- On points of length `n` the function is a polynomial of degree at most `D` in each variable, or it fails on all of them. -/
def PolyOrFail (f : List F → Res F) (n D : Nat) : Prop :=
  (∃ g : List F → F, (∀ x, x.length = n → f x = .ok (g x)) ∧ IndivDegree g n D) ∨ ∀ x, x.length = n → ∃ e, f x = .error e

/-- On points of length `N` the handle is a polynomial of degree at most `D` in each variable, or has no value anywhere. -/
def HandleDegree (s : VSt F C B) (P : C → List F → F) (N D h : Nat) : Prop := PolyOrFail (valueAt s P h) N D

/-- All claims are about such polynomials. -/
def ClaimsDegree (s : VSt F C B) (P : C → List F → F) (N D : Nat) : Prop :=
  (∀ h ∈ s.own.zeroClaims, HandleDegree s P N D h) ∧ ∀ c ∈ s.own.sumClaims, HandleDegree s P N D c.1

/-- The degree of a handle, read off from how it was made: one for a committed polynomial and for a closure of the verifier. -/
def degreeOf (comms : List (Nat × VComm F)) : Nat → Nat → Nat
  | 0, _ => 0
  | n + 1, id =>
    match comms.lookup id with
    | none => 0
    | some (.query _) => 1
    | some (.fn _) => 1
    | some (.add i j) => max (degreeOf comms n i) (degreeOf comms n j)
    | some (.sub i j) => max (degreeOf comms n i) (degreeOf comms n j)
    | some (.mul i j) => degreeOf comms n i + degreeOf comms n j
    | some (.addScalar i _) => degreeOf comms n i
    | some (.mulScalar i _) => degreeOf comms n i
    | some (.incFront i _) => degreeOf comms n i
    | some (.incBack i _) => degreeOf comms n i

/-- The largest degree of a claim. -/
def claimDegree (s : VSt F C B) : Nat :=
  ((s.own.zeroClaims ++ s.own.sumClaims.map (·.1)).map fun h => degreeOf s.sh.comms (h + 1) h).foldr max 0

/-- A polynomial that is multilinear, on points of every length. -/
def Multilinear (f : List F → F) : Prop := ∀ n, IndivDegree f n 1

/-- All closures of the verifier are multilinear, or fail on all points of a length. -/
def ClosuresLinear (s : VSt F C B) : Prop := ∀ id f, s.sh.comms.lookup id = some (.fn f) → ∀ n, PolyOrFail f n 1

/-- The claims are aggregated, the sumcheck proof is accepted and the value it leaves to be checked is the value of the aggregated polynomial there,
computed from the committed polynomials.  The transcript ends as `tr`. -/
def VerifiedWith (H : Oracle F C) (P : C → List F → F) (s : VSt F C B) (tr : Transcript F C) : Prop :=
  ∃ agg sm s1 sub, VSt.aggregate H s = (.ok (agg, sm), s1) ∧
    sumcheckVerify H sm s.own.proof.scProof s.own.proof.scMaxDegree s.own.proof.scNumVars s1.own.transcript = .ok (sub, tr) ∧
    valueAt s1 P agg sub.point = .ok sub.expectedEvaluation

/-- The histories of the challenges drawn between a state and a later transcript. -/
def drawnUntil (s : VSt F C B) (tr : Transcript F C) : List (List (TEvent F C)) :=
  squeezes s.own.transcript.events (tr.events.drop s.own.transcript.events.length)

/-- Verification of the claims recorded in `s`, by a verifier that makes the comparison, is sound up to a few exceptional challenges.  The sums are
those recorded in `s`; the exceptional values of a challenge depend on the transcript up to it and, through the commitments in the transcript, on the
committed polynomials.  There is one exceptional value for each challenge that folds the claims, and as many as the degree for each challenge of the
sumcheck. -/
def SoundVerification (s : VSt F C B) (N D : Nat) : Prop :=
  ∃ bad : List (TEvent F C) → (C → List F → F) → Finset F, ∀ (pf : CompiledProof F C B), pf.scNumVars = N → NatsNonzero F pf.scMaxDegree →
    ∀ (H : Oracle F C) (agg : Nat) (sm : F) (s1 : VSt F C B) (sub : SubClaim F) (tr : Transcript F C),
    VSt.aggregate H (withProof s pf) = (.ok (agg, sm), s1) → sumcheckVerify H sm pf.scProof pf.scMaxDegree N s1.own.transcript = .ok (sub, tr) →
    (drawnUntil s tr).length = s.own.zeroClaims.length + N + (s.own.sumClaims.length + 1) + N ∧
    (∀ k h, (drawnUntil s tr)[k]? = some h →
      (∀ P, (bad h P).card ≤ if k < s.own.zeroClaims.length + N + (s.own.sumClaims.length + 1) then 1 else max pf.scMaxDegree (D + 1)) ∧
      ∀ P P' : C → List F → F, (∀ c, TEvent.absorb "comm" (.comm c) ∈ h → P c = P' c) → bad h P = bad h P') ∧
    ∀ P, ClaimsDegree s P N D → valueAt s1 P agg sub.point = .ok sub.expectedEvaluation →
      (∀ h ∈ drawnUntil s tr, H s.own.transcript.label h ∉ bad h P) → ClaimsTrue P N s

end Zksql.Spec
