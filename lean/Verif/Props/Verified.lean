import Verif.Lemmas.VerifySound
import Verif.Lemmas.Degrees
import Verif.Props.ProgramSound
import Verif.Props.SumBinding
/-!
C95: a verifier that makes the comparison `verify_claims` leaves out establishes the recorded claims, and with them what the checks of a program say.
-/
namespace Zksql
open Spec
variable {F C B : Type} [Field F] [DecidableEq F]

/-- C95, the claims of a state in which all handles are in order. -/
theorem C95_claims {s : VSt F C B} (hs : Sane s) (N D : Nat) : SoundVerification s N D := sound_verification hs N D

/-- C95, after any history of calls of the tracker. -/
theorem C95_reachable {debug : Bool} {H : Oracle F C} {vs : VState F C B} (h : VReachable debug H vs) (N D : Nat) : SoundVerification vs.st N D :=
  sound_verification h.sane N D

/-- C95, the degree: if the committed polynomials and the closures of the verifier are multilinear, the claimed polynomials have at most the degree that
can be read off from how they were made. -/
theorem C95_degree {s : VSt F C B} {P : C → List F → F} (hc : ClosuresLinear s) (hP : ∀ c, Multilinear (P c)) (N : Nat) : ClaimsDegree s P N (claimDegree s) :=
  claimsDegree_of hc hP N

theorem closuresLinear_init (pf : CompiledProof F C B) : ClosuresLinear (withProof (VState.init : VState F C B).st pf) := by
  intro id f h
  exact absurd h (by simp [withProof, VState.init, VSt.new])

/-- C95, the closures that the verifier's side of a program makes are multilinear. -/
theorem C95_closures (E : Env F C) (prog : List (Step F)) (pf : CompiledProof F C B) {a : List TPoly} {s' : VSt F C B}
    (h : Step.verifyAll E prog [] (withProof (VState.init : VState F C B).st pf) = (.ok a, s')) : ClosuresLinear s' :=
  KeepsLinear.program E prog [] _ a s' (closuresLinear_init pf) h

/-- C95 for programs.  If the verifier's side of a program ends successfully and the claims it recorded are then verified with the comparison, every check of the
program has established what it is meant to establish about the committed columns, unless one of the challenges drawn is exceptional.  The exceptional values
of a challenge drawn by the program depend on the transcript up to it; those of a challenge drawn by the verification depend in addition on the claims the program has
recorded.  The polynomials behind the commitments enter only through the commitments in the transcript. -/
theorem C95_program {E : Env F C} {N : Nat} {prog : List (Step F)} (h2 : (2 : F) ≠ 0) (hn : NatsNonzero F (2 ^ N)) (hf : Step.FitsAll N [] prog) :
    ∃ (bad : List (TEvent F C) → (C → List F → F) → Finset F) (bad' : VSt F C B → List (TEvent F C) → (C → List F → F) → Finset F),
    ∀ (pf : CompiledProof F C B) (H : Oracle F C) (a : List TPoly) (s' : VSt F C B),
    Step.verifyAll (E.withH H) prog [] (withProof (VState.init : VState F C B).st pf) = (.ok a, s') → pf.scNumVars = N → NatsNonzero F pf.scMaxDegree →
    ∀ (P : C → List F → F) (tr : Transcript F C), (∀ c, Multilinear (P c)) → VerifiedWith H P s' tr →
    let before := newChallenges (VState.init : VState F C B).st s'
    let after := drawnUntil s' tr
    let folds := s'.own.zeroClaims.length + N + (s'.own.sumClaims.length + 1)
    before.length = (Step.soundBoundsAll N [] prog).length ∧ after.length = folds + N ∧
    (∀ k h, before[k]? = some h → (∀ P, (bad h P).card ≤ (Step.soundBoundsAll N [] prog).getD k 0) ∧
      ∀ P P' : C → List F → F, (∀ c, TEvent.absorb "comm" (.comm c) ∈ h → P c = P' c) → bad h P = bad h P') ∧
    (∀ k h, after[k]? = some h →
      (∀ P, (bad' (withProof s' CompiledProof.default) h P).card ≤ if k < folds then 1 else max pf.scMaxDegree (claimDegree s' + 1)) ∧
      ∀ P P' : C → List F → F, (∀ c, TEvent.absorb "comm" (.comm c) ∈ h → P c = P' c) →
        bad' (withProof s' CompiledProof.default) h P = bad' (withProof s' CompiledProof.default) h P') ∧
    ((∀ h ∈ before, H (VState.init : VState F C B).st.own.transcript.label h ∉ bad h P) →
      (∀ h ∈ after, H s'.own.transcript.label h ∉ bad' (withProof s' CompiledProof.default) h P) → Step.MeansAll pf P N [] prog) := by
  classical
  have hS : Sane (VState.init : VState F C B).st := VReachable.sane (debug := true) (H := fun _ _ => 0) ⟨[], rfl⟩
  obtain ⟨bad, hbad⟩ := program_soundF (E := E) (B := B) (hs := []) h2 hn hS (by intro a ha; simp at ha) ⟨rfl, fun _ => rfl⟩ hf
  refine ⟨bad, fun s => if hs : Sane s then (sound_verification hs N (claimDegree s)).choose else fun _ _ => ∅, ?_⟩
  intro pf H a s' hrun hN hnat P tr hP hv before after folds
  obtain ⟨L, b1, b2, b3⟩ := hbad () pf (VState.init : VState F C B).st.own.sumClaims ⟨fun _ h => h, hS.sums⟩ H a s' hrun
  have hpf : s'.own.proof = pf := L.proof
  set s0 : VSt F C B := withProof s' CompiledProof.default with hs0
  have hsane : Sane s0 := ⟨⟨L.sane.wf.refs, L.sane.wf.lt⟩, L.sane.queries, L.sane.mats, L.sane.absorbed, L.sane.sums, L.sane.zeros⟩
  have hback : withProof s0 pf = s' := by rw [← hpf]; rfl
  obtain ⟨agg, sm, s1, sub, v1, v2, v3⟩ := hv
  have hch := (sound_verification hsane N (claimDegree s0)).choose_spec pf hN hnat H agg sm s1 sub tr (by rw [hback]; exact v1) (by rw [← hN, ← hpf]; exact v2)
  obtain ⟨c1, c2, c3⟩ := hch
  simp only [dif_pos hsane]
  refine ⟨b1, c1, b2, c2, fun g1 g2 => ?_⟩
  refine b3 P ?_ g1 [] ⟨rfl, by simp⟩
  exact c3 P (claimsDegree_of (s := s') (C95_closures (E.withH H) prog pf hrun) hP N) v3 g2

theorem verifiedWith_of_trueBit {H : Oracle F C} {P : C → List F → F} {s : VSt F C B} (h : trueBit H P s = some true) : ∃ tr, VerifiedWith H P s tr := by
  unfold trueBit at h
  rcases e1 : VSt.aggregate H s with ⟨_ | ⟨agg, sm⟩, s1⟩ <;> rw [e1] at h
  · simp at h
  simp only at h
  rcases e2 : sumcheckVerify H sm s.own.proof.scProof s.own.proof.scMaxDegree s.own.proof.scNumVars s1.own.transcript with _ | ⟨sub, tr⟩ <;> rw [e2] at h
  · simp at h
  simp only [Option.some.injEq, decide_eq_true_eq] at h
  exact ⟨tr, agg, sm, s1, sub, e1, e2, h⟩

/-! ### An honest run -/

/-- A polynomial given by its table is multilinear. -/
theorem multilinear_table {m : Mle F} (hm : m.WF) : Multilinear fun x => (m.evaluate x).getD 0 := by
  intro n
  by_cases hn : n = m.numVars
  · subst hn
    exact indivDegree_congr (g := mle m.tbl) (fun t ht => by rw [evaluate_eq m hm t ht]; rfl) (indivDegree_mle m.tbl _)
  · exact indivDegree_congr (g := fun _ => 0) (fun t ht => by rw [Mle.evaluate, if_neg (by omega)]; rfl) (indivDegree_const 0 n 1)

namespace VerEx
open SumEx (G EC H env)

/-- Three columns are committed; the second is checked to be a selector; the others are compared as bags. -/
def prog : List (Step G) := [.commit ⟨1, [1, 2]⟩, .commit ⟨1, [1, 1]⟩, .commit ⟨1, [2, 1]⟩, .check (.selector 1), .check (.bagEq (0, 1) (2, 1))]

/-- What `compile_proof` returns in a release build after the prover's side of the program, up to the opening proof. -/
def proof : CompiledProof G G (BatchProof EC) :=
  { (CompiledProof.default : CompiledProof G G (BatchProof EC)) with
    comms := [(16, 17), (8, 5), (2, 100), (1, 1), (0, 4)]
    sumcheckClaims := [(32, 0), (18, 22), (10, 22)]
    scProof := ⟨[78], [[96, 69, 41, 32]]⟩
    scMaxDegree := 3
    scNumVars := 1 }

/-- The tables behind the commitments: the columns and the inverses the protocol asks for. -/
def tables : List (G × Mle G) := [(4, ⟨1, [1, 2]⟩), (1, ⟨1, [1, 1]⟩), (100, ⟨1, [2, 1]⟩), (5, ⟨1, [93, 30]⟩), (17, ⟨1, [30, 93]⟩)]

/-- The polynomials behind the commitments. -/
def P (c : G) (x : List G) : G := ((tables.lookup c).getD ⟨0, [0]⟩).evaluate x |>.getD 0

theorem wf (c : G) : ((tables.lookup c).getD ⟨0, [0]⟩).WF := by
  rcases h : tables.lookup c with _ | m
  · exact (rfl : _ = _)
  · have : ∀ e ∈ tables, e.2.WF := by unfold Mle.WF; decide
    obtain ⟨l1, l2, hl, -⟩ := List.lookup_eq_some_iff.1 h
    exact this (c, m) (by rw [hl]; simp)

theorem multilinear (c : G) : Multilinear (P c) := multilinear_table (wf c)

theorem fits : Step.FitsAll 1 [] prog := by
  refine ⟨⟨?_, ?_⟩, ⟨?_, ?_⟩, ⟨?_, ?_⟩, ⟨?_, ?_, trivial⟩, ⟨?_, ?_, rfl, rfl, rfl⟩, trivial⟩ <;> decide

/-- The verifier's side of the program succeeds, the claims are verified with the comparison, and the claims are of degree at most 3. -/
def meets : Bool :=
  match Step.verifyAll env prog [] (withProof (VState.init : VState G G (BatchProof EC)).st proof) with
  | (.ok _, s') => trueBit H P s' = some true && claimDegree s' = 3
  | _ => false

theorem meets_true : meets = true := by decide +kernel

/-- The hypotheses of `C95_program` are met. -/
example : ∃ (a : List TPoly) (s' : VSt G G (BatchProof EC)) (tr : Transcript G G),
    Step.verifyAll (env.withH H) prog [] (withProof (VState.init : VState G G (BatchProof EC)).st proof) = (.ok a, s') ∧ proof.scNumVars = 1 ∧
      NatsNonzero G proof.scMaxDegree ∧ (∀ c, Multilinear (P c)) ∧ VerifiedWith H P s' tr ∧ claimDegree s' = 3 ∧ Step.soundBoundsAll 1 [] prog = [4] := by
  have h := meets_true
  unfold meets at h
  rcases e : Step.verifyAll env prog [] (withProof (VState.init : VState G G (BatchProof EC)).st proof) with ⟨_ | a, s'⟩ <;> rw [e] at h
  · simp at h
  · simp only [Bool.and_eq_true, decide_eq_true_eq] at h
    obtain ⟨h1, h2⟩ := h
    obtain ⟨tr, hv⟩ := verifiedWith_of_trueBit h1
    exact ⟨a, s', tr, e, rfl, natsNonzero_mono REx.natsNonzero (by decide), multilinear, hv, h2, rfl⟩

end VerEx

end Zksql
