import Verif.Lemmas.Coherent
import Verif.Lemmas.Reorder
import Verif.Props.Inactive
import Verif.Props.Compilable
/-!
C118: what an honest prover can prove and what the verifier may conclude.
-/
set_option linter.unusedSectionVars false
namespace Zksql
open Spec
variable {F K : Type} [Field F] [DecidableEq F] {W : K → Column F} {N d : Nat}

/-- C118, for every check: data with which an honest prover succeeds has the meaning of the check. -/
theorem C118_valid_means {rep : F → Nat} (hN : NatsNonzero F (2 ^ N)) (c : Check K) (hf : c.Fits N W) (hx : c.Exact N W) (hv : c.Valid rep W) : c.Means N W := c.valid_means hN hf hx hv

/-- C118, for the checks of multisets, equality, sums, inclusion, zeros, selectors, permutations and order: an honest prover needs exactly what an accepted check says. -/
theorem C118_exact {rep : F → Nat} (hN : NatsNonzero F (2 ^ N)) (c : Check K) (hf : c.Fits N W) (hx : c.Exact N W) (hs : c.Settles W) : c.Valid rep W ↔ c.Means N W :=
  ⟨c.valid_means hN hf hx, c.means_valid hN hf hx hs⟩

/-- C118, sessions.  Let all that is checked be meant truly: the columns satisfy what the verifier may conclude from each of the checks.  Then an honest session is accepted, except for exceptional challenges. -/
theorem C118_accepted {K : Curve F} {V : Env F K.G1} {cs : List (Check Nat)} {cols : List (Mle F)} {γ : K.G1} {η : K.G2} {τ : List F} (hV : V.commit = kzgCommit (proverParamOf γ η τ)) (hd : 1 ≤ d)
    (hchar : NatsNonzero F (d + 1)) (h2 : (2 : F) ≠ 0) (hN : NatsNonzero F (2 ^ N)) (hne : cols ≠ []) (h : ProgramCompilesOn cols (cs.map Step.check) τ.length d N)
    (hx : ∀ c ∈ cs, c.Exact N (colAt (startCols cols)) ∧ c.Settles (colAt (startCols cols))) :
    SurelyAccepted (E := K) V γ η τ d (fun V => Step.proveAll V (cs.map Step.check) (startHandles cols)) (fun V => Step.verifyAll V (cs.map Step.check) (startHandles cols)) cols
      (Step.boundsAll (startCols cols) (cs.map Step.check)) (∀ c ∈ cs, c.Means N (colAt (startCols cols))) := by
  have fit : ∀ (cs : List (Check Nat)) (W : List (Column F)), Step.FitsAll N W (cs.map Step.check) → ∀ c ∈ cs, c.Fits N (colAt W) := fun cs W => by
    induction cs with
    | nil => exact fun _ c hc => absurd hc List.not_mem_nil
    | cons x r ih => exact fun hf => List.forall_mem_cons.2 ⟨hf.1.2, ih hf.2⟩
  have run : ∀ (cs : List (Check Nat)), (∀ c ∈ cs, c.Settles (colAt (startCols cols))) → Step.RunsAll V.debug (startCols cols) (cs.map Step.check) := fun cs => by
    induction cs with
    | nil => exact fun _ => trivial
    | cons x r ih =>
      intro hs
      obtain ⟨h1, h2⟩ := List.forall_mem_cons.1 hs
      refine ⟨?_, ih h2⟩
      cases x <;> first | exact h1.elim | trivial
  have val : ∀ (cs : List (Check Nat)), (∀ c ∈ cs, c.Valid V.rep (colAt (startCols cols))) → Step.ValidAll V.rep (startCols cols) (cs.map Step.check) := fun cs => by
    induction cs with
    | nil => exact fun _ => trivial
    | cons x r ih => exact fun hs => ⟨(List.forall_mem_cons.1 hs).1, ih (List.forall_mem_cons.1 hs).2⟩
  obtain ⟨bad, H0⟩ := C114_accepted (K := K) (γ := γ) (η := η) hV hd hchar h2 hne h (run cs fun c hc => (hx c hc).2)
  refine ⟨bad, fun H => ?_⟩
  obtain ⟨a, t', r1, r2, r3, r4⟩ := H0 H
  exact ⟨a, t', r1, r2, r3, fun hm => r4 (val cs fun c hc => c.means_valid hN (fit cs _ h.fits c hc) (hx c hc).1 (hx c hc).2 (hm c hc))⟩

/-! ### A sorted bag -/
namespace REx

def checks118 : List (Check Nat) := [.sort (0, 1) (2, 3), .noZeros (0, 1), .selector 1]

/-- The bag {1}, stored with 2 in the row that is switched off, is sorted, has no zeros and a selector of zeros and ones; so a session is accepted. -/
theorem accepted118 : SurelyAccepted (E := E101) (env115 true) (1 : G) (1 : G) [3] 4 (fun V => Step.proveAll V (checks118.map Step.check) (startHandles (cols115 2)))
    (fun V => Step.verifyAll V (checks118.map Step.check) (startHandles (cols115 2))) (cols115 2) [0, 4, 4] (∀ c ∈ checks118, c.Means 1 (colAt (startCols (cols115 2)))) := by
  have := C118_accepted (K := E101) (V := env115 true) (γ := (1 : G)) (η := (1 : G)) (τ := [3]) (d := 4) (N := 1) (cs := checks118) (cols := cols115 2) rfl (by decide)
    (fun k h1 h2 => natsNonzero k h1 (by omega)) two_ne (fun k h1 h2 => natsNonzero k h1 (by omega)) (by simp [cols115])
    ⟨fun q hq => ?_, ⟨⟨by decide, by decide, rfl⟩, ⟨by decide, by decide, rfl⟩, ⟨by decide, by decide, trivial⟩, trivial⟩, .inl ⟨_, .head _, rfl⟩, by decide, le_rfl,
      (by decide : 2 ≤ 4 + (Step.costAll (F := G) (checks118.map Step.check)).commits), (by decide : Step.degreeAll (F := G) (List.replicate 4 1) (checks118.map Step.check) ≤ 4)⟩ fun c hc => ?_
  · exact this
  · simp only [cols115, List.mem_cons, List.not_mem_nil, or_false] at hq
    rcases hq with rfl | rfl | rfl | rfl <;> exact ⟨rfl, le_refl 1⟩
  · fin_cases hc
    exacts [⟨rfl, trivial⟩, ⟨trivial, trivial⟩, ⟨trivial, trivial⟩]

/-- It does satisfy what is checked. -/
theorem means118 : ∀ c ∈ checks118, c.Means 1 (colAt (startCols (cols115 2))) := fun c hc => by
  have hN : NatsNonzero G (2 ^ 1) := fun k h1 h2 => natsNonzero k h1 (by omega)
  fin_cases hc
  · refine C118_valid_means (rep := ZMod.val) hN _ ⟨by decide, rfl⟩ rfl fun i hi => ?_
    have hi : i + 1 < 2 := hi
    obtain rfl : i = 0 := by omega
    exact ⟨⟨1, (by decide : 1 < 2), (by decide : (2 : G) - 1 = 1)⟩, fun _ => (by decide : (2 : G) - 1 ≠ 0)⟩
  · show ∀ i < 2 ^ 1, _
    decide +kernel
  · show ∀ i < 2 ^ 1, _
    decide +kernel

example : verdict115 (checks118.map Step.check) (cols115 2) true = .ok () := by decide +kernel

end REx
end Zksql
