import Verif.Lemmas.Values
import Verif.Props.Inactive
/-!
C116: a bag is its active values.
-/
set_option linter.unusedSectionVars false
namespace Zksql
open Spec
variable {F C B K : Type} [Field F] [DecidableEq F] {W W' : K → Column F} {N d : Nat}

/-- C116, one check.  If the bags and tables have the same contents, in any order and in any number of rows, then what an honest prover needs of them is the same. -/
theorem C116_valid_partial {rep : F → Nat} (hN : NatsNonzero F (2 ^ N)) (c : Check K) (hf : c.Fits N W) (hf' : c.Fits N W') (h : c.SameContents W W') (h' : c.SameContents W' W) :
    c.Valid rep W ↔ c.Valid rep W' :=
  ⟨c.valid_contents hN hf hf' h, c.valid_contents hN hf' hf h'⟩

/-- C116, one check.  What an accepted check says of the bags and tables is the same as well.  The disjointness check says the same if the larger of the two bags is stored in as many rows: how large a
range it can be used with depends on that. -/
theorem C116_means_partial {n : Nat} (c : Check K) (hf : c.Fits N W) (hf' : c.Fits N W') (h : c.SameContents W W') (h' : c.SameContents W' W)
    (hs : ∀ f g r, c = .disjoint f g r → max (W f.1).nv (W g.1).nv = max (W' f.1).nv (W' g.1).nv) : c.Means n W ↔ c.Means n W' :=
  ⟨c.means_contents hf (fun f g r e => (hs f g r e).le) h, c.means_contents hf' (fun f g r e => (hs f g r e).ge) h'⟩

/-- C116, whole sessions.  Let the bags and tables of a program be stored in another way.  If the original data is valid, the proof is accepted. -/
theorem C116_accepted_partial {K : Curve F} {V : Env F K.G1} {prog prog' : List (Step F)} {cols cols' : List (Mle F)} {γ : K.G1} {η : K.G2} {τ : List F} (hV : V.commit = kzgCommit (proverParamOf γ η τ)) (hd : 1 ≤ d)
    (hchar : NatsNonzero F (d + 1)) (h2 : (2 : F) ≠ 0) (hN : NatsNonzero F (2 ^ N)) (hne : cols' ≠ []) (hf : Step.FitsAll N (startCols cols) prog)
    (same : Step.SameContentsAll (startCols cols) (startCols cols') prog prog') (h : ProgramCompilesOn cols' prog' τ.length d N) (hn : Step.RunsAll V.debug (startCols cols') prog') :
    SurelyAccepted (E := K) V γ η τ d (fun V => Step.proveAll V prog' (startHandles cols')) (fun V => Step.verifyAll V prog' (startHandles cols')) cols'
      (Step.boundsAll (startCols cols') prog') (Step.ValidAll V.rep (startCols cols) prog) := by
  obtain ⟨bad, H0⟩ := C114_accepted (K := K) (γ := γ) (η := η) hV hd hchar h2 hne h hn
  refine ⟨bad, fun H => ?_⟩
  obtain ⟨a, t', r1, r2, r3, r4⟩ := H0 H
  exact ⟨a, t', r1, r2, r3, fun hv => r4 (Step.validAll_contents hN prog prog' _ _ hf h.fits same hv)⟩

/-- The property is false of the equality check: if the bags are stored in different numbers of rows, the prover refuses, whatever their values are. -/
theorem C116_violated_bagEq (E : Env F C) {fx gx : Bag} (h : fx.numVars ≠ gx.numVars) (s : PTracker F C) : BagEq.prove E fx gx s = (.error (.err .invalidParameters), s) := by
  unfold BagEq.prove
  rw [if_pos h]
  rfl

/-! ### A bag and the same bag in another order and in more rows -/
namespace REx

def τ116 : List G := [3, 5]
def env116 (debug : Bool) : Env G G := ⟨kzgCommit (proverParamOf (E := E101) (1 : G) (1 : G) τ116), H115, debug, ZMod.val⟩

/-- A whole session. -/
def verdict116 (prog : List (Step G)) (cols : List (Mle G)) (debug : Bool) : Res Unit := do
  let r := Step.proveAll (env116 debug) prog (startHandles cols) (committed (env116 debug).commit cols)
  let _ ← r.1
  let p ← (PTracker.compile debug (kzgOf (E := E101) H115 (1 : G) (1 : G) τ116) H115 r.2).1
  let vs ← runVOps debug H115 VState.init (.setProof p :: List.replicate cols.length .transferNext)
  let r := Step.verifyAll (B := BatchProof E101) (env116 debug) prog (startHandles cols) vs.st
  let _ ← r.1
  (VSt.verifyClaims (kzgOf (E := E101) H115 (1 : G) (1 : G) τ116) H115 r.2).1

/-- The bag {1, 2} in two rows. -/
def cols116 : List (Mle G) := [⟨1, [1, 2]⟩, ⟨1, [1, 1]⟩]
/-- The same bag in the other order, and in four rows. -/
def cols116' : List (Mle G) := [⟨2, [7, 2, 1, 9]⟩, ⟨2, [0, 1, 1, 0]⟩]

theorem same116 : SameValues (colAt (startCols cols116)) (colAt (startCols cols116')) (0, 1) := by
  refine ⟨?_, ?_, ?_⟩
  · show ∀ i < 2 ^ 1, _
    decide +kernel
  · show ∀ i < 2 ^ 2, _
    decide +kernel
  · decide +kernel

/-- Two checks: there are no zeros in the bag, and its values are among those of the bag. -/
def prog116 : List (Step G) := [.check (.noZeros (0, 1)), .check (.inclusion (0, 1) (0, 1))]

/-- The data in two rows is valid, so a session on the data in four rows is accepted. -/
theorem accepted116 : SurelyAccepted (E := E101) (env116 true) (1 : G) (1 : G) τ116 3 (fun V => Step.proveAll V prog116 (startHandles cols116'))
    (fun V => Step.verifyAll V prog116 (startHandles cols116')) cols116' [8] True := by
  have fits : ∀ cols ∈ [cols116, cols116'], Step.FitsAll 2 (startCols cols) prog116 := fun cols hc => by
    fin_cases hc <;>
      exact ⟨⟨by decide, by decide, rfl⟩, ⟨by decide, by decide, rfl, rfl⟩, trivial⟩
  have := C116_accepted_partial (K := E101) (V := env116 true) (γ := (1 : G)) (η := (1 : G)) (τ := τ116) (d := 3) (cols := cols116) (cols' := cols116') (prog := prog116) (prog' := prog116) (N := 2)
    rfl (by decide) (fun k h1 h2 => natsNonzero k h1 (by omega)) two_ne (fun k h1 h2 => natsNonzero k h1 (by omega)) (by simp [cols116']) (fits _ (by simp)) ⟨rfl, same116, rfl, ⟨same116, same116⟩, trivial⟩
    ⟨?_, fits _ (by simp), .inl ⟨_, .head _, rfl⟩, by decide, le_rfl, (by decide : 2 ≤ 2 + (Step.costAll prog116).commits), (by decide : Step.degreeAll (List.replicate 2 1) prog116 ≤ 3)⟩ ?_
  · rw [show Step.boundsAll (startCols cols116') prog116 = [8] from rfl] at this
    obtain ⟨bad, h⟩ := this
    refine ⟨bad, fun H => ?_⟩
    obtain ⟨a, t', h1, h2, h3, h4⟩ := h H
    refine ⟨a, t', h1, h2, h3, fun _ => h4 ⟨?_, ⟨same116.1, same116.1, fun z hz => hz⟩, trivial⟩⟩
    show ∀ i < 2 ^ 1, _
    decide +kernel
  · intro p hp
    simp only [cols116', List.mem_cons, List.not_mem_nil, or_false] at hp
    rcases hp with rfl | rfl <;> exact ⟨rfl, le_refl 2⟩
  · exact ⟨trivial, trivial, trivial⟩

/-- For these challenges too. -/
example : ∀ cols ∈ [cols116, cols116'], verdict116 prog116 cols true = .ok () := by decide +kernel

end REx

open REx in
/-- The property is false of the code.  The bag {1, 2} is equal to the bag {2, 1} if both are stored in two rows.  If the second is stored in four rows, the check of equality is refused,
although it is accepted that each is included in the other. -/
theorem C116_violated : verdict116 [.check (.bagEq (0, 1) (2, 3))] (cols116 ++ [⟨1, [2, 1]⟩, ⟨1, [1, 1]⟩]) true = .ok () ∧
    verdict116 [.check (.bagEq (0, 1) (2, 3))] (cols116 ++ cols116') true = .error (.err .invalidParameters) ∧
    verdict116 [.check (.inclusion (0, 1) (2, 3)), .check (.inclusion (2, 3) (0, 1))] (cols116 ++ cols116') true = .ok () := by decide +kernel

end Zksql
