import Verif.Lemmas.Program
import Verif.Props.EndToEnd
/-!
C85: programs.  Any sequence of commitments, arithmetic on columns and checks, run with one pair of trackers, is proved by one proof that is accepted.

A program, the run of its two sides, when it `FitsAll` and when it is valid (`ValidAll`) are defined in `Spec/Program`.  A check in a program is valid when the data has the property the
check is for, see `Check.Valid`.  `hs` are the columns the program is started with and `W` is what they contain.
-/
set_option linter.unusedSectionVars false
namespace Zksql
open Spec

section
variable {F C B : Type} [Field F] [DecidableEq F]
variable {E : Env F C} {P : C → List F → F} {N : Nat} {t : PTracker F C} {hs : List TPoly} {W : List (Column F)} {prog : List (Step F)}

/-- C85.  The two sides of a program fit together.  `ExactAll` is only needed for the truth of the verifier's claims over the hypercube of dimension `N`. -/
theorem C85_program_complete (h2 : (2 : F) ≠ 0) (hC : CanCommit E.commit N) (hr : Spec.Ready E.commit t) (hh : HoldsAllP t hs W) (hf : Step.FitsAll N W prog)
    (hn : Step.RunsAll E.debug W prog) :
    Completes (B := B) E P N (fun E => Step.proveAll E prog hs) (fun E => Step.verifyAll E prog hs) t (Step.boundsAll W prog)
      (fun s => KnownAll s hs) (fun s => HoldsAll s P N hs W) (Step.ValidAll E.rep W prog) (Step.ExactAll N W prog) := by
  have := program_gf (B := B) (E := E) (P := P) (N := N) (Sz := Step.ExactAll N W prog) (Φ := Step.ValidAll E.rep W prog) (f := fun x _ => Pure.pure x) (g := fun x _ _ => Pure.pure x) (b2 := [])
    h2 hC hr (hh.allOk hr) hf hn id id fun hs' t1 Γ1 x1 _ _ => GF.pure (b := fun _ => hs') x1.ready
  simp only [Act.bind_pure', List.append_nil] at this
  obtain ⟨bad, h⟩ := this
  exact ⟨bad, GFB.completes h (fun s hi => known_ofCols hh.length_eq hi) fun s hv => holds_ofCols hv⟩

/-- C85, the columns: whatever the challenges are, the prover ends with a handle for every column, and the contents of each are what the steps say. -/
theorem C85_program_columns (h2 : (2 : F) ≠ 0) (hC : CanCommit E.commit N) (hr : Spec.Ready E.commit t) (hh : HoldsAllP t hs W) (hf : Step.FitsAll N W prog)
    (hn : Step.RunsAll E.debug W prog) (H : Oracle F C) : ∃ hs' t', Step.proveAll (E.withH H) prog hs t = (.ok hs', t') ∧ Spec.Ready E.commit t' ∧ HoldsAllP t' hs' (Step.nextAll W prog) := by
  have := program_gf (B := Unit) (E := E) (P := fun _ _ => 0) (N := N) (Sz := False) (Φ := False)
    (f := fun x _ => ghost (fun t' => HoldsAllP t' x (Step.nextAll W prog)) >>= fun _ => Pure.pure x) (g := fun x _ _ => Pure.pure x) (b2 := [])
    h2 hC hr (hh.allOk hr) hf hn False.elim False.elim fun hs' t1 Γ1 x1 _ a1 => c_ghost x1.ready (a1.holds x1.ready) (GF.pure (b := fun _ => hs') x1.ready)
  obtain ⟨x, t', h1, h2, h3⟩ := GF.result (post := fun x t' => HoldsAllP t' x (Step.nextAll W prog)) this H
  exact ⟨x, t', h1, h2.ready, h3⟩

end

variable {F : Type} [Field F] [DecidableEq F] {K : Curve F} {V : Env F K.G1} {γ : K.G1} {η : K.G2} {τ : List F} {N k : Nat} {t : PTracker F K.G1}
  {hs : List TPoly} {W : List (Column F)} {prog : List (Step F)} {cols : List (Mle F)}

/-- C85, end to end: the prover runs the program and compiles one proof; the verifier runs the program and then accepts in `verify_claims`. -/
theorem C85_program_accepted (hV : V.commit = kzgCommit (proverParamOf γ η τ)) (hd : 1 ≤ k) (hchar : NatsNonzero F (k + 1)) (h2 : (2 : F) ≠ 0) (hNτ : N ≤ τ.length)
    (hr : Spec.Ready V.commit t) (hh : HoldsAllP t hs W) (hf : Step.FitsAll N W prog)
    (hn : Step.RunsAll V.debug W prog) :
    RunAccepted (E := K) V γ η τ N k (fun V => Step.proveAll V prog hs) (fun V => Step.verifyAll V prog hs) t (Step.boundsAll W prog) (fun s => KnownAll s hs)
      (Step.ValidAll V.rep W prog) :=
  C84_protocol hV hd hchar (C85_program_complete (P := fun _ _ => 0) h2 (hV ▸ kzg_canCommit hNτ) hr hh hf hn)

/-- C85, from scratch: new trackers, a list of columns committed and taken over, then the program. -/
theorem C85_program_from_scratch (hV : V.commit = kzgCommit (proverParamOf γ η τ)) (hd : 1 ≤ k) (hchar : NatsNonzero F (k + 1)) (h2 : (2 : F) ≠ 0) (hNτ : N ≤ τ.length)
    (hcols : ∀ p ∈ cols, p.WF ∧ p.numVars ≤ τ.length) (hne : cols ≠ []) (hf : Step.FitsAll N (startCols cols) prog)
    (hn : Step.RunsAll V.debug (startCols cols) prog) :
    FromScratch (E := K) V γ η τ N k (fun V => Step.proveAll V prog (startHandles cols)) (fun V => Step.verifyAll V prog (startHandles cols)) cols
      (Step.boundsAll (startCols cols) prog) (Step.ValidAll V.rep (startCols cols) prog) := by
  refine C84_from_scratch (P := fun _ _ => 0) (Inputs := fun s => KnownAll s (startHandles cols)) (Contents := fun s => HoldsAll s (fun _ _ => 0) N (startHandles cols) (startCols cols)) hV hd hchar hcols
    hne (fun hr hp => C85_program_complete h2 (hV ▸ kzg_canCommit hNτ) hr ?_ hf hn) fun s hk a ha => ?_
  · unfold startHandles startCols
    refine List.forall₂_iff_get.2 ⟨by simp, fun i h1 h2 => ?_⟩
    have hi : i < cols.length := by simpa using h1
    simp only [List.get_eq_getElem, List.getElem_mapIdx, List.getElem_map, true_and]
    exact hp i _ (List.getElem?_eq_getElem hi)
  · unfold startHandles at ha
    obtain ⟨i, hi, rfl⟩ := List.mem_mapIdx.1 ha
    exact hk i _ (List.getElem?_eq_getElem hi)

/-! ### A program of six steps, evaluated -/
namespace PfEx

/-- The columns are [1, 2], [1, 1] and [2, 1] (`cols84`).  The selector is checked; 1 is added to both value columns; the results [2, 3] and [3, 2] are compared as bags; the first
column is multiplied by 3; and it is checked to have no zeros. -/
def prog85 : List (Step (ZMod 7)) :=
  [.check (.selector 1), .add 0 1, .addScalar 2 1, .check (.bagEq (3, 1) (4, 1)), .mulScalar 0 3, .check (.noZeros (5, 1))]

/-- The prover's run. -/
def prover85 : Res (List TPoly) × PTracker (ZMod 7) (ZMod 7) := Step.proveAll env84 prog85 (startHandles cols84) (committed env84.commit cols84)

/-- The proof. -/
def proof85 : Res (CompiledProof (ZMod 7) (ZMod 7) (BatchProof E7)) := (PTracker.compile env84.debug (kzgOf (E := E7) H84 (1 : ZMod 7) (1 : ZMod 7) [3]) H84 prover85.2).1

/-- The verifier's run. -/
def verdict85 : Res Unit := do
  let p ← proof85
  let vs ← runVOps true H84 VState.init (.setProof p :: List.replicate 3 .transferNext)
  let r := Step.verifyAll (B := BatchProof E7) env84 prog85 (startHandles cols84) vs.st
  let _ ← r.1
  (VSt.verifyClaims (kzgOf (E := E7) H84 (1 : ZMod 7) (1 : ZMod 7) [3]) H84 r.2).1

theorem fits85 : Step.FitsAll 1 (startCols cols84) prog85 := by
  refine ⟨⟨?_, ?_, trivial⟩, ⟨?_, ?_, rfl⟩, (by decide : 2 < 4), ⟨?_, ?_, rfl, rfl, rfl⟩, (by decide : 0 < 5), ⟨?_, ?_, rfl⟩, trivial⟩ <;> decide

theorem runs85 : Step.RunsAll env84.debug (startCols cols84) prog85 := ⟨trivial, trivial, trivial, trivial, trivial, trivial, trivial⟩

theorem valid85 : Step.ValidAll env84.rep (startCols cols84) prog85 := by
  refine ⟨?_, ?_, ?_, trivial⟩
  · show ∀ i < 2 ^ 1, _
    decide +kernel
  · show ∀ z, _ = _
    decide +kernel
  · show ∀ i < 2 ^ 1, _
    decide +kernel

/-- The statement for this program. -/
example : FromScratch (E := E7) env84 (1 : ZMod 7) (1 : ZMod 7) [3] 1 3 (fun V => Step.proveAll V prog85 (startHandles cols84))
    (fun V => Step.verifyAll V prog85 (startHandles cols84)) cols84 (Step.boundsAll (startCols cols84) prog85) (Step.ValidAll env84.rep (startCols cols84) prog85) :=
  C85_program_from_scratch rfl (by decide) nats4 (by decide) (by decide) (by decide) (by decide) fits85 runs85

theorem prover85_fits : (∀ e ∈ prover85.2.mats, e.2.mle.numVars ≤ 1) ∧ (∃ e ∈ prover85.2.mats, e.2.mle.numVars = 1) ∧ 2 ≤ prover85.2.comms.length ∧
    ∀ e ∈ prover85.2.virts, ∀ q ∈ e.2, q.2.length ≤ 3 := by decide +kernel

theorem compilable85 : Compilable prover85.2 ([3] : List (ZMod 7)).length 3 1 := by
  obtain ⟨h1, h2, h3, h4⟩ := prover85_fits
  refine ⟨h1, h2, by decide, le_rfl, h3, fun id _ v hv q hq => ?_⟩
  have hm : (id, v) ∈ prover85.2.virts := by
    obtain ⟨l1, l2, e, _⟩ := List.lookup_eq_some_iff.1 hv
    rw [e]; simp
  exact h4 (id, v) hm q hq

/-- One challenge is drawn, with at most four exceptional values; the run with the challenge 5 is accepted. -/
example : Step.boundsAll (startCols cols84) prog85 = [4] ∧ verdict85 = .ok () := by decide +kernel

/-- The handles and contents at the end. -/
example : prover85.1 = .ok [⟨0, 1⟩, ⟨1, 1⟩, ⟨2, 1⟩, ⟨7, 1⟩, ⟨9, 1⟩, ⟨27, 1⟩] ∧
    (Step.nextAll (startCols cols84) prog85).map (fun w => (w.nv, w.val 0, w.val 1)) = [(1, 1, 2), (1, 1, 1), (1, 2, 1), (1, 2, 3), (1, 3, 2), (1, 3, 6)] := by
  decide +kernel

end PfEx
end Zksql
