import Verif.Lemmas.ProgramSound
import Verif.Lemmas.IopEx
import Verif.Lemmas.RunEx
import Verif.Props.Program
/-!
C86: what an accepted program says when the prover is not trusted.

Programs are those of C85.  The columns a program is started with have contents fixed by the commitments; the columns committed to on the way are the prover's choice, and so are the proof and
the polynomials `P` behind the commitments.  The claims the verifier has recorded at the end are taken to be true over the hypercube of dimension `N`.
-/
set_option linter.unusedSectionVars false
namespace Zksql
open Spec
variable {F C B : Type} [Field F] [DecidableEq F]
variable {E : Env F C} {N : Nat} {s : VSt F C B} {hs : List TPoly} {prog : List (Step F)}

theorem sized_blank : Sized hs (blank F hs) := by
  refine ⟨by simp [blank], fun i => ?_⟩
  unfold at' colAt blank
  rw [List.getD_map (f := fun a : TPoly => (⟨a.numVars, fun _ => 0⟩ : Column F)) (d := ⟨0, 0⟩)]

theorem Spec.HoldsAll.allV {P : C → List F → F} {W : List (Column F)} (h : HoldsAll s P N hs W) (hz : hs.map (·.numVars) = W.map (·.nv)) : AllV s P N hs W := by
  refine ⟨h.length_eq, fun i hi => ?_⟩
  have hi' : i < hs.length := h.length_eq ▸ hi
  have h1 := List.Forall₂.get h hi' hi
  have h2 : (hs.map (·.numVars))[i]? = (W.map (·.nv))[i]? := by rw [hz]
  rw [List.getElem?_map, List.getElem?_map, List.getElem?_eq_getElem hi', List.getElem?_eq_getElem hi] at h2
  unfold VOk at' colAt
  rw [List.getD_eq_getElem _ _ hi', List.getD_eq_getElem _ _ hi]
  exact ⟨by simpa using h2, h1⟩

/-- C86.  When the verifier's side of a program ends successfully, every check in it has established what it is meant to establish (`Check.Means`) about the columns it was applied to, unless one of the
challenges drawn is exceptional. -/
theorem C86_program_sound (h2 : (2 : F) ≠ 0) (hn : NatsNonzero F (2 ^ N)) (hS : Sane s) (hk : KnownAll s hs) (hf : Step.FitsAll N (blank F hs) prog) :
    SoundExcept (fun H => Step.verifyAll (E.withH H) prog hs) s N (Step.soundBoundsAll N (blank F hs) prog) fun pf P =>
      ∀ W : List (Column F), HoldsAll s P N hs W → hs.map (·.numVars) = W.map (·.nv) → Step.MeansAll pf P N W prog :=
  ((program_soundF h2 hn hS hk sized_blank hf).mono hS fun _ _ h W hW hz => h W (hW.allV hz)).except hS

/-- C86 for a new verifier: the program itself asks for all commitments. -/
theorem C86_program_from_scratch (h2 : (2 : F) ≠ 0) (hn : NatsNonzero F (2 ^ N)) (hf : Step.FitsAll N [] prog) :
    SoundExcept (fun H => Step.verifyAll (E.withH H) prog []) (VState.init : VState F C B).st N (Step.soundBoundsAll N [] prog) fun pf P => Step.MeansAll pf P N [] prog := by
  have hS : Sane (VState.init : VState F C B).st := VReachable.sane (debug := true) (H := fun _ _ => 0) ⟨[], rfl⟩
  exact ((program_soundF (hs := []) h2 hn hS (by intro a ha; simp at ha) ⟨rfl, fun _ => rfl⟩ hf).mono hS fun _ _ h => h [] ⟨rfl, by simp⟩).except hS

/-! ### A program with commitments -/
namespace GEx
open IEx

/-- Three columns are committed; the second is checked to be a selector; 1 is added to the others; they are compared as bags; and the first is checked to have no zeros. -/
def prog86 : List (Step F7) :=
  [.commit ⟨1, [1, 2]⟩, .commit ⟨1, [1, 1]⟩, .commit ⟨1, [2, 1]⟩, .check (.selector 1), .add 0 1, .addScalar 2 1, .check (.bagEq (3, 1) (4, 1)), .check (.noZeros (0, 1))]

theorem ok86 : check 5 1 [] (fun _ => Step.proveAll (env 5) prog86 [] >>= fun _ => pure ()) (Step.verifyAll (env 5) prog86 [] >>= fun _ => pure ()) = true := by decide +kernel

theorem fits86 : Step.FitsAll 1 [] prog86 := by
  refine ⟨⟨?_, ?_⟩, ⟨?_, ?_⟩, ⟨?_, ?_⟩, ⟨?_, ?_, trivial⟩, ⟨?_, ?_, rfl⟩, (by decide : 2 < 4), ⟨?_, ?_, rfl, rfl, rfl⟩, ⟨?_, ?_, rfl⟩, trivial⟩ <;> decide

/-- A run of it that ends successfully with true claims; one challenge is drawn. -/
example : ∃ (vs : VState F7 Cm Unit) (s' : VSt F7 Cm Unit), VReachable true (env 5).H vs ∧
    (Step.verifyAll (env 5) prog86 [] >>= fun _ => pure ()) vs.st = (.ok (), s') ∧ ClaimsTrue poly 1 s' ∧ Step.soundBoundsAll 1 [] prog86 = [4] := by
  obtain ⟨vs, s', h1, h2, h3, -⟩ := run_of ok86
  exact ⟨vs, s', h1, h2, h3, rfl⟩

/-- A program no prover can have accepted, except by an exceptional challenge: it asks for a column of two entries that is a permutation of itself plus one. -/
def bad86 : List (Step F7) := [.commit ⟨1, [0, 0]⟩, .addScalar 0 1, .mulScalar 0 0, .addScalar 2 1, .check (.bagEq (0, 3) (1, 3))]

theorem bad86_false (pf : CompiledProof F7 Cm Unit) (P : Cm → List F7 → F7) : ¬Step.MeansAll pf P 1 [] bad86 := by
  rintro ⟨_, c, -, h⟩
  have := (h (fun b => P c (boolPt 1 b)) fun b hb => by rw [Nat.mod_eq_of_lt hb]).1.1
  have key : ∀ x y : F7, ¬∀ z, ((if x = z then 1 else 0) + if y = z then 1 else 0 : F7) = (if x + 1 = z then 1 else 0) + if y + 1 = z then 1 else 0 := by decide +kernel
  refine key (P c (boolPt 1 0)) (P c (boolPt 1 1)) fun z => ?_
  simpa [BagTab.weight, bagTab, colAt, Finset.sum_range_succ, Step.next, -Finset.sum_boole] using this z

theorem bad86_fits : Step.FitsAll 1 [] bad86 := by
  refine ⟨⟨?_, ?_⟩, (by decide : 0 < 1), (by decide : 0 < 2), (by decide : 2 < 3), ⟨?_, ?_, rfl, rfl, rfl⟩, trivial⟩ <;> decide

end GEx

/-! ### A program with a join and a group-by -/
namespace REx

/-- Keys [1, 2], a selector [1, 1], keys [2, 1] of a second table, and values [3, 4]. -/
def joinCols : List (Mle G) := [⟨1, [1, 2]⟩, ⟨1, [1, 1]⟩, ⟨1, [2, 1]⟩, ⟨1, [3, 4]⟩]

/-- The table of keys and values is joined with the second table.  The two columns made by the join, [2, 1] and [4, 3], are checked again as the advice for the same join, and compared with the
columns they come from.  Then the rows are grouped by key, with the number of rows and the sum of the values of each group. -/
def joinProg : List (Step G) :=
  [.join ([0, 3], 1) ([2], 1) 0 0, .check (.joinAdvice ([0, 3], 1) ([2], 1) 0 0 [4, 5]), .check (.bagEq (5, 1) (3, 1)),
   .check (.groupBy ([4, 5], 1) 0 (0, 1) 1 [(1, .sum, 3), (0, .count, 1)] (0, 1))]

theorem joinProg_fits : Step.FitsAll 1 (startCols joinCols) joinProg := by
  refine ⟨⟨?_, ?_, ?_, ?_, ?_⟩, ⟨?_, ?_, ?_, ?_, ?_, ?_, ?_, ?_⟩, ⟨?_, ?_, rfl, rfl, rfl⟩, ⟨?_, ?_, ?_, rfl, rfl, rfl, ?_, ?_⟩, trivial⟩ <;> first | decide | (unfold EvenTab; decide)

instance (t : TabData G) : Decidable t.Boolean := inferInstanceAs (Decidable (∀ i < 2 ^ t.nv, _))

/-- Statements about all active rows can be checked row by row. -/
theorem on_of {A T : TabData G} {p : Nat → Nat → Prop} (h : ∀ i < 2 ^ T.nv, T.sel i ≠ 0 → ∃ j < 2 ^ A.nv, A.sel j ≠ 0 ∧ p i j) : ∀ i, T.On i → ∃ j, A.On j ∧ p i j :=
  fun i hi => let ⟨j, h1, h2, h3⟩ := h i hi.1 hi.2; ⟨j, ⟨h1, h2⟩, h3⟩

instance (A : TabData G) (ai : Nat) : Decidable (DistinctColumn A ai) := by unfold DistinctColumn; infer_instance

theorem joinProg_runs : Step.RunsAll env.debug (startCols joinCols) joinProg := by
  refine ⟨⟨?_, ?_, on_of ?_, fun _ => ?_⟩, fun _ => ?_, trivial, trivial, trivial⟩ <;> decide +kernel

theorem joinProg_valid : Step.ValidAll env.rep (startCols joinCols) joinProg := by
  refine ⟨⟨?_, ?_, on_of ?_⟩, ?_, ⟨?_, ?_, ?_, ?_⟩, trivial⟩
  · decide +kernel
  · decide +kernel
  · decide +kernel
  · show ∀ z, _ = _
    decide +kernel
  · decide +kernel
  · exact natsNonzero_mono natsNonzero (by decide)
  · exact ⟨by decide +kernel, by decide +kernel, by decide +kernel, by decide +kernel, by decide +kernel⟩
  · exact REx.sortedIn_of (by decide +kernel)

theorem joinProg_run : ∃ (H : Oracle G (Mle G)) (vs : VState G (Mle G) Unit) (y : List TPoly) (s' : VSt G (Mle G) Unit), VReachable true H vs ∧
    Step.verifyAll (env.withH H) joinProg (startHandles joinCols) vs.st = (.ok y, s') ∧ ClaimsTrue poly 1 s' ∧ KnownAll vs.st (startHandles joinCols) ∧
    HoldsAll vs.st poly 1 (startHandles joinCols) (startCols joinCols) := by
  have hk : ∀ s : VSt G (Mle G) Unit, (∀ i p, joinCols[i]? = some p → Known s i) → KnownAll s (startHandles joinCols) := by
    intro s k a ha
    unfold startHandles at ha
    obtain ⟨i, hi, rfl⟩ := List.mem_mapIdx.1 ha
    exact k i _ (List.getElem?_eq_getElem hi)
  have hc : ∀ s : VSt G (Mle G) Unit, (∀ i p, joinCols[i]? = some p → Holds s poly 1 i p.numVars p.tbl) → HoldsAll s poly 1 (startHandles joinCols) (startCols joinCols) :=
    fun s h => .cons (h 0 _ rfl) (.cons (h 1 _ rfl) (.cons (h 2 _ rfl) (.cons (h 3 _ rfl) .nil)))
  obtain ⟨H, _, _, vs, y, s', -, h1, h2, h3, h4, h5⟩ := wholeR (N := 1) joinCols (by decide) (by decide) (m := fun E => Step.proveAll E joinProg (startHandles joinCols))
    (v := fun E => Step.verifyAll E joinProg (startHandles joinCols)) (fun hr hp => C85_program_complete (W := startCols joinCols) two_ne (canCommit 1) hr
      (.cons ⟨rfl, hp 0 _ rfl⟩ (.cons ⟨rfl, hp 1 _ rfl⟩ (.cons ⟨rfl, hp 2 _ rfl⟩ (.cons ⟨rfl, hp 3 _ rfl⟩ .nil)))) joinProg_fits joinProg_runs) (by decide +kernel) joinProg_valid hk hc
  exact ⟨H, vs, y, s', h1, h2, h3, hk _ h4, hc _ h5⟩

/-- The columns of the join. -/
example : (Step.nextAll (startCols joinCols) joinProg).map (fun w => (w.nv, w.val 0, w.val 1)) = [(1, 1, 2), (1, 1, 1), (1, 2, 1), (1, 3, 4), (1, 2, 1), (1, 4, 3)] := by
  decide +kernel

/-- The hypotheses of C86 are met by this program. -/
example : Step.FitsAll 1 (blank G (startHandles joinCols)) joinProg ∧ Step.soundBoundsAll 1 (blank G (startHandles joinCols)) joinProg = [1, 4, 1, 4, 4, 4, 16, 4, 4, 4] := by
  refine ⟨⟨⟨?_, ?_, ?_, ?_, ?_⟩, ⟨?_, ?_, ?_, ?_, ?_, ?_, ?_, ?_⟩, ⟨?_, ?_, rfl, rfl, rfl⟩, ⟨?_, ?_, ?_, rfl, rfl, rfl, ?_, ?_⟩, trivial⟩, ?_⟩ <;> first | decide | (unfold EvenTab; decide)

end REx
end Zksql
