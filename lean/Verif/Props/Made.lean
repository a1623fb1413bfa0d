import Verif.Lemmas.Made
import Verif.Props.Inactive
import Verif.Props.Compilable
import Verif.Props.ProgramSound
/-!
C120: how a column was made does not matter.
-/
set_option linter.unusedSectionVars false
namespace Zksql
open Spec
variable {F C B : Type} [Field F] [DecidableEq F] {N M n d : Nat} {cols cols' : List (Mle F)} {φ : Nat → Nat} {prog prog' : List (Step F)}

/-- C120, data.  Programs that check the same of columns with the same contents need the same of the data. -/
theorem C120_valid {rep : F → Nat} {V V' : List (Column F)} (h : SameQuestions φ V prog V' prog') (hf : Step.FitsAll N V prog) (hf' : Step.FitsAll M V' prog') :
    Step.ValidAll rep V prog ↔ Step.ValidAll rep V' prog' := by
  rw [Step.validAll_iff prog V hf, Step.validAll_iff prog' V' hf']
  have e : ∀ c ∈ Step.checks prog, (c.Valid rep (colAt (Step.nextAll V prog)) ↔ (c.map φ).Valid rep (colAt (Step.nextAll V' prog'))) := fun c hc => by
    have f1 := Step.fits_end prog V hf c hc
    have f2 := Step.fits_end prog' V' hf' (c.map φ) ((h.1 _).2 ⟨c, hc, rfl⟩)
    rw [Check.valid_map]
    rw [Check.fits_map] at f2
    exact ⟨Check.valid_same c f1 (c.sameActive_of_cols (h.2 c hc)), Check.valid_same c f2 (c.sameActive_of_cols fun k hk => (h.2 c hc k hk).symm)⟩
  constructor
  · intro hv c' hc'
    obtain ⟨c, hc, rfl⟩ := (h.1 c').1 hc'
    exact (e c hc).1 (hv c hc)
  · exact fun hv c hc => (e c hc).2 (hv _ ((h.1 _).2 ⟨c, hc, rfl⟩))

/-- C120, meaning.  They say the same of them. -/
theorem C120_means {D : Nat} {V V' : List (Column F)} (h : SameQuestions φ V prog V' prog') (hf : Step.FitsAll N V prog) (hf' : Step.FitsAll M V' prog') :
    (∀ c ∈ Step.checks prog, c.Means D (colAt (Step.nextAll V prog))) ↔ ∀ c ∈ Step.checks prog', c.Means D (colAt (Step.nextAll V' prog')) := by
  have e : ∀ c ∈ Step.checks prog, (c.Means D (colAt (Step.nextAll V prog)) ↔ (c.map φ).Means D (colAt (Step.nextAll V' prog'))) := fun c hc => by
    have f1 := Step.fits_end prog V hf c hc
    have f2 := Step.fits_end prog' V' hf' (c.map φ) ((h.1 _).2 ⟨c, hc, rfl⟩)
    rw [Check.means_map]
    rw [Check.fits_map] at f2
    exact ⟨Check.means_same c f1 (c.sameActive_of_cols (h.2 c hc)), Check.means_same c f2 (c.sameActive_of_cols fun k hk => (h.2 c hc k hk).symm)⟩
  constructor
  · intro hv c' hc'
    obtain ⟨c, hc, rfl⟩ := (h.1 c').1 hc'
    exact (e c hc).1 (hv c hc)
  · exact fun hv c hc => (e c hc).2 (hv _ ((h.1 _).2 ⟨c, hc, rfl⟩))

/-- C120, whole sessions.  If the data is valid for one program, a session with the other is accepted, if a proof can be compiled for it. -/
theorem C120_accepted {K : Curve F} {V : Env F K.G1} {γ : K.G1} {η : K.G2} {τ : List F} (hV : V.commit = kzgCommit (proverParamOf γ η τ)) (hd : 1 ≤ d) (hchar : NatsNonzero F (d + 1)) (h2 : (2 : F) ≠ 0)
    (hne : cols' ≠ []) (h : SameQuestions φ (startCols cols) prog (startCols cols') prog') (hf : Step.FitsAll N (startCols cols) prog) (hc : ProgramCompilesOn cols' prog' τ.length d M)
    (hn : Step.RunsAll V.debug (startCols cols') prog') :
    SurelyAccepted (E := K) V γ η τ d (fun V => Step.proveAll V prog' (startHandles cols')) (fun V => Step.verifyAll V prog' (startHandles cols')) cols'
      (Step.boundsAll (startCols cols') prog') (Step.ValidAll V.rep (startCols cols) prog) := by
  obtain ⟨bad, H0⟩ := C114_accepted (K := K) (γ := γ) (η := η) hV hd hchar h2 hne hc hn
  refine ⟨bad, fun H => ?_⟩
  obtain ⟨a, t', r1, r2, r3, r4⟩ := H0 H
  exact ⟨a, t', r1, r2, r3, fun hv => r4 ((C120_valid h hf hc.fits).1 hv)⟩

/-- C120, soundness.  An accepted session with computed columns says what is checked of any columns with the same contents, however these are made. -/
theorem C120_sound {E : Env F C} {s : VSt F C B} {hs : List TPoly} (h2 : (2 : F) ≠ 0) (hn : NatsNonzero F (2 ^ N)) (hS : Sane s) (hk : KnownAll s hs) (hp : ∀ x ∈ prog', x.Computes)
    (hf' : Step.FitsAll N (blank F hs) prog') :
    SoundExcept (fun H => Step.verifyAll (E.withH H) prog' hs) s N (Step.soundBoundsAll N (blank F hs) prog') fun _ P =>
      ∀ W' : List (Column F), HoldsAll s P N hs W' → hs.map (·.numVars) = W'.map (·.nv) →
        ∀ (φ : Nat → Nat) (W : List (Column F)) (prog : List (Step F)), SameQuestions φ W prog W' prog' → Step.FitsAll M W prog →
          ∀ c ∈ Step.checks prog, c.Means N (colAt (Step.nextAll W prog)) := by
  obtain ⟨bad, H0⟩ := C86_program_sound (E := E) h2 hn hS hk hf'
  refine ⟨bad, fun pf H a s' hr => ?_⟩
  obtain ⟨r1, r2, r3⟩ := H0 pf H a s' hr
  refine ⟨r1, r2, fun P hc hb W' hW hz φ W prog hq hf => ?_⟩
  have hfW : Step.FitsAll N W' prog' := Step.fits_of_sizes prog' (by rw [← hz]; simp [blank]) hf'
  exact (C120_means hq hf hfW).2 (Step.means_end prog' W' hp hfW (r3 P hc hb W' hW hz))

/-! ### A sum that is committed to, and one that is computed -/
namespace REx

/-- The sum of columns 0 and 2 of C115, committed to. -/
def prog120 : List (Step G) := [.commit ⟨1, [1, 3]⟩, .check (.noZeros (4, 3))]

/-- The same column computed in three steps: the one at position 6. -/
def prog120' : List (Step G) := [.addScalar 2 1, .add 0 4, .addScalar 5 (-1), .check (.noZeros (6, 3))]

/-- Its place. -/
def place120 (k : Nat) : Nat := if k = 4 then 6 else k

theorem same120 : SameQuestions place120 (startCols (cols115 2)) prog120 (startCols (cols115 2)) prog120' := by
  refine ⟨fun c' => ?_, fun c hc k hk => ?_⟩
  · change c' ∈ [Check.noZeros (6, 3)] ↔ ∃ c ∈ [Check.noZeros (4, 3)], c.map place120 = c'
    simp [Check.map, place120, eq_comm]
  · have hc : c ∈ [Check.noZeros (4, 3)] := hc
    obtain rfl := List.mem_singleton.1 hc
    have hk : k ∈ [4, 3] := hk
    simp only [List.mem_cons, List.not_mem_nil, or_false] at hk
    rcases hk with rfl | rfl
    · exact ⟨rfl, (by decide : ∀ i < 2 ^ 1, (colAt (Step.nextAll (startCols (cols115 2)) prog120') 6).val i = (colAt (Step.nextAll (startCols (cols115 2)) prog120) 4).val i)⟩
    · exact ⟨rfl, fun _ _ => rfl⟩

/-- The hypotheses of the theorems are met. -/
theorem accepted120 : SurelyAccepted (E := E101) (env115 true) (1 : G) (1 : G) [3] 3 (fun V => Step.proveAll V prog120' (startHandles (cols115 2)))
    (fun V => Step.verifyAll V prog120' (startHandles (cols115 2))) (cols115 2) [] (Step.ValidAll ZMod.val (startCols (cols115 2)) prog120) := by
  refine C120_accepted (K := E101) (V := env115 true) (N := 1) (M := 1) (cols := cols115 2) rfl (by decide) (fun k h1 h2 => natsNonzero k h1 (by omega)) two_ne (by simp [cols115]) same120
    ⟨⟨rfl, le_refl 1⟩, ⟨by decide, by decide, rfl⟩, trivial⟩
    ⟨fun q hq => ?_, ⟨(by decide : 2 < 4), ⟨(by decide : 0 < 5), (by decide : 4 < 5), rfl⟩, (by decide : 5 < 6), ⟨by decide, by decide, rfl⟩, trivial⟩, .inl ⟨_, .head _, rfl⟩, by decide, le_rfl,
      (by decide : 2 ≤ 4 + (Step.costAll prog120').commits), (by decide : Step.degreeAll (List.replicate 4 1) prog120' ≤ 3)⟩ ⟨trivial, trivial, trivial, trivial, trivial⟩
  simp only [cols115, List.mem_cons, List.not_mem_nil, or_false] at hq
  rcases hq with rfl | rfl | rfl | rfl <;> exact ⟨rfl, le_refl 1⟩

example : (∀ s ∈ prog120', s.Computes) ∧ verdict115 prog120 (cols115 2) true = .ok () ∧ verdict115 prog120' (cols115 2) true = .ok () :=
  ⟨by simp [prog120', Step.Computes], by decide +kernel, by decide +kernel⟩

end REx
end Zksql
