import Verif.Lemmas.Reorder
import Verif.Props.Inactive
import Verif.Props.ProgramSound
/-!
C117: the order of the checks of a session, and how often they are made, do not matter.
-/
set_option linter.unusedSectionVars false
namespace Zksql
open Spec
variable {F C B : Type} [Field F] [DecidableEq F] {N n d : Nat} {prog prog' : List (Step F)} {cols : List (Mle F)}

/-- C117, data.  Programs with the same checks need the same of the data. -/
theorem C117_valid {rep : F → Nat} {W : List (Column F)} (hs : Step.SameChecks prog prog') (hf : Step.FitsAll N W prog) (hf' : Step.FitsAll N W prog') :
    Step.ValidAll rep W prog ↔ Step.ValidAll rep W prog' := by
  rw [Step.validAll_iff prog W hf, Step.validAll_iff prog' W hf', ← Step.nextAll_makes prog, ← Step.nextAll_makes prog', hs.1]
  exact forall_congr' fun c => by rw [hs.2 c]

/-- C117, compiling.  If a proof can be compiled for one of them, so it can for the other. -/
theorem C117_compiles (hs : Step.SameChecks prog prog') (hne : cols ≠ []) (hf' : Step.FitsAll N (startCols cols) prog') (h : ProgramCompilesOn cols prog n d N) : ProgramCompilesOn cols prog' n d N := by
  refine ⟨h.sizes, hf', ?_, h.pos, h.room, ?_, ?_⟩
  · rcases h.top with h1 | h1
    · exact .inl h1
    · refine .inr ?_
      rw [Step.reachesAll_iff _ _ h.fits, ← Step.nextAll_makes] at h1
      rw [Step.reachesAll_iff _ _ hf', ← Step.nextAll_makes, hs.1]
      exact h1.imp_right fun ⟨c, hc, hr⟩ => ⟨c, (hs.2 c).2 hc, hr⟩
  · have h1 : 1 ≤ cols.length := List.length_pos_of_ne_nil hne
    have h2 := h.two
    rw [Step.commits_eq] at h2 ⊢
    rw [hs.1]
    by_contra hlt
    have z : ((Step.checks prog').map fun c => c.cost.commits).sum = 0 := by omega
    have z' : ((Step.checks prog).map fun c => c.cost.commits).sum = 0 := by
      rw [List.sum_eq_zero_iff] at z ⊢
      intro x hx
      obtain ⟨c, hc, rfl⟩ := List.mem_map.1 hx
      exact z _ (List.mem_map.2 ⟨c, (hs.2 c).2 hc, rfl⟩)
    omega
  · have hl : (List.replicate cols.length 1).length = (startCols cols).length := by simp [startCols]
    have h1 := h.degree
    rw [Step.degreeAll_iff _ _ _ hl h.fits, ← Step.degreesEnd_makes] at h1
    rw [Step.degreeAll_iff _ _ _ hl hf', ← Step.degreesEnd_makes, hs.1]
    exact ⟨h1.1, fun c hc => h1.2 c ((hs.2 c).1 hc)⟩

/-- C117, whole sessions.  If a program can be run and proved and its data is valid, then a session with the same checks, in another order or made several times, is accepted. -/
theorem C117_accepted {K : Curve F} {V : Env F K.G1} {γ : K.G1} {η : K.G2} {τ : List F} (hV : V.commit = kzgCommit (proverParamOf γ η τ)) (hd : 1 ≤ d) (hchar : NatsNonzero F (d + 1)) (h2 : (2 : F) ≠ 0)
    (hne : cols ≠ []) (hs : Step.SameChecks prog prog') (hf' : Step.FitsAll N (startCols cols) prog') (h : ProgramCompilesOn cols prog τ.length d N) (hn : Step.RunsAll V.debug (startCols cols) prog) :
    SurelyAccepted (E := K) V γ η τ d (fun V => Step.proveAll V prog' (startHandles cols)) (fun V => Step.verifyAll V prog' (startHandles cols)) cols
      (Step.boundsAll (startCols cols) prog') (Step.ValidAll V.rep (startCols cols) prog) := by
  have hn' : Step.RunsAll V.debug (startCols cols) prog' := by
    rw [Step.runsAll_iff _ _ h.fits, ← Step.nextAll_makes] at hn
    rw [Step.runsAll_iff _ _ hf', ← Step.nextAll_makes, hs.1]
    exact ⟨hn.1, fun c hc => hn.2 c ((hs.2 c).1 hc)⟩
  obtain ⟨bad, H0⟩ := C114_accepted (K := K) (γ := γ) (η := η) hV hd hchar h2 hne (C117_compiles hs hne hf' h) hn'
  refine ⟨bad, fun H => ?_⟩
  obtain ⟨a, t', r1, r2, r3, r4⟩ := H0 H
  exact ⟨a, t', r1, r2, r3, fun hv => r4 ((C117_valid hs h.fits hf').1 hv)⟩

theorem means_append {pf : CompiledProof F C B} {P : C → List F → F} {r r' : List (Step F)} (h : ∀ W, Step.MeansAll pf P N W r → Step.MeansAll pf P N W r') :
    ∀ (p : List (Step F)) (W : List (Column F)), Step.MeansAll pf P N W (p ++ r) → Step.MeansAll pf P N W (p ++ r')
  | [], W, hm => h W hm
  | .commit p :: q, W, ⟨id, c, hc, hm⟩ => ⟨id, c, hc, fun T hT => means_append h q _ (hm T hT)⟩
  | .check c :: q, W, hm => ⟨hm.1, means_append h q W hm.2⟩
  | .join a b ai bi :: q, W, ⟨cs, e, hc, hm⟩ => ⟨cs, e, hc, fun Ts hT => ⟨(hm Ts hT).1, means_append h q _ (hm Ts hT).2⟩⟩
  | .add _ _ :: q, _, hm => means_append h q _ hm
  | .sub _ _ :: q, _, hm => means_append h q _ hm
  | .mul _ _ :: q, _, hm => means_append h q _ hm
  | .addScalar _ _ :: q, _, hm => means_append h q _ hm
  | .mulScalar _ _ :: q, _, hm => means_append h q _ hm

/-- C117, what an accepted session says.  Wherever some checks follow each other, the statement is the same with the same checks in another order or made several times. -/
theorem C117_means {pf : CompiledProof F C B} {P : C → List F → F} {W : List (Column F)} {cs cs' : List (Check Nat)} (h : ∀ c, c ∈ cs' ↔ c ∈ cs) (p q : List (Step F)) :
    Step.MeansAll pf P N W (p ++ (cs.map Step.check ++ q)) ↔ Step.MeansAll pf P N W (p ++ (cs'.map Step.check ++ q)) := by
  have split : ∀ (cs : List (Check Nat)) (W : List (Column F)), Step.MeansAll pf P N W (cs.map Step.check ++ q) ↔ (∀ c ∈ cs, c.Means N (colAt W)) ∧ Step.MeansAll pf P N W q := fun cs W => by
    induction cs with
    | nil => exact ⟨fun h => ⟨fun _ h => absurd h List.not_mem_nil, h⟩, fun h => h.2⟩
    | cons c r ih =>
      rw [List.forall_mem_cons, and_assoc, ← ih]
      rfl
  have e : ∀ W, Step.MeansAll pf P N W (cs.map Step.check ++ q) ↔ Step.MeansAll pf P N W (cs'.map Step.check ++ q) := fun W => by
    rw [split, split]
    exact and_congr_left fun _ => forall_congr' fun c => by rw [h c]
  exact ⟨means_append (fun W => (e W).1) p W, means_append (fun W => (e W).2) p W⟩

/-- C117, soundness.  Whichever order the verifier makes the checks in, an accepted session says the same. -/
theorem C117_sound {E : Env F C} {s : VSt F C B} {hs : List TPoly} (h2 : (2 : F) ≠ 0) (hn : NatsNonzero F (2 ^ N)) (hS : Sane s) (hk : KnownAll s hs) {cs cs' : List (Check Nat)}
    (h : ∀ c, c ∈ cs' ↔ c ∈ cs) (p q : List (Step F)) (hf : Step.FitsAll N (blank F hs) (p ++ (cs'.map Step.check ++ q))) :
    SoundExcept (fun H => Step.verifyAll (E.withH H) (p ++ (cs'.map Step.check ++ q)) hs) s N (Step.soundBoundsAll N (blank F hs) (p ++ (cs'.map Step.check ++ q))) fun pf P =>
      ∀ W : List (Column F), HoldsAll s P N hs W → hs.map (·.numVars) = W.map (·.nv) → Step.MeansAll pf P N W (p ++ (cs.map Step.check ++ q)) := by
  have := C86_program_sound (E := E) h2 hn hS hk hf
  simpa only [C117_means h p q] using this

/-! ### Three orders of two checks -/
namespace REx

/-- The program of C115 with its checks in the other order, and with one of them made twice. -/
def orders117 : List (List (Step G)) :=
  [[.check (.noZeros (0, 1)), .check (.bagEq (0, 1) (2, 3))], [.check (.noZeros (0, 1)), .check (.bagEq (0, 1) (2, 3)), .check (.noZeros (0, 1))]]

theorem same117 : ∀ p ∈ orders117, Step.SameChecks prog115 p := fun p hp => by
  fin_cases hp
  · refine ⟨rfl, fun c => ?_⟩
    change c ∈ [_, _] ↔ c ∈ [_, _]
    simp only [List.mem_cons, List.not_mem_nil, or_false]
    tauto
  · refine ⟨rfl, fun c => ?_⟩
    change c ∈ [_, _, _] ↔ c ∈ [_, _]
    simp only [List.mem_cons, List.not_mem_nil, or_false]
    tauto

theorem fits117 : ∀ p ∈ prog115 :: orders117, Step.FitsAll 1 (startCols (cols115' 5 7)) p := fun p hp => by
  have b1 : (Step.check (.bagEq (0, 1) (2, 3))).Fits 1 (startCols (cols115' 5 7)) := ⟨by decide, by decide, rfl, rfl, rfl⟩
  have b2 : (Step.check (.noZeros (0, 1))).Fits 1 (startCols (cols115' 5 7)) := ⟨by decide, by decide, rfl⟩
  fin_cases hp
  exacts [⟨b1, b2, trivial⟩, ⟨b2, b1, trivial⟩, ⟨b2, b1, b2, trivial⟩]

/-- The hypotheses of the theorems are met. -/
theorem accepted117 (p : List (Step G)) (hp : p ∈ orders117) : SurelyAccepted (E := E101) (env115 true) (1 : G) (1 : G) [3] 3 (fun V => Step.proveAll V p (startHandles (cols115' 5 7)))
    (fun V => Step.verifyAll V p (startHandles (cols115' 5 7))) (cols115' 5 7) (Step.boundsAll (startCols (cols115' 5 7)) p) (Step.ValidAll ZMod.val (startCols (cols115' 5 7)) prog115) :=
  C117_accepted (K := E101) (V := env115 true) rfl (by decide) (fun k h1 h2 => natsNonzero k h1 (by omega)) two_ne (by simp [cols115']) (same117 p hp) (fits117 p (.tail _ hp))
    ⟨fun q hq => by
      simp only [cols115', List.mem_cons, List.not_mem_nil, or_false] at hq
      rcases hq with rfl | rfl | rfl | rfl <;> exact ⟨rfl, le_refl 1⟩, fits117 _ (.head _), .inl ⟨_, .head _, rfl⟩, by decide, le_rfl, (by decide : 2 ≤ 4 + (Step.costAll prog115).commits),
      (by decide : Step.degreeAll (List.replicate 4 1) prog115 ≤ 3)⟩ ⟨trivial, trivial, trivial⟩

example : ∀ p ∈ orders117, verdict115 p (cols115' 5 7) true = .ok () := by decide +kernel

end REx
end Zksql
