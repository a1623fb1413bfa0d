import Verif.Props.Placed
import Verif.Lemmas.Made
/-!
C121: two sessions can be proved with one proof.
-/
set_option linter.unusedSectionVars false
namespace Zksql
open Spec
variable {F C B : Type} [Field F] [DecidableEq F] {N M n d : Nat} {cols cols' : List (Mle F)} {cs cs' : List (Check Nat)}

namespace Spec

theorem justChecks_append : justChecks (F := F) (cs ++ cs') = justChecks cs ++ justChecks cs' := List.map_append

theorem commits_checks : ∀ cs : List (Check Nat), (Step.costAll (justChecks (F := F) (cs ++ cs'))).commits = (Step.costAll (justChecks (F := F) cs)).commits + (Step.costAll (justChecks (F := F) cs')).commits
  | [] => (Nat.zero_add _).symm
  | c :: r => by
    change c.cost.commits + (Step.costAll (justChecks (F := F) (r ++ cs'))).commits = c.cost.commits + (Step.costAll (justChecks (F := F) r)).commits + _
    rw [commits_checks r, Nat.add_assoc]

theorem bounds_append {W : List (Column F)} : ∀ cs : List (Check Nat), Step.boundsAll W (justChecks (cs ++ cs')) = Step.boundsAll W (justChecks cs) ++ Step.boundsAll W (justChecks cs')
  | [] => rfl
  | c :: r => by
    change c.bounds (colAt W) ++ Step.boundsAll W (justChecks (r ++ cs')) = (c.bounds (colAt W) ++ Step.boundsAll W (justChecks r)) ++ _
    rw [bounds_append r, List.append_assoc]

theorem compiles_append (h : ProgramCompilesOn cols (justChecks cs) n d N) (h' : ProgramCompilesOn cols (justChecks cs') n d M) : ProgramCompilesOn cols (justChecks (cs ++ cs')) n d (max N M) := by
  have f1 := (fits_checks cs).1 h.fits
  have f2 := (fits_checks cs').1 h'.fits
  refine ⟨fun p hp => ⟨(h.sizes p hp).1, (h.sizes p hp).2.trans (le_max_left _ _)⟩, ?_, ?_, h.pos.trans_le (le_max_left _ _), max_le h.room h'.room, ?_, ?_⟩
  · rw [fits_checks, List.forall_mem_append]
    exact ⟨fun c hc => ⟨(f1 c hc).1, Check.Fits.mono (le_max_left _ _) c (f1 c hc).2⟩, fun c hc => ⟨(f2 c hc).1, Check.Fits.mono (le_max_right _ _) c (f2 c hc).2⟩⟩
  · rcases le_total M N with e | e
    · rw [max_eq_left e]
      refine h.top.imp_right fun h1 => ?_
      obtain ⟨c, hc, hr⟩ := (reaches_checks cs).1 h1
      exact (reaches_checks _).2 ⟨c, List.mem_append_left _ hc, hr⟩
    · rw [max_eq_right e]
      refine h'.top.imp_right fun h1 => ?_
      obtain ⟨c, hc, hr⟩ := (reaches_checks cs').1 h1
      exact (reaches_checks _).2 ⟨c, List.mem_append_right _ hc, hr⟩
  · rw [commits_checks]
    have := h.two
    omega
  · rw [degree_checks, List.forall_mem_append]
    exact ⟨(degree_checks cs).1 h.degree, (degree_checks cs').1 h'.degree⟩

theorem placed_left : Placed id cols (cols ++ cols') := ⟨fun _ _ h => h, fun i p h => by
  rw [id, List.getElem?_append_left (List.getElem?_eq_some_iff.1 h).1]
  exact h⟩

theorem placed_right : Placed (cols.length + ·) cols' (cols ++ cols') := ⟨fun _ _ h => Nat.add_left_cancel h, fun i p h => by
  rw [List.getElem?_append_right (Nat.le_add_right _ _), Nat.add_sub_cancel_left]
  exact h⟩

theorem Check.map_id (c : Check Nat) : c.map id = c := by
  cases c <;> simp [Check.map]

theorem mergeChecks_eq (k : Nat) : mergeChecks k cs cs' = cs.map (Check.map id) ++ cs'.map (Check.map (k + ·)) := by
  rw [mergeChecks, show (Check.map id : Check Nat → Check Nat) = id from funext Check.map_id, List.map_id]

end Spec

/-- C121, compiling.  If proofs can be compiled for two sessions, one can be compiled for both together. -/
theorem C121_compiles (h : ProgramCompilesOn cols (justChecks cs) n d N) (h' : ProgramCompilesOn cols' (justChecks cs') n d M) :
    ∃ D, ProgramCompilesOn (cols ++ cols') (justChecks (mergeChecks cols.length cs cs')) n d D := by
  have hs : ∀ p ∈ cols ++ cols', p.WF ∧ p.numVars ≤ n := fun p hp => by
    rcases List.mem_append.1 hp with hp | hp
    · exact ⟨(h.sizes p hp).1, (h.sizes p hp).2.trans h.room⟩
    · exact ⟨(h'.sizes p hp).1, (h'.sizes p hp).2.trans h'.room⟩
  obtain ⟨_, _, a⟩ := C119_compiles placed_left hs h
  obtain ⟨_, _, b⟩ := C119_compiles placed_right hs h'
  rw [mergeChecks_eq]
  exact ⟨_, compiles_append a b⟩

/-- C121, data.  The two sessions together need what each of them needs. -/
theorem C121_valid {rep : F → Nat} (hf : Step.FitsAll N (startCols cols) (justChecks cs)) (hf' : Step.FitsAll M (startCols cols') (justChecks cs')) :
    Step.ValidAll rep (startCols (cols ++ cols')) (justChecks (mergeChecks cols.length cs cs')) ↔
      Step.ValidAll rep (startCols cols) (justChecks cs) ∧ Step.ValidAll rep (startCols cols') (justChecks cs') := by
  have key : ∀ {φ : Nat → Nat} {cols0 : List (Mle F)} {cs0 : List (Check Nat)} {D : Nat}, Placed φ cols0 (cols ++ cols') → Step.FitsAll D (startCols cols0) (justChecks cs0) →
      ((∀ c ∈ cs0.map (Check.map φ), c.Valid rep (colAt (startCols (cols ++ cols')))) ↔ ∀ c ∈ cs0, c.Valid rep (colAt (startCols cols0))) := fun {φ cols0 cs0 D} hp hf => by
    rw [List.forall_mem_map]
    refine forall₂_congr fun c hc => ?_
    have hf := (fits_checks cs0).1 hf c hc
    have eq : ∀ k ∈ c.names, colAt (startCols (cols ++ cols')) (φ k) = colAt (startCols cols0) k := fun k hk => hp.colAt (by simpa [startCols] using hf.1 k hk)
    rw [Check.valid_map]
    exact ⟨Check.valid_same c (c.fits_of_eq eq hf.2) (c.sameActive_of_eq fun k hk => (eq k hk).symm), Check.valid_same c hf.2 (c.sameActive_of_eq eq)⟩
  rw [valid_checks, valid_checks, valid_checks, mergeChecks_eq, List.forall_mem_append, key placed_left hf, key placed_right hf']

/-- C121, whole sessions.  Two sessions that can be run and proved are accepted as one, if the data of both is valid; the exceptional challenges are those of the first and then those of the second. -/
theorem C121_accepted {K : Curve F} {V : Env F K.G1} {γ : K.G1} {η : K.G2} {τ : List F} (hV : V.commit = kzgCommit (proverParamOf γ η τ)) (hd : 1 ≤ d) (hchar : NatsNonzero F (d + 1))
    (h2 : (2 : F) ≠ 0) (hne : cols ≠ []) (h : ProgramCompilesOn cols (justChecks cs) τ.length d N) (h' : ProgramCompilesOn cols' (justChecks cs') τ.length d M)
    (hn : Step.RunsAll V.debug (startCols cols) (justChecks cs)) (hn' : Step.RunsAll V.debug (startCols cols') (justChecks cs')) :
    SurelyAccepted (E := K) V γ η τ d (fun V => Step.proveAll V (justChecks (mergeChecks cols.length cs cs')) (startHandles (cols ++ cols')))
      (fun V => Step.verifyAll V (justChecks (mergeChecks cols.length cs cs')) (startHandles (cols ++ cols'))) (cols ++ cols')
      (Step.boundsAll (startCols cols) (justChecks cs) ++ Step.boundsAll (startCols cols') (justChecks cs'))
      (Step.ValidAll V.rep (startCols cols) (justChecks cs) ∧ Step.ValidAll V.rep (startCols cols') (justChecks cs')) := by
  obtain ⟨D, hc⟩ := C121_compiles h h'
  have eq1 : ∀ c ∈ cs, ∀ k ∈ c.names, colAt (startCols (cols ++ cols')) (id k) = colAt (startCols cols) k := fun c hc k hk =>
    placed_left.colAt (by simpa [startCols] using ((fits_checks cs).1 h.fits c hc).1 k hk)
  have eq2 : ∀ c ∈ cs', ∀ k ∈ c.names, colAt (startCols (cols ++ cols')) (cols.length + k) = colAt (startCols cols') k := fun c hc k hk =>
    placed_right.colAt (by simpa [startCols] using ((fits_checks cs').1 h'.fits c hc).1 k hk)
  have hr : Step.RunsAll V.debug (startCols (cols ++ cols')) (justChecks (mergeChecks cols.length cs cs')) := by
    rw [runs_checks, mergeChecks_eq, List.forall_mem_append, List.forall_mem_map, List.forall_mem_map]
    refine ⟨fun c hc => ?_, fun c hc => ?_⟩
    · rw [Check.runs_map]
      exact c.runs_of_eq (eq1 c hc) ((runs_checks cs).1 hn c hc)
    · rw [Check.runs_map]
      exact c.runs_of_eq (eq2 c hc) ((runs_checks cs').1 hn' c hc)
  obtain ⟨bad, H0⟩ := C114_accepted (K := K) (γ := γ) (η := η) hV hd hchar h2 (by simp [hne]) hc hr
  rw [show Step.boundsAll (startCols (cols ++ cols')) (justChecks (mergeChecks cols.length cs cs')) = _ from by rw [mergeChecks_eq, bounds_append], bounds_checks cs eq1, bounds_checks (φ := (cols.length + ·)) cs' eq2] at H0
  refine ⟨bad, fun H => ?_⟩
  obtain ⟨a, t', r1, r2, r3, r4⟩ := H0 H
  exact ⟨a, t', r1, r2, r3, fun hv => r4 ((C121_valid h.fits h'.fits).2 hv)⟩

/-- C121, soundness.  An accepted proof for both sessions says what each of them says of its columns. -/
theorem C121_sound {E : Env F C} {s : VSt F C B} {hs hs' : List TPoly} (h2 : (2 : F) ≠ 0) (hn : NatsNonzero F (2 ^ N)) (hS : Sane s) (hk : KnownAll s (hs ++ hs'))
    (hf : Step.FitsAll N (blank F hs) (justChecks cs)) (hf' : Step.FitsAll N (blank F hs') (justChecks cs')) :
    SoundExcept (fun H => Step.verifyAll (E.withH H) (justChecks (mergeChecks hs.length cs cs')) (hs ++ hs')) s N
      (Step.soundBoundsAll N (blank F (hs ++ hs')) (justChecks (mergeChecks hs.length cs cs'))) fun _ P =>
      ∀ W W' : List (Column F), HoldsAll s P N hs W → HoldsAll s P N hs' W' → hs.map (·.numVars) = W.map (·.nv) → hs'.map (·.numVars) = W'.map (·.nv) →
        (∀ c ∈ cs, c.Means N (colAt W)) ∧ ∀ c ∈ cs', c.Means N (colAt W') := by
  have left : ∀ {U U' : List (Column F)} {k : Nat}, k < U.length → colAt (U ++ U') (id k) = colAt U k := fun h => List.getD_append _ _ _ _ h
  have right : ∀ {U U' : List (Column F)} {k : Nat}, colAt (U ++ U') (U.length + k) = colAt U' k := fun {U U' k} => by
    unfold colAt
    rw [List.getD_append_right _ _ _ _ (Nat.le_add_right _ _), Nat.add_sub_cancel_left]
  have eb : blank F (hs ++ hs') = blank F hs ++ blank F hs' := List.map_append
  have lb : (blank F hs).length = hs.length := List.length_map ..
  have f1 := (fits_checks cs).1 hf
  have f2 := (fits_checks cs').1 hf'
  have hfb : Step.FitsAll N (blank F (hs ++ hs')) (justChecks (mergeChecks hs.length cs cs')) := by
    rw [fits_checks, mergeChecks_eq, List.forall_mem_append, List.forall_mem_map, List.forall_mem_map, eb]
    refine ⟨fun c hc => ⟨?_, ?_⟩, fun c hc => ⟨?_, ?_⟩⟩
    · rw [Check.names_map, List.forall_mem_map]
      exact fun k hk => by rw [List.length_append]; exact Nat.lt_add_right _ ((f1 c hc).1 k hk)
    · rw [Check.fits_map]
      exact c.fits_of_eq (fun k hk => left ((f1 c hc).1 k hk)) (f1 c hc).2
    · rw [Check.names_map, List.forall_mem_map]
      exact fun k hk => by rw [List.length_append, lb]; exact Nat.add_lt_add_left ((f2 c hc).1 k hk) _
    · rw [Check.fits_map]
      exact c.fits_of_eq (fun k _ => by rw [← lb]; exact right) (f2 c hc).2
  obtain ⟨bad, H0⟩ := C86_program_sound (E := E) h2 hn hS hk hfb
  refine ⟨bad, fun pf H a s' hr => ?_⟩
  obtain ⟨r1, r2, r3⟩ := H0 pf H a s' hr
  refine ⟨r1, r2, fun P hc hb W W' hW hW' hz hz' => ?_⟩
  have lw : W.length = hs.length := by simpa using (congrArg List.length hz).symm
  have lw' : W'.length = hs'.length := by simpa using (congrArg List.length hz').symm
  have lb' : (blank F hs').length = hs'.length := List.length_map ..
  have m := r3 P hc hb (W ++ W') (List.rel_append hW hW') (by rw [List.map_append, List.map_append, hz, hz'])
  rw [means_checks, mergeChecks_eq, List.forall_mem_append, List.forall_mem_map, List.forall_mem_map] at m
  have fw : ∀ c ∈ cs, c.Fits N (colAt W) := fun c hc => ((fits_checks cs).1 (Step.fits_of_sizes _ (by rw [← hz]; simp [blank]) hf) c hc).2
  have fw' : ∀ c ∈ cs', c.Fits N (colAt W') := fun c hc => ((fits_checks cs').1 (Step.fits_of_sizes _ (by rw [← hz']; simp [blank]) hf') c hc).2
  refine ⟨fun c hc => ?_, fun c hc => ?_⟩
  · have e : ∀ k ∈ c.names, colAt (W ++ W') (id k) = colAt W k := fun k hk => left (by rw [lw, ← lb]; exact (f1 c hc).1 k hk)
    have := m.1 c hc
    rw [Check.means_map] at this
    exact Check.means_same c (c.fits_of_eq e (fw c hc)) (c.sameActive_of_eq fun k hk => (e k hk).symm) this
  · have e : ∀ k ∈ c.names, colAt (W ++ W') (hs.length + k) = colAt W' k := fun k _ => by rw [← lw]; exact right
    have := m.2 c hc
    rw [Check.means_map] at this
    exact Check.means_same c (c.fits_of_eq e (fw' c hc)) (c.sameActive_of_eq fun k hk => (e k hk).symm) this

/-! ### Two small sessions in one -/
namespace REx

/-- The values [1, 2] with the selector [1, 0]. -/
def cols121 : List (Mle G) := [⟨1, [1, 2]⟩, ⟨1, [1, 0]⟩]
/-- The values [3, 0] with the selector [1, 0]. -/
def cols121' : List (Mle G) := [⟨1, [3, 0]⟩, ⟨1, [1, 0]⟩]

theorem compiles121 : ProgramCompilesOn cols121 (justChecks [.selector 1]) 1 3 1 :=
  ⟨fun q hq => by
    simp only [cols121, List.mem_cons, List.not_mem_nil, or_false] at hq
    rcases hq with rfl | rfl <;> exact ⟨rfl, le_refl 1⟩, ⟨⟨by decide, by decide, trivial⟩, trivial⟩, .inl ⟨_, .head _, rfl⟩, by decide, le_rfl,
    (by decide : 2 ≤ 2 + (Step.costAll (F := G) (justChecks [.selector 1])).commits), (by decide : Step.degreeAll (F := G) (List.replicate 2 1) (justChecks [.selector 1]) ≤ 3)⟩

theorem compiles121' : ProgramCompilesOn cols121' (justChecks [.noZeros (0, 1)]) 1 3 1 :=
  ⟨fun q hq => by
    simp only [cols121', List.mem_cons, List.not_mem_nil, or_false] at hq
    rcases hq with rfl | rfl <;> exact ⟨rfl, le_refl 1⟩, ⟨⟨by decide, by decide, rfl⟩, trivial⟩, .inl ⟨_, .head _, rfl⟩, by decide, le_rfl,
    (by decide : 2 ≤ 2 + (Step.costAll (F := G) (justChecks [.noZeros (0, 1)])).commits), (by decide : Step.degreeAll (F := G) (List.replicate 2 1) (justChecks [.noZeros (0, 1)]) ≤ 3)⟩

/-- The hypotheses of the theorems are met. -/
theorem accepted121 : SurelyAccepted (E := E101) (env115 true) (1 : G) (1 : G) [3] 3 (fun V => Step.proveAll V (justChecks (mergeChecks cols121.length [.selector 1] [.noZeros (0, 1)])) (startHandles (cols121 ++ cols121')))
    (fun V => Step.verifyAll V (justChecks (mergeChecks cols121.length [.selector 1] [.noZeros (0, 1)])) (startHandles (cols121 ++ cols121'))) (cols121 ++ cols121') []
    (Step.ValidAll ZMod.val (startCols cols121) (justChecks [.selector 1]) ∧ Step.ValidAll ZMod.val (startCols cols121') (justChecks [.noZeros (0, 1)])) :=
  C121_accepted (K := E101) (V := env115 true) (γ := (1 : G)) (η := (1 : G)) (τ := [3]) (d := 3) (N := 1) (M := 1) (cols := cols121) (cols' := cols121') (cs := [.selector 1]) (cs' := [.noZeros (0, 1)]) rfl (by decide) (fun k h1 h2 => natsNonzero k h1 (by omega)) two_ne (by simp [cols121]) compiles121 compiles121' ⟨trivial, trivial⟩ ⟨trivial, trivial⟩

example : verdict115 (justChecks (mergeChecks cols121.length [.selector 1] [.noZeros (0, 1)])) (cols121 ++ cols121') true = .ok () := by decide +kernel

end REx
end Zksql
