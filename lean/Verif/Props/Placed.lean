import Verif.Lemmas.Placed
import Verif.Props.Inactive
import Verif.Props.Compilable
import Verif.Props.ProgramSound
/-!
C119: where the columns are, and which others there are, does not matter.
-/
set_option linter.unusedSectionVars false
namespace Zksql
open Spec
variable {F C B : Type} [Field F] [DecidableEq F] {N n d : Nat} {cols cols' : List (Mle F)} {φ : Nat → Nat} {cs : List (Check Nat)}

namespace Spec

theorem Placed.lt (h : Placed φ cols cols') {i : Nat} (hi : i < cols.length) : φ i < cols'.length := (List.getElem?_eq_some_iff.1 (h.2 i _ (List.getElem?_eq_getElem hi))).1

theorem Placed.length_le (h : Placed φ cols cols') : cols.length ≤ cols'.length := by
  have := Finset.card_le_card_of_injOn (s := Finset.range cols.length) (t := Finset.range cols'.length) φ (fun i hi => by
    simpa using h.lt (by simpa using hi)) (h.1.injOn)
  simpa using this

theorem Placed.colAt (h : Placed φ cols cols') {i : Nat} (hi : i < cols.length) : colAt (startCols cols') (φ i) = Spec.colAt (startCols cols) i := by
  have e := h.2 i _ (List.getElem?_eq_getElem hi)
  unfold Spec.colAt startCols
  rw [List.getD_eq_getElem?_getD, List.getD_eq_getElem?_getD, List.getElem?_map, List.getElem?_map, e, List.getElem?_eq_getElem hi]

theorem fits_checks {W : List (Column F)} : ∀ cs : List (Check Nat), Step.FitsAll N W (justChecks cs) ↔ ∀ c ∈ cs, (∀ i ∈ c.names, i < W.length) ∧ c.Fits N (colAt W)
  | [] => ⟨fun _ _ h => absurd h List.not_mem_nil, fun _ => trivial⟩
  | c :: r => by
    rw [List.forall_mem_cons, ← fits_checks r]
    rfl

theorem valid_checks {rep : F → Nat} {W : List (Column F)} : ∀ cs : List (Check Nat), Step.ValidAll rep W (justChecks cs) ↔ ∀ c ∈ cs, c.Valid rep (colAt W)
  | [] => ⟨fun _ _ h => absurd h List.not_mem_nil, fun _ => trivial⟩
  | c :: r => by
    rw [List.forall_mem_cons, ← valid_checks r]
    rfl

theorem runs_checks {debug : Bool} {W : List (Column F)} : ∀ cs : List (Check Nat), Step.RunsAll debug W (justChecks cs) ↔ ∀ c ∈ cs, c.Runs debug (colAt W)
  | [] => ⟨fun _ _ h => absurd h List.not_mem_nil, fun _ => trivial⟩
  | c :: r => by
    rw [List.forall_mem_cons, ← runs_checks r]
    rfl

theorem means_checks {pf : CompiledProof F C B} {P : C → List F → F} {W : List (Column F)} : ∀ cs : List (Check Nat), Step.MeansAll pf P N W (justChecks cs) ↔ ∀ c ∈ cs, c.Means N (colAt W)
  | [] => ⟨fun _ _ h => absurd h List.not_mem_nil, fun _ => trivial⟩
  | c :: r => by
    rw [List.forall_mem_cons, ← means_checks r]
    rfl

theorem reaches_checks {W : List (Column F)} : ∀ cs : List (Check Nat), Step.ReachesAll N W (justChecks cs) ↔ ∃ c ∈ cs, c.Reaches N (colAt W)
  | [] => ⟨fun h => h.elim, fun ⟨_, h, _⟩ => absurd h List.not_mem_nil⟩
  | c :: r => by
    rw [List.exists_mem_cons_iff, ← reaches_checks r]
    rfl

theorem degree_checks {L : List Nat} : ∀ cs : List (Check Nat), Step.degreeAll L (justChecks (F := F) cs) ≤ d ↔ ∀ c ∈ cs, c.degree (topDegree L c.names) ≤ d
  | [] => ⟨fun _ _ h => absurd h List.not_mem_nil, fun _ => Nat.zero_le _⟩
  | c :: r => by
    rw [List.forall_mem_cons, ← degree_checks r]
    exact max_le_iff

theorem cost_checks : ∀ cs : List (Check Nat), Step.costAll (justChecks (F := F) (cs.map (Check.map φ))) = Step.costAll (justChecks (F := F) cs)
  | [] => rfl
  | c :: r => by
    change (c.map φ).cost + Step.costAll (justChecks (F := F) (r.map (Check.map φ))) = c.cost + Step.costAll (justChecks (F := F) r)
    rw [cost_checks r, Check.cost_map]

theorem bounds_checks {W W' : List (Column F)} : ∀ cs : List (Check Nat), (∀ c ∈ cs, ∀ k ∈ c.names, colAt W' (φ k) = colAt W k) →
    Step.boundsAll W' (justChecks (cs.map (Check.map φ))) = Step.boundsAll W (justChecks cs)
  | [], _ => rfl
  | c :: r, h => by
    obtain ⟨h1, h2⟩ := List.forall_mem_cons.1 h
    change (c.map φ).bounds (colAt W') ++ Step.boundsAll W' (justChecks (r.map (Check.map φ))) = c.bounds (colAt W) ++ Step.boundsAll W (justChecks r)
    rw [bounds_checks r h2, Check.bounds_map, Check.bounds_of_eq c h1]

theorem topDegree_ones {m : Nat} : ∀ names : List Nat, topDegree (List.replicate m 1) names = 1
  | [] => rfl
  | k :: r => by
    have := topDegree_ones (m := m) r
    unfold topDegree at this ⊢
    rw [List.map_cons, List.foldr_cons, this, max_eq_right]
    rw [List.getD_eq_getElem?_getD, List.getElem?_replicate]
    split <;> simp

end Spec

/-- C119, data.  A check of columns at other places needs the same of the data. -/
theorem C119_valid {K L : Type} {rep : F → Nat} {W : L → Column F} {ψ : K → L} (c : Check K) : (c.map ψ).Valid rep W ↔ c.Valid rep fun k => W (ψ k) := c.valid_map

/-- C119, meaning.  It says the same of the columns. -/
theorem C119_means {K L : Type} {W : L → Column F} {ψ : K → L} (c : Check K) : (c.map ψ).Means N W ↔ c.Means N fun k => W (ψ k) := c.means_map

/-- C119, larger columns.  What a check says does not depend on the size of the largest table of the proof, except for the check of order, which then says too much to be accepted, and
the check of a permutation, which is about the columns over the larger hypercube. -/
theorem C119_size {K : Type} {M : Nat} {W : K → Column F} (c : Check K) (h : ∀ f r, c ≠ .sort f r) (h' : ∀ f g p, c ≠ .permutation f g p) : c.Means N W ↔ c.Means M W := by
  cases c
  case sort f r => exact absurd rfl (h f r)
  case permutation f g p => exact absurd rfl (h' f g p)
  all_goals rfl

/-- C119, compiling.  If a proof can be compiled for some checks, so it can with the columns at other places and among others; only the size of the proof's largest table may grow. -/
theorem C119_compiles (hp : Placed φ cols cols') (hs : ∀ p ∈ cols', p.WF ∧ p.numVars ≤ n) (h : ProgramCompilesOn cols (justChecks cs) n d N) :
    ∃ M, N ≤ M ∧ ProgramCompilesOn cols' (justChecks (cs.map (Check.map φ))) n d M := by
  obtain ⟨M, hNM, hMn, hM, ht⟩ := exists_top (fun p : Mle F => p.numVars) n h.room cols' fun p hq => (hs p hq).2
  have hf := (fits_checks cs).1 h.fits
  have eq : ∀ c ∈ cs, ∀ k ∈ c.names, colAt (startCols cols') (φ k) = colAt (startCols cols) k := fun c hc k hk => hp.colAt (by simpa [startCols] using (hf c hc).1 k hk)
  refine ⟨M, hNM, fun p hq => ⟨(hs p hq).1, hM p hq⟩, ?_, ?_, h.pos.trans_le hNM, hMn, ?_, ?_⟩
  · rw [fits_checks, List.forall_mem_map]
    refine fun c hc => ⟨?_, ?_⟩
    · rw [Check.names_map, List.forall_mem_map]
      exact fun k hk => by simpa [startCols] using hp.lt (by simpa [startCols] using (hf c hc).1 k hk)
    · rw [Check.fits_map]
      exact Check.Fits.mono hNM c (c.fits_of_eq (eq c hc) (hf c hc).2)
  · rcases ht with rfl | ht
    swap
    · exact .inl ht
    rcases h.top with ⟨p, h1, h2⟩ | h1
    · obtain ⟨i, hi⟩ := List.mem_iff_getElem?.1 h1
      exact .inl ⟨p, List.mem_iff_getElem?.2 ⟨_, hp.2 i p hi⟩, h2⟩
    · obtain ⟨c, hc, hr⟩ := (reaches_checks cs).1 h1
      refine .inr ((reaches_checks _).2 ⟨c.map φ, List.mem_map_of_mem hc, ?_⟩)
      rw [Check.reaches_map]
      exact c.reaches_of_eq (eq c hc) hr
  · rw [cost_checks]
    exact h.two.trans (Nat.add_le_add_right hp.length_le _)
  · rw [degree_checks, List.forall_mem_map]
    intro c hc
    have := (degree_checks cs).1 h.degree c hc
    rw [topDegree_ones] at this ⊢
    rwa [Check.degree_map]

/-- C119, whole sessions.  If some checks can be made and proved and the data is valid, then the session with the columns at other places and among others is accepted, with the same
numbers of exceptional challenges. -/
theorem C119_accepted {K : Curve F} {V : Env F K.G1} {γ : K.G1} {η : K.G2} {τ : List F} (hV : V.commit = kzgCommit (proverParamOf γ η τ)) (hd : 1 ≤ d) (hchar : NatsNonzero F (d + 1))
    (h2 : (2 : F) ≠ 0) (hne : cols' ≠ []) (hp : Placed φ cols cols') (hs : ∀ p ∈ cols', p.WF ∧ p.numVars ≤ τ.length) (h : ProgramCompilesOn cols (justChecks cs) τ.length d N)
    (hn : Step.RunsAll V.debug (startCols cols) (justChecks cs)) :
    SurelyAccepted (E := K) V γ η τ d (fun V => Step.proveAll V (justChecks (cs.map (Check.map φ))) (startHandles cols'))
      (fun V => Step.verifyAll V (justChecks (cs.map (Check.map φ))) (startHandles cols')) cols' (Step.boundsAll (startCols cols) (justChecks cs))
      (Step.ValidAll V.rep (startCols cols) (justChecks cs)) := by
  have hf := (fits_checks cs).1 h.fits
  have eq : ∀ c ∈ cs, ∀ k ∈ c.names, colAt (startCols cols') (φ k) = colAt (startCols cols) k := fun c hc k hk => hp.colAt (by simpa [startCols] using (hf c hc).1 k hk)
  have hn' : Step.RunsAll V.debug (startCols cols') (justChecks (cs.map (Check.map φ))) := by
    rw [runs_checks, List.forall_mem_map]
    intro c hc
    rw [Check.runs_map]
    exact c.runs_of_eq (eq c hc) ((runs_checks cs).1 hn c hc)
  obtain ⟨M, _, hc⟩ := C119_compiles hp hs h
  obtain ⟨bad, H0⟩ := C114_accepted (K := K) (γ := γ) (η := η) hV hd hchar h2 hne hc hn'
  rw [bounds_checks cs eq] at H0
  refine ⟨bad, fun H => ?_⟩
  obtain ⟨a, t', r1, r2, r3, r4⟩ := H0 H
  refine ⟨a, t', r1, r2, r3, fun hv => r4 ?_⟩
  rw [valid_checks, List.forall_mem_map]
  intro c hc
  rw [C119_valid]
  exact Check.valid_same c (hf c hc).2 (c.sameActive_of_eq (eq c hc)) ((valid_checks cs).1 hv c hc)

/-- C119, soundness.  An accepted session with the columns at other places and among others says of them what the checks say. -/
theorem C119_sound {E : Env F C} {s : VSt F C B} {hs : List TPoly} (h2 : (2 : F) ≠ 0) (hn : NatsNonzero F (2 ^ N)) (hS : Sane s) (hk : KnownAll s hs)
    (hf : Step.FitsAll N (blank F hs) (justChecks (cs.map (Check.map φ)))) :
    SoundExcept (fun H => Step.verifyAll (E.withH H) (justChecks (cs.map (Check.map φ))) hs) s N (Step.soundBoundsAll N (blank F hs) (justChecks (cs.map (Check.map φ)))) fun _ P =>
      ∀ W : List (Column F), HoldsAll s P N hs W → hs.map (·.numVars) = W.map (·.nv) → ∀ c ∈ cs, c.Means N fun k => colAt W (φ k) := by
  have := C86_program_sound (E := E) h2 hn hS hk hf
  simpa only [means_checks, List.forall_mem_map, C119_means] using this

/-! ### A bag at other places, among other columns -/
namespace REx

/-- Parameters for two variables. -/
def env119 (debug : Bool) : Env G G := ⟨kzgCommit (proverParamOf (E := E101) (1 : G) (1 : G) [3, 5]), H115, debug, ZMod.val⟩

/-- The columns of C115 in another order, between a column that is not used and a larger one. -/
def cols119 : List (Mle G) := [⟨1, [7, 8]⟩, ⟨1, [0, 1]⟩, ⟨1, [1, 0]⟩, ⟨1, [1, 2]⟩, ⟨1, [1, 1]⟩, ⟨2, [5, 5, 6, 9]⟩]

/-- The places of the columns of C115. -/
def place119 : Nat → Nat
  | 0 => 3
  | 1 => 2
  | 2 => 1
  | 3 => 4
  | k => k + 1

theorem placed119 : Placed place119 (cols115 2) cols119 := by
  refine ⟨fun a b h => ?_, fun i p h => ?_⟩
  · rcases a with _ | _ | _ | _ | a <;> rcases b with _ | _ | _ | _ | b <;> simp [place119] at h ⊢ <;> omega
  · rcases i with _ | _ | _ | _ | i
    all_goals simp [cols115] at h
    all_goals subst h; rfl

def checks119 : List (Check Nat) := [.sort (0, 1) (2, 3), .noZeros (0, 1)]

/-- The hypotheses of the theorems are met. -/
theorem accepted119 : SurelyAccepted (E := E101) (env119 true) (1 : G) (1 : G) [3, 5] 4 (fun V => Step.proveAll V (justChecks (checks119.map (Check.map place119))) (startHandles cols119))
    (fun V => Step.verifyAll V (justChecks (checks119.map (Check.map place119))) (startHandles cols119)) cols119 [0, 4, 4] (Step.ValidAll ZMod.val (startCols (cols115 2)) (justChecks checks119)) := by
  refine C119_accepted (K := E101) (V := env119 true) (γ := (1 : G)) (η := (1 : G)) (τ := [3, 5]) (d := 4) (N := 1) (cs := checks119) (cols := cols115 2) rfl (by decide)
    (fun k h1 h2 => natsNonzero k h1 (by omega)) two_ne (by simp [cols119]) placed119 (fun p hp => ?_)
    ⟨fun q hq => ?_, ⟨⟨by decide, by decide, rfl⟩, ⟨by decide, by decide, rfl⟩, trivial⟩, .inl ⟨_, .head _, rfl⟩, by decide, by decide,
      (by decide : 2 ≤ 4 + (Step.costAll (F := G) (justChecks checks119)).commits), (by decide : Step.degreeAll (F := G) (List.replicate 4 1) (justChecks checks119) ≤ 4)⟩ ⟨trivial, trivial, trivial⟩
  · simp only [cols119, List.mem_cons, List.not_mem_nil, or_false] at hp
    rcases hp with rfl | rfl | rfl | rfl | rfl | rfl <;> exact ⟨rfl, by decide⟩
  · simp only [cols115, List.mem_cons, List.not_mem_nil, or_false] at hq
    rcases hq with rfl | rfl | rfl | rfl <;> exact ⟨rfl, le_refl 1⟩

/-- A whole session. -/
def verdict119 (prog : List (Step G)) (cols : List (Mle G)) (debug : Bool) : Res Unit := do
  let r := Step.proveAll (env119 debug) prog (startHandles cols) (committed (env119 debug).commit cols)
  let _ ← r.1
  let p ← (PTracker.compile debug (kzgOf (E := E101) H115 (1 : G) (1 : G) [3, 5]) H115 r.2).1
  let vs ← runVOps debug H115 VState.init (.setProof p :: List.replicate cols.length .transferNext)
  let r := Step.verifyAll (B := BatchProof E101) (env119 debug) prog (startHandles cols) vs.st
  let _ ← r.1
  (VSt.verifyClaims (kzgOf (E := E101) H115 (1 : G) (1 : G) [3, 5]) H115 r.2).1

example : verdict119 (justChecks checks119) (cols115 2) true = .ok () ∧ verdict119 (justChecks (checks119.map (Check.map place119))) cols119 true = .ok () := by decide +kernel

end REx
end Zksql
