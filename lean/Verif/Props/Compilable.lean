import Verif.Lemmas.ProgramSize
import Verif.Props.Cost
import Verif.Props.Program
/-!
C114: whether a proof can be compiled is known before anything is proved.
-/
set_option linter.unusedSectionVars false
namespace Zksql
open Spec
open PTracker (Small Got Has Dg)
open PDeg (Cols)
variable {F C B : Type} [Field F] [DecidableEq F]
variable {n d N : Nat}

theorem compilable_from {E : Env F C} {prog : List (Step F)} {hs : List TPoly} {W : List (Column F)} {L : List Nat} {Γ : List (Nat × Nat)} {t t' : PTracker F C} {a : List TPoly}
    (hn : PTracker.Numbered t) (hS : Small N t) (hz : t.zeroClaims = []) (hc : t.sumClaims = []) (hg : GivenP t) (hh : Zksql.Sized hs W) (hf : Step.FitsAll N W prog)
    (top : Got N t ∨ Step.ReachesAll N W prog) (hL : W.length = L.length) (hΓ : Has t Γ) (hcols : Cols Γ hs L) (pos : 0 < N) (room : N ≤ n)
    (two : 2 ≤ (spent t).commits + (Step.costAll prog).commits) (deg : Step.degreeAll L prog ≤ d) (run : Step.proveAll E prog hs t = (.ok a, t')) : Compilable t' n d N := by
  obtain ⟨o, dz, ds, -, -⟩ := PDeg.proveAll E Γ prog hs L W hL hf hcols t a t' hn hΓ run
  have cl : ∀ {i : Nat} {v}, Dg t' i (Step.degreeAll L prog) → t'.virts.lookup i = some v → ∀ q ∈ v, q.2.length ≤ d := fun {i v} hd hv q hq => by
    rcases hd.2 with ⟨x, hx⟩ | ⟨v', hv', h⟩
    · rw [(o.num.virts i v hv).2] at hx
      cases hx
    · obtain rfl : v' = v := Option.some.inj (hv'.symm.trans hv)
      exact (h q hq).trans deg
  refine ⟨(PFit.proveAll E prog hs W hh hf t a t' hS run).1, ?_, pos, room, ?_, fun i hi v hv => ?_⟩
  · have g : Got N t' := by
      rcases top with top | top
      · exact top.later o
      · exact PTopIn.proveAll E prog hs W hh hf top t a t' hn hS run
    obtain ⟨i, x, hx, hN⟩ := g
    exact ⟨(i, x), mem_of_lookup hx, hN⟩
  · have := congrArg Cost.commits ((CostP.proveAll E prog hs t a t' run).1 hg).2
    change t'.comms.length = (spent t).commits + (Step.costAll prog).commits at this
    omega
  · rcases hi with hi | hi
    · rcases dz i hi with h | h
      · rw [hz] at h
        cases h
      · exact cl h hv
    · obtain ⟨c, hcm, rfl⟩ := List.mem_map.1 hi
      rcases ds c hcm with h | h
      · rw [hc] at h
        cases h
      · exact cl h hv

/-- C114.  If the program, which starts with nothing, fits the parameters, then whenever the prover's side runs through, a proof can be compiled from the state it ends in: whatever the data, the commitment scheme
and the challenges. -/
theorem C114_compilable {E : Env F C} {prog : List (Step F)} {t' : PTracker F C} {a : List TPoly} (h : ProgramCompiles prog n d N) (run : Step.proveAll E prog [] PTracker.new = (.ok a, t')) :
    Compilable t' n d N :=
  compilable_from (L := []) (Γ := []) (W := []) PTracker.numbered_new (fun e he => by simp [PTracker.new] at he) rfl rfl (fun e he => by simp [PTracker.new] at he) ⟨rfl, fun _ => rfl⟩ h.fits (.inr h.top) rfl
    (fun x hx => by cases hx) ⟨rfl, fun i hi => by cases hi⟩ h.pos h.room (by simpa [spent, PTracker.new] using h.two) h.degree run

/-- What the prover's tracker contains after committing to columns. -/
theorem columns_state {commit : Mle F → Res C} : ∀ (cols : List (Mle F)) (t : PTracker F C), (∀ p ∈ cols, ∃ c, commit p = .ok c) → (∀ p ∈ cols, p.numVars ≤ N) → PTracker.Numbered t → Small N t →
    ∃ t', cols.foldl (fun t p => (TPoly.trackAndCommit commit p t).2) t = t' ∧ PTracker.Onward t t' ∧ Small N t' ∧ t'.zeroClaims = t.zeroClaims ∧ t'.sumClaims = t.sumClaims ∧
      ∀ i p, cols[i]? = some p → ∃ x, t'.mats.lookup (t.idCounter + i) = some x ∧ x.mle.numVars = p.numVars
  | [], t, _, _, hn, hs => ⟨t, rfl, .refl hn, hs, rfl, rfl, fun i p h => by simp at h⟩
  | p :: r, t, hc, hN, hn, hs => by
    obtain ⟨c, hp⟩ := hc p (.head _)
    have ha : TPoly.trackAndCommit commit p t = (.ok ⟨t.idCounter, p.numVars⟩, (TPoly.trackAndCommit commit p t).2) := by
      unfold TPoly.trackAndCommit PTracker.trackAndCommit
      rw [hp]
      rfl
    have o1 := TPoly.trackAndCommit_goes commit p t hn
    have s1 := (PFit.commit commit p (hN p (.head _)) t _ _ hs ha).1
    have m1 : ∃ x, (TPoly.trackAndCommit commit p t).2.mats.lookup t.idCounter = some x ∧ x.mle.numVars = p.numVars := by
      unfold TPoly.trackAndCommit PTracker.trackAndCommit
      rw [hp]
      exact ⟨_, (lookup_amInsert t.idCounter t.idCounter _ t.mats).trans (if_pos rfl), rfl⟩
    have q1 : (TPoly.trackAndCommit commit p t).2.idCounter = t.idCounter + 1 ∧ (TPoly.trackAndCommit commit p t).2.zeroClaims = t.zeroClaims ∧
        (TPoly.trackAndCommit commit p t).2.sumClaims = t.sumClaims := by
      unfold TPoly.trackAndCommit PTracker.trackAndCommit
      rw [hp]
      exact ⟨rfl, rfl, rfl⟩
    obtain ⟨t', e, o2, s2, z2, c2, m2⟩ := columns_state r (TPoly.trackAndCommit commit p t).2 (fun q hq => hc q (.tail _ hq)) (fun q hq => hN q (.tail _ hq)) o1.num s1
    refine ⟨t', e, o1.trans o2, s2, z2.trans q1.2.1, c2.trans q1.2.2, fun i q hq => ?_⟩
    match i with
    | 0 =>
      obtain rfl : p = q := by simpa using hq
      obtain ⟨x, hx, hv⟩ := m1
      exact ⟨x, o2.mats _ _ hx, hv⟩
    | i + 1 =>
      obtain ⟨x, hx, hv⟩ := m2 i q (by simpa using hq)
      rw [q1.1] at hx
      exact ⟨x, by rw [← hx]; congr 1; omega, hv⟩

/-- C114 for a program that starts with columns. -/
theorem C114_compilable_columns {E : Env F C} {prog : List (Step F)} {cols : List (Mle F)} {t' : PTracker F C} {a : List TPoly} (h : ProgramCompilesOn cols prog n d N)
    (hC : ∀ p ∈ cols, ∃ c, E.commit p = .ok c) (run : Step.proveAll E prog (startHandles cols) (committed E.commit cols) = (.ok a, t')) : Compilable t' n d N := by
  obtain ⟨t, e, o, s, z, c, m⟩ := columns_state (N := N) cols (PTracker.new : PTracker F C) hC (fun p hp => (h.sizes p hp).2) PTracker.numbered_new fun e he => by simp [PTracker.new] at he
  change committed E.commit cols = t at e
  obtain ⟨g1, g2⟩ := committed_spent hC
  rw [e] at g1 g2 run
  have hid : ∀ i, (PTracker.new : PTracker F C).idCounter + i = i := fun i => Nat.zero_add i
  refine compilable_from (L := List.replicate cols.length 1) (Γ := (List.range cols.length).map fun i => (i, 1)) o.num s z c g1 start_sized h.fits ?_ (by simp [startCols]) ?_ ⟨by simp [startHandles], fun i hi => ?_⟩
    h.pos h.room (by rw [g2]; exact h.two) h.degree run
  · refine h.top.imp ?_ id
    rintro ⟨p, hp, hN⟩
    obtain ⟨i, hi⟩ := List.getElem?_of_mem hp
    obtain ⟨x, hx, hv⟩ := m i p hi
    exact ⟨_, x, hx, hv.trans hN⟩
  · intro x hx
    obtain ⟨i, hi, rfl⟩ := List.mem_map.1 hx
    obtain ⟨y, hy, -⟩ := m i _ (List.getElem?_eq_getElem (List.mem_range.1 hi))
    rw [hid] at hy
    exact ⟨le_refl 1, .inl ⟨y, hy⟩⟩
  · have hi' : i < cols.length := by simpa [startHandles] using hi
    have : at' (startHandles cols) i = ⟨i, cols[i].numVars⟩ := by
      unfold at' startHandles
      rw [List.getD_eq_getElem _ _ (by simpa using hi')]
      simp
    rw [this, List.getD_replicate (h := hi')]
    exact List.mem_map.2 ⟨i, List.mem_range.2 hi', rfl⟩

/-- C114 and C85 together.  From scratch, with parameters the program fits: valid data is accepted, and nothing is assumed of the prover's state. -/
theorem C114_accepted {K : Curve F} {V : Env F K.G1} {prog : List (Step F)} {cols : List (Mle F)} {γ : K.G1} {η : K.G2} {τ : List F} (hV : V.commit = kzgCommit (proverParamOf γ η τ)) (hd : 1 ≤ d)
    (hchar : NatsNonzero F (d + 1)) (h2 : (2 : F) ≠ 0) (hne : cols ≠ []) (h : ProgramCompilesOn cols prog τ.length d N) (hn : Step.RunsAll V.debug (startCols cols) prog) :
    SurelyAccepted (E := K) V γ η τ d (fun V => Step.proveAll V prog (startHandles cols)) (fun V => Step.verifyAll V prog (startHandles cols)) cols
      (Step.boundsAll (startCols cols) prog) (Step.ValidAll V.rep (startCols cols) prog) := by
  obtain ⟨bad, H0⟩ := C85_program_from_scratch (γ := γ) (η := η) (k := d) hV hd hchar h2 h.room (fun p hp => ⟨(h.sizes p hp).1, (h.sizes p hp).2.trans h.room⟩) hne h.fits hn
  refine ⟨bad, fun H => ?_⟩
  obtain ⟨a, t', r1, r2, r3, r4⟩ := H0 H
  refine ⟨a, t', r1, r2, r3, r4 (C114_compilable_columns (E := V.withH H) h (fun p hp => ?_) r1)⟩
  exact (hV ▸ kzg_canCommit h.room : CanCommit V.commit N) p (h.sizes p hp).1 (h.sizes p hp).2

/-- C114 with C111 and C112.  The library's own prover makes a false statement pass with the probability given by the program only; nothing is assumed of the prover's state except that the commitments open to
what was committed. -/
theorem C114_own_prover [Finite F] {V : Env F C} {prog : List (Step F)} {cols : List (Mle F)} (pcs : Oracle F C → Pcs F C B) (hd : 1 ≤ d) (hchar : NatsNonzero F (d + 1)) (h2 : (2 : F) ≠ 0)
    (hn : NatsNonzero F (2 ^ N)) (hC : CanCommit V.commit N) (hne : cols ≠ []) (h : ProgramCompilesOn cols prog n d N) (hR : Step.RunsAll V.debug (startCols cols) prog)
    (hX : Step.ExactAll N (startCols cols) prog) {M : Nat} (hM : (Step.costAll prog).draws + (claimsOf prog + N + 1) ≤ M) (P : C → List F → F) :
    ChanceAtMost ((Step.soundBoundsAll N (startCols cols) prog).sum + (claimsOf prog + N + 1)) fun c : Fin M → F => ∃ t' p,
      OwnPasses V pcs (fun V => Step.proveAll V prog (startHandles cols)) (fun V => Step.verifyAll V prog (startHandles cols)) cols (dealt c) t' p ∧
      OpensRun P N t' ∧ ¬ Step.MeansAll p P N (startCols cols) prog := by
  refine (C112_own_prover (n := n) pcs hd hchar h2 hn hC h.sizes hne h.fits hR hX hM P).mono ?_
  rintro c ⟨t', p, h1, h3, h4⟩
  refine ⟨t', p, h1, ?_, h3, h4⟩
  obtain ⟨a, debug, vs, b, s', r1, -⟩ := h1
  exact C114_compilable_columns (E := V.withH (dealt c)) h (fun p hp => hC p (h.sizes p hp).1 (h.sizes p hp).2) r1

/-! ### The program of C85, and the false selectors of C109 -/
namespace PfEx

theorem fits114 : ProgramCompilesOn cols84 prog85 1 3 1 where
  sizes := by decide
  fits := fits85
  top := .inl (by decide)
  pos := by decide
  room := le_rfl
  two := by decide
  degree := by decide

/-- Valid data for this program is accepted, unconditionally. -/
theorem accepted114 : SurelyAccepted (E := E7) env84 (1 : ZMod 7) (1 : ZMod 7) [3] 3 (fun V => Step.proveAll V prog85 (startHandles cols84)) (fun V => Step.verifyAll V prog85 (startHandles cols84)) cols84
    [4] True := by
  have := C114_accepted (K := E7) (V := env84) (γ := (1 : ZMod 7)) (η := (1 : ZMod 7)) (τ := [3]) (d := 3) rfl (by decide) nats4 (by decide) (by decide) fits114 runs85
  rw [show Step.boundsAll (startCols cols84) prog85 = [4] by decide +kernel] at this
  obtain ⟨bad, h⟩ := this
  refine ⟨bad, fun H => ?_⟩
  obtain ⟨a, t', h1, h2, h3, h4⟩ := h H
  exact ⟨a, t', h1, h2, h3, fun _ => h4 valid85⟩

/-- Out of the sequences of challenges at most four in seven make the verifier accept that the columns [1, 2] and [1, 1] are selectors. -/
theorem falseSelectors114 (M : Nat) (hM : 4 ≤ M) : ChanceAtMost 4 fun c : Fin M → ZMod 7 => ∃ t' p,
    OwnPasses env84 (fun H => kzgOf (E := E7) H (1 : ZMod 7) (1 : ZMod 7) [3]) (fun V => Step.proveAll V prog109 (startHandles cols84)) (fun V => Step.verifyAll V prog109 (startHandles cols84)) cols84
      (dealt c) t' p ∧ OpensRun poly109 1 t' := by
  have := C114_own_prover (V := env84) (n := 1) (N := 1) (d := 3) (prog := prog109) (cols := cols84) (M := M) (fun H => kzgOf (E := E7) H (1 : ZMod 7) (1 : ZMod 7) [3]) (by decide) nats4 (by decide)
    (fun k h1 h2 => nats4 k h1 (by omega)) (kzg_canCommit (E := E7) (g := (1 : ZMod 7)) (h := (1 : ZMod 7)) (T := [3]) (by decide)) (by decide) ⟨by decide, (by
      refine ⟨⟨?_, ?_, trivial⟩, ⟨?_, ?_, trivial⟩, trivial⟩ <;> decide), .inl (by decide), by decide, le_rfl, by decide, by decide⟩ ⟨trivial, trivial, trivial⟩ ⟨trivial, trivial, trivial⟩ (by
      rw [show (Step.costAll prog109).draws + (claimsOf prog109 + 1 + 1) = 4 by decide]
      exact hM) poly109
  rw [show (Step.soundBoundsAll 1 (startCols cols84) prog109).sum + (claimsOf prog109 + 1 + 1) = 4 by decide +kernel] at this
  refine this.mono fun c hc => ?_
  obtain ⟨t', p, h1, h2⟩ := hc
  refine ⟨t', p, h1, h2, ?_⟩
  rintro ⟨h, -⟩
  have := h 1 (by decide)
  revert this
  decide +kernel

end PfEx

namespace GEx
open IEx

/-- The program of C86, which commits to its own columns. -/
theorem compiles114 : ProgramCompiles prog86 1 3 1 := ⟨fits86, .inl rfl, by decide, le_rfl, by decide, by decide⟩

/-- Its run succeeds, so a proof can be compiled; and the bound 3 on the degree is reached. -/
example : Compilable (Step.proveAll (env 5) prog86 [] PTracker.new).2 1 3 1 ∧ Step.degreeAll [] prog86 = 3 := by
  refine ⟨?_, by decide⟩
  have h := spent112.1
  generalize e : Step.proveAll (env 5) prog86 [] PTracker.new = r at h
  obtain ⟨r1, t'⟩ := r
  cases r1 with
  | error e => simp [Except.isOk, Except.toBool] at h
  | ok a => exact C114_compilable compiles114 e

/-- Two columns of one variable compared for disjointness: the largest table is the merged one, of two variables, so parameters for one variable are not enough. -/
example : ProgramCompiles ([.commit ⟨1, [1, 2]⟩, .commit ⟨1, [1, 1]⟩, .commit ⟨1, [3, 4]⟩, .commit ⟨2, [1, 2, 3, 0]⟩, .commit ⟨2, [1, 1, 1, 1]⟩, .check (.disjoint (0, 1) (2, 1) (3, 4))] : List (Step F7)) 2 4 2 ∧
    ¬ Step.FitsAll 1 [] ([.commit ⟨1, [1, 2]⟩, .commit ⟨1, [1, 1]⟩, .commit ⟨1, [3, 4]⟩, .check (.disjoint (0, 1) (2, 1) (0, 1))] : List (Step F7)) := by
  refine ⟨⟨⟨⟨?_, ?_⟩, ⟨?_, ?_⟩, ⟨?_, ?_⟩, ⟨?_, ?_⟩, ⟨?_, ?_⟩, ⟨?_, ?_, rfl, rfl, ?_⟩, trivial⟩, .inr (.inr (.inr (.inr (.inr (.inl rfl))))), by decide, le_rfl, by decide, by decide⟩, ?_⟩
  all_goals first | decide | skip
  rintro ⟨-, -, -, ⟨-, -, -, -, h⟩, -⟩
  revert h
  decide

end GEx

end Zksql
