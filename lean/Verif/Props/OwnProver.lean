import Verif.Lemmas.OwnProver
import Verif.Props.ProgramSound
/-!
C109: the library's own prover cannot make a false statement pass.
-/
set_option linter.unusedSectionVars false
namespace Zksql
open Spec
variable {F C B : Type} [Field F] [DecidableEq F]
variable {V : Env F C} {N n d : Nat} {commit : Mle F → Res C} {prog : List (Step F)} {cols : List (Mle F)}

/-- C109.  If a polynomial the prover has claimed to vanish does not, then `compile_proof` refuses in a debug build and no verifier in step with the prover accepts its proof in a release build, except for one
value of each challenge that folds the claims.  Nothing is assumed of the commitment scheme. -/
theorem C109_false_zeros_refused (pcs : Oracle F C → Pcs F C B) (hd : 1 ≤ d) (hchar : NatsNonzero F (d + 1)) : FalseZerosRefused commit pcs n d := false_zeros_refused pcs hd hchar

theorem start_forall₂ {R : TPoly → Column F → Prop} (h : ∀ i p, cols[i]? = some p → R ⟨i, p.numVars⟩ ⟨p.numVars, p.tbl⟩) : List.Forall₂ R (startHandles cols) (startCols cols) := by
  unfold startHandles startCols
  refine List.forall₂_iff_get.2 ⟨by simp, fun i h1 h2 => ?_⟩
  have hi : i < cols.length := by simpa using h1
  simp only [List.get_eq_getElem, List.getElem_mapIdx, List.getElem_map]
  exact h i _ (List.getElem?_eq_getElem hi)

theorem start_sizes : (startHandles cols).map (·.numVars) = (startCols cols).map (·.nv) := by
  unfold startHandles startCols
  apply List.ext_getElem <;> simp

theorem start_sized : Sized (startHandles cols) (startCols cols) := by
  refine ⟨by simp [startHandles, startCols], fun i => ?_⟩
  have h : ((startHandles cols).map (·.numVars)).getD i 0 = ((startCols cols).map (·.nv)).getD i 0 := by rw [start_sizes]
  have e1 := List.getD_map (f := fun a : TPoly => a.numVars) (l := startHandles cols) (n := i) (d := ⟨0, 0⟩)
  have e2 := List.getD_map (f := fun a : Column F => a.nv) (l := startCols cols) (n := i) (d := ⟨0, 0⟩)
  exact e1.symm.trans (h.trans e2)

/-- C109 for programs: whatever the data, if the prover's own code makes a proof and the verifier accepts it, every check of the program has established what it is meant to establish. -/
theorem C109_program (pcs : Oracle F C → Pcs F C B) (hd : 1 ≤ d) (hchar : NatsNonzero F (d + 1)) (h2 : (2 : F) ≠ 0) (hn : NatsNonzero F (2 ^ N)) (hC : CanCommit V.commit N)
    (hcols : ∀ p ∈ cols, p.WF ∧ p.numVars ≤ N) (hne : cols ≠ []) (hf : Step.FitsAll N (startCols cols) prog) (hR : Step.RunsAll V.debug (startCols cols) prog)
    (hX : Step.ExactAll N (startCols cols) prog) :
    OwnProverSound V pcs N n d (fun V => Step.proveAll V prog (startHandles cols)) (fun V => Step.verifyAll V prog (startHandles cols)) cols
      (Step.soundBoundsAll N (startCols cols) prog) fun p P => Step.MeansAll p P N (startCols cols) prog := by
  have hi0 : (PTracker.new : PTracker F C).Inv (commR V.commit) := (stInv_init (commit := V.commit)).inv
  have base := fun P H => start_run (B := B) (E := V) (P := P) V.debug H hC cols hcols (Γ := Facts.none) hi0
  rw [← committed_eq] at base
  set t := committed V.commit cols with ht
  obtain ⟨i1, i2, i3, i4, i5, i6, i7, -⟩ := base (fun _ _ => 0) fun _ _ => 0
  have hr : Spec.Ready V.commit t := ⟨i1, i2 (.inl hne)⟩
  have hid : (PTracker.new : PTracker F C).idCounter = 0 := rfl
  have hs0 : SumsTrueP t := fun c hc => by rw [i4] at hc; exact absurd hc (by simp [PTracker.new])
  have hh : HoldsAllP t (startHandles cols) (startCols cols) := start_forall₂ fun i p hip => by
    have := (i7 i p hip).holdsP hr
    rw [hid, Nat.zero_add] at this
    exact ⟨rfl, this⟩
  have mem : ∀ i p, cols[i]? = some p → colFacts Facts.none (PTracker.new : PTracker F C).idCounter cols i p.numVars p.tbl := fun i p hip => by
    have := colFacts_mem (PTracker.new : PTracker F C).idCounter cols Facts.none hip
    rwa [hid, Nat.zero_add, ← hid] at this
  -- the verifier after receiving the columns
  have start : ∀ (H : Oracle F C) (pf : CompiledProof F C B), Carries pf t →
      ∃ vs : VState F C B, runVOps V.debug H VState.init (.setProof pf :: List.replicate cols.length .transferNext) = .ok vs ∧ Sane vs.st ∧ Together t vs.st ∧ vs.st.own.proof = pf ∧
        KnownAll vs.st (startHandles cols) ∧ vs.st = startV V.commit cols (VState.withProof pf : VState F C B).st ∧
        ∀ P, OT P N t → HoldsAll vs.st P N (startHandles cols) (startCols cols) ∧ ClaimsTrue P N vs.st := by
    intro H pf hpf
    have hm0 : Match Facts.none (PTracker.new : PTracker F C) (VState.withProof pf : VState F C B).st :=
      ⟨VReachable.sane (debug := true) (H := fun _ _ => 0) ⟨[.setProof pf], rfl⟩, ⟨rfl, rfl, rfl, rfl, rfl, fun _ h => by simp [VState.withProof, VSt.new] at h⟩, fun _ _ _ h => h.elim⟩
    obtain ⟨-, -, -, -, -, -, -, i8⟩ := base (fun _ _ => 0) H
    obtain ⟨vs, j1, j2, j3, -, j5⟩ := i8 (VState.withProof pf) hm0 hpf
    refine ⟨vs, j1, j2.sane, j2.tog, j3, fun a ha => ?_, j5, fun P hO => ?_⟩
    · unfold startHandles at ha
      obtain ⟨i, hi, rfl⟩ := List.mem_mapIdx.1 ha
      exact j2.known _ _ _ (mem i _ (List.getElem?_eq_getElem hi))
    · obtain ⟨-, -, -, -, -, -, -, i8'⟩ := base P H
      obtain ⟨vs', j1', -, -, j4', -⟩ := i8' (VState.withProof pf) hm0 hpf
      obtain rfl : vs = vs' := Except.ok.inj (j1.symm.trans j1')
      have tr := j4' hO ⟨trivial, fun _ _ _ h => h.elim, fun _ h => by simp [VState.withProof, VSt.new] at h, fun _ h => by simp [VState.withProof, VSt.new] at h⟩
      exact ⟨start_forall₂ fun i p hip => tr.holds _ _ _ (mem i p hip), tr.claims⟩
  have back : ∀ pf : CompiledProof F C B, (∀ id c, t.comms.lookup id = some c → pf.comms.lookup id = some c) → Carries pf t := fun pf h => ⟨h, fun e he => by
    rw [i4] at he
    exact absurd he (by simp [PTracker.new])⟩
  -- the verifier for which the exceptional challenges are chosen
  let pf0 : CompiledProof F C B := { (CompiledProof.default : CompiledProof F C B) with comms := t.comms }
  obtain ⟨vs0, -, sane0, tog0, -, known0, e0, -⟩ := start (fun _ _ => 0) pf0 (back pf0 fun _ _ h => h)
  obtain ⟨bad, hbad⟩ := ((program_soundF (E := V) h2 hn sane0 known0 start_sized hf).mono (C2 := fun pf P => HoldsAll vs0.st P N (startHandles cols) (startCols cols) →
    Step.MeansAll pf P N (startCols cols) prog) sane0 fun _ _ h hW => h _ (hW.allV start_sizes)).except sane0
  refine ⟨bad, ownBad, ownBad_card, fun H => ?_⟩
  have run := fun P => program_gf (B := B) (E := V) (P := P) (N := N) (Sz := True) (Φ := False) (f := fun x _ => Pure.pure x) (g := fun x _ _ => Pure.pure x) (b2 := [])
    h2 hC hr (hh.allOk hr) hf hR (fun _ => hX) False.elim fun hs' t1 Γ1 x1 _ _ => GF.pure (b := fun _ => hs') x1.ready
  simp only [Act.bind_pure', List.append_nil] at run
  obtain ⟨_, run0⟩ := run fun _ _ => 0
  obtain ⟨a, t', h1, x1, -, -, -, r5⟩ := run0 H
  have hz : ∀ c ∈ t'.zeroClaims, ∃ nv, t'.HasNv c nv := fun c hc => (x1.known c hc).elim (fun h => by rw [i5] at h; exact absurd h (by simp [PTracker.new])) id
  refine ⟨a, t', h1, fun hk => ?_⟩
  obtain ⟨c1, c2, c3⟩ := own_C (pcs H) H x1.ready hk hd hchar (x1.sumsOk hs0) hz
  refine ⟨c1, fun debug p hp vs b s' hvs hv hok => ?_⟩
  obtain ⟨hcar, htrue⟩ := c2 debug p hp
  obtain ⟨vs1, e1, sane, tog, hpf, known, e2, hold⟩ := start H p (hcar.back x1)
  obtain rfl : vs1 = vs := Except.ok.inj (e1.symm.trans hvs)
  have hvs' : vs1.st = withProof vs0.st p := by
    rw [e0, e2, ← startV_withProof]
    rfl
  have hev : newChallenges vs1.st s' = newChallenges vs0.st s' := by rw [hvs']; rfl
  have hlab : vs1.st.own.transcript.label = vs0.st.own.transcript.label := by rw [hvs']; rfl
  obtain ⟨q1, q2, q3⟩ := hbad p H b s' (hvs' ▸ hv)
  have hdr : newChallenges vs1.st s' = drawn t t' := by
    rcases r5 vs1.st ⟨sane, tog, known_ofCols hh.length_eq known⟩ (by rw [hpf]; exact hcar) with ⟨b', s'', k1, k2, -⟩ | ⟨s'', k1, -⟩
    · obtain ⟨-, rfl⟩ := Prod.mk.inj (hv.symm.trans k1)
      unfold newChallenges drawn
      rw [tog.transcript, k2.tog.transcript]
    · cases (Prod.mk.inj (hv.symm.trans k1)).1
  rw [hev, hlab]
  refine ⟨hev ▸ hdr, q1, q2, fun P hO hno1 hno2 => ?_⟩
  have hZ : ∀ s : VSt F C B, Sane s → Together t' s → s.own.proof = p → (VSt.verifyClaims (pcs H) H s).1 = .ok () → ZT t' := by
    intro s a1 a2 a3 a4
    by_contra hnz
    exact (c3 hnz hno2).2 debug p hp s a1 a2 a3 a4
  obtain ⟨_, runP⟩ := run P
  obtain ⟨a', t'', h1', -, -, -, -, h5⟩ := runP H
  obtain ⟨-, rfl⟩ := Prod.mk.inj (h1.symm.trans h1')
  obtain ⟨w1, w2⟩ := hold P (OT.back (E := V) hO x1)
  rcases h5 vs1.st ⟨sane, tog, known_ofCols hh.length_eq known⟩ (by rw [hpf]; exact hcar) with ⟨b', s'', k1, k2, k3, k4⟩ | ⟨s'', k1, -⟩
  · obtain ⟨-, rfl⟩ := Prod.mk.inj (hv.symm.trans k1)
    have hzt := hZ s' k2.sane k2.tog (k3.proof.trans hpf) hok
    refine q3 P (k4 ⟨trivial, holds_ofCols w1, w2⟩ (by rw [hpf]; exact htrue.ts) ⟨.inr hzt, hO⟩) hno1 ?_
    rw [hvs'] at w1
    exact w1
  · cases (Prod.mk.inj (hv.symm.trans k1)).1

/-! ### A false program -/
namespace PfEx

/-- The columns [1, 2] and [1, 1] (of `cols84`) are both claimed to be selectors. -/
def prog109 : List (Step (ZMod 7)) := [.check (.selector 0), .check (.selector 1)]

/-- The prover's run, for given challenges. -/
def prover109 (H : Oracle (ZMod 7) (ZMod 7)) : Res (List TPoly) × PTracker (ZMod 7) (ZMod 7) :=
  Step.proveAll (env84.withH H) prog109 (startHandles cols84) (committed env84.commit cols84)

/-- The proof, in a debug build or a release build. -/
def proof109 (debug : Bool) (H : Oracle (ZMod 7) (ZMod 7)) : Res (CompiledProof (ZMod 7) (ZMod 7) (BatchProof E7)) :=
  (PTracker.compile debug (kzgOf (E := E7) H (1 : ZMod 7) (1 : ZMod 7) [3]) H (prover109 H).2).1

/-- The verdict on the proof of the release build. -/
def verdict109 (H : Oracle (ZMod 7) (ZMod 7)) : Res Unit := do
  let p ← proof109 false H
  let vs ← runVOps true H VState.init (.setProof p :: List.replicate 3 .transferNext)
  let r := Step.verifyAll (B := BatchProof E7) (env84.withH H) prog109 (startHandles cols84) vs.st
  let _ ← r.1
  (VSt.verifyClaims (kzgOf (E := E7) H (1 : ZMod 7) (1 : ZMod 7) [3]) H r.2).1

/-- Zero for the challenges that combine the sums, five otherwise. -/
def zero109 : Oracle (ZMod 7) (ZMod 7) := fun _ h => if h.getLast? = some (.squeeze "sumcheck challenge") then 0 else 5

/-- The prover's side runs and claims two polynomials to vanish; the debug build refuses to make a proof; the release build makes one, and the verifier rejects it. -/
example : (prover109 H84).1.toOption.isSome ∧ (prover109 H84).2.zeroClaims = [6, 10] ∧ (proof109 true H84).toOption.isSome = false ∧ (proof109 false H84).toOption.isSome ∧
    verdict109 H84 = .error (.err .invalidVerifier) := by decide +kernel

/-- With an exceptional challenge the false proof is accepted, so exceptions cannot be left out. -/
example : verdict109 zero109 = .ok () ∧ (proof109 true zero109).toOption.isSome := by decide +kernel

/-- The statement for this program. -/
example (n : Nat) (pcs : Oracle (ZMod 7) (ZMod 7) → Pcs (ZMod 7) (ZMod 7) (BatchProof E7)) :
    OwnProverSound env84 pcs 1 n 3 (fun V => Step.proveAll V prog109 (startHandles cols84)) (fun V => Step.verifyAll V prog109 (startHandles cols84)) cols84
      (Step.soundBoundsAll 1 (startCols cols84) prog109) fun p P => Step.MeansAll p P 1 (startCols cols84) prog109 :=
  C109_program pcs (by decide) nats4 (by decide) (fun k h1 h2 => nats4 k h1 (by omega)) (kzg_canCommit (E := E7) (g := (1 : ZMod 7)) (h := (1 : ZMod 7)) (T := [3]) (by decide)) (by decide) (by decide) (by
    refine ⟨⟨?_, ?_, trivial⟩, ⟨?_, ?_, trivial⟩, trivial⟩ <;> decide) ⟨trivial, trivial, trivial⟩ ⟨trivial, trivial, trivial⟩

/-- What it would say of the columns is false. -/
example (p : CompiledProof (ZMod 7) (ZMod 7) (BatchProof E7)) (P : ZMod 7 → List (ZMod 7) → ZMod 7) : ¬Step.MeansAll p P 1 (startCols cols84) prog109 := by
  rintro ⟨h, -⟩
  have := h 1 (by decide)
  revert this
  decide +kernel

theorem prover109_fits : (∀ e ∈ (prover109 H84).2.mats, e.2.mle.numVars ≤ 1) ∧ (∃ e ∈ (prover109 H84).2.mats, e.2.mle.numVars = 1) ∧ 2 ≤ (prover109 H84).2.comms.length ∧
    ∀ e ∈ (prover109 H84).2.virts, ∀ q ∈ e.2, q.2.length ≤ 3 := by decide +kernel

/-- From the state the prover ends in a proof can be compiled. -/
example : Compilable (prover109 H84).2 ([3] : List (ZMod 7)).length 3 1 := by
  obtain ⟨h1, h2, h3, h4⟩ := prover109_fits
  refine ⟨h1, h2, by decide, le_rfl, h3, fun id _ v hv q hq => ?_⟩
  have hm : (id, v) ∈ (prover109 H84).2.virts := by
    obtain ⟨l1, l2, e, _⟩ := List.lookup_eq_some_iff.1 hv
    rw [e]; simp
  exact h4 (id, v) hm q hq

end PfEx

namespace PfEx

/-- The polynomials behind the three commitments 4, 1 and 6. -/
def poly109 : ZMod 7 → List (ZMod 7) → ZMod 7 := fun c x => let e := x.headD 0; if c = 4 then 1 + e else if c = 1 then 1 else 2 - e

theorem poly109_all : ∀ e ∈ (prover109 H84).2.comms, ∀ m ∈ (prover109 H84).2.mats, m.1 = e.1 → ∀ b < 2 ^ 1, poly109 e.2 (boolPt 1 b) = m.2.mle.tbl (b % 2 ^ m.2.mle.numVars) := by
  decide +kernel

/-- They open what the prover has committed to. -/
example : OpensRun poly109 1 (prover109 H84).2 := by
  intro id c a hc ha _ b hb
  obtain ⟨l1, l2, e1, -⟩ := List.lookup_eq_some_iff.1 hc
  obtain ⟨k1, k2, e2, -⟩ := List.lookup_eq_some_iff.1 ha
  exact poly109_all (id, c) (by rw [e1]; simp) (id, a) (by rw [e2]; simp) rfl b hb

end PfEx

end Zksql
