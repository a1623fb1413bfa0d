import Verif.Lemmas.Session
import Verif.Props.After
/-!
C100: sessions with several proofs.
-/
set_option linter.unusedSectionVars false
namespace Zksql
open Spec PTracker

/-- C100 in full: any number of honest rounds, with tables of any sizes within the parameters, are accepted one after the other. -/
def C100_statement : Prop :=
  ∀ (F : Type) [Field F] [DecidableEq F] (E : Curve F) (H : Oracle F E.G1) (g : E.G1) (h : E.G2) (T : List F) (debug : Bool) (d : Nat) (pub : Mle F → List F → Res F)
    (rounds : List (List (POp F E.G1))), 1 ≤ d → NatsNonzero F (d + 1) → HonestRounds (fun ps => Sized ps T.length) debug H g h T d PState.init rounds →
    ∃ ps vs, session debug (kzgCommit (proverParamOf g h T)) (kzgOf H g h T) H pub PState.init VState.init rounds = .ok (ps, vs)

/-- C100, partial: any number of honest rounds in which all tables have the same number of variables are accepted one after the other, and both trackers are level at the end.
Missing: rounds with tables of different sizes (`C100_violated`). -/
theorem C100_session_partial {F : Type} [Field F] [DecidableEq F] {E : Curve F} {H : Oracle F E.G1} {g : E.G1} {h : E.G2} {T : List F} (debug : Bool) {d N : Nat}
    (pub : Mle F → List F → Res F) (rounds : List (List (POp F E.G1))) (hN : N ≠ 0) (hNT : N ≤ T.length) (hd : 1 ≤ d) (hchar : NatsNonzero F (d + 1))
    (hh : HonestRounds (OneSize N) debug H g h T d PState.init rounds) :
    ∃ ps vs, session debug (kzgCommit (proverParamOf g h T)) (kzgOf H g h T) H pub PState.init VState.init rounds = .ok (ps, vs) ∧ Level ps.tracker vs.st := by
  obtain ⟨ps, vs, e, S⟩ := session_accepted (pub := pub) debug rounds settled_init hN hNT hd hchar hh
  exact ⟨ps, vs, e, S.level⟩

/-! ### Examples -/
namespace SesEx
open PfEx

/-- The challenges of a proof are not interpolation nodes. -/
def avoids (pt : List (ZMod 7)) (d : Nat) : Bool := pt.all fun c => (List.range (d + 1)).all fun i => decide (c ≠ (i : ZMod 7))

theorem avoids_ok {pt : List (ZMod 7)} {d : Nat} (h : avoids pt d = true) : Avoids pt d := by
  intro c hc i hi
  have := List.all_eq_true.1 (List.all_eq_true.1 h c hc) i (List.mem_range.2 (by omega))
  simpa using this

/-- Commitments fit. -/
def fit (n : Nat) : POp (ZMod 7) (ZMod 7) → Bool
  | .commit p _ => decide (p.numVars ≤ n)
  | _ => true

/-- Claims have degree at most `d`. -/
def low (d : Nat) (ps : PState (ZMod 7) (ZMod 7)) : Bool :=
  (ps.tracker.zeroClaims ++ ps.tracker.sumClaims.map (·.1)).all fun id => ((ps.tracker.virts.lookup id).getD []).all fun q => decide (q.2.length ≤ d)

/-- Zero claims are true. -/
def vanish (ps : PState (ZMod 7) (ZMod 7)) : Bool :=
  ps.handles.all fun a => !ps.tracker.zeroClaims.contains a.id || ((evalsOf ps a).toOption.getD []).all fun y => decide (y = 0)

/-- Runs a session and checks that it is honest. -/
def honest (sz : PState (ZMod 7) (ZMod 7) → Bool) (T : List (ZMod 7)) (d : Nat) : PState (ZMod 7) (ZMod 7) → List (List (POp (ZMod 7) (ZMod 7))) → Bool
  | _, [] => true
  | ps, ops :: rest =>
    ops.all (fit T.length) &&
    match runOps (com T) exBatchH ps ops with
    | .error _ => false
    | .ok ps' => sz ps' && decide (2 ≤ ps'.tracker.comms.length) && low d ps' && vanish ps' &&
      match compile true (pcs T) exBatchH ps'.tracker with
      | (.ok p, t) => avoids p.scProof.point p.scMaxDegree && p.pcsProof.all (fun bp => avoids bp.sumCheckProof.point 2) && honest sz T d ⟨t, ps'.handles⟩ rest
      | (.error _, _) => true

theorem honest_ok {sz : PState (ZMod 7) (ZMod 7) → Bool} {Sizes : PState (ZMod 7) (ZMod 7) → Prop} (hsz : ∀ ps, sz ps = true → Sizes ps) (T : List (ZMod 7)) (d : Nat)
    (rounds : List (List (POp (ZMod 7) (ZMod 7)))) (ps : PState (ZMod 7) (ZMod 7)) (h : honest sz T d ps rounds = true) :
    HonestRounds (E := E7) Sizes true exBatchH (1 : ZMod 7) (1 : ZMod 7) T d ps rounds := by
  induction rounds generalizing ps with
  | nil => trivial
  | cons ops rest ih =>
    unfold honest at h
    obtain ⟨h1, h⟩ := Bool.and_eq_true_iff.1 h
    refine ⟨commits _ _ fun p wf hp => ?_, ?_⟩
    · simpa [fit] using List.all_eq_true.1 h1 _ hp
    rcases e : runOps (com T) exBatchH ps ops with x | ps'
    · rw [e] at h
      simp at h
    rw [e] at h
    simp only [Bool.and_eq_true] at h
    obtain ⟨⟨⟨⟨h2, h3⟩, h4⟩, h5⟩, h6⟩ := h
    refine ⟨ps', e, hsz _ h2, by simpa using h3, ?_, ?_, fun p t hc => ?_⟩
    · intro id hid v hv q hq
      have := List.all_eq_true.1 h4 id (by simpa using hid)
      rw [hv] at this
      simpa using List.all_eq_true.1 this q hq
    · intro a ha hz l hl y hy
      have := List.all_eq_true.1 h5 a ha
      rw [hl] at this
      simp only [Bool.or_eq_true, Bool.not_eq_true', List.contains_eq_mem, decide_eq_false_iff_not] at this
      rcases this with this | this
      · exact absurd hz this
      · simpa using List.all_eq_true.1 this y hy
    · have hc' : compile true (pcs T) exBatchH ps'.tracker = (.ok p, t) := hc
      rw [hc'] at h6
      simp only [Bool.and_eq_true] at h6
      exact ⟨avoids_ok h6.1.1, fun bp hb => avoids_ok (List.all_eq_true.1 h6.1.2 bp hb), ih _ h6.2⟩

/-- The session run by both sides. -/
def run (T : List (ZMod 7)) (rounds : List (List (POp (ZMod 7) (ZMod 7)))) : Res (PState (ZMod 7) (ZMod 7) × VState (ZMod 7) (ZMod 7) (BatchProof E7)) :=
  session true (com T) (pcs T) exBatchH JEx.closed PState.init VState.init rounds

/-- All tables have one variable. -/
def one (ps : PState (ZMod 7) (ZMod 7)) : Bool := ps.tracker.mats.all fun e => decide (e.2.mle.numVars = 1)

/-- Two columns with a claimed sum and a claimed zero; a further claim about the first; a third column and a claim about it. -/
def rounds : List (List (POp (ZMod 7) (ZMod 7))) := [ops, [.sumClaim 0 1], [.commit ⟨1, [2, 6]⟩ rfl, .mul 0 4, .sumClaim 5 1]]

/-- Tables fit and have a variable. -/
def sized (n : Nat) (ps : PState (ZMod 7) (ZMod 7)) : Bool :=
  ps.tracker.mats.all (fun e => decide (e.2.mle.numVars ≤ n)) && ps.tracker.mats.any fun e => decide (e.2.mle.numVars ≠ 0)

/-- The second round adds a larger column. -/
def larger : List (List (POp (ZMod 7) (ZMod 7))) := [ops, [.commit ⟨2, [1, 2, 4, 6]⟩ rfl]]

end SesEx
/-- C100 does not hold in full: the second round commits to a column with two variables.  The sums the verifier read from the first proof are those of columns with one variable,
the prover's second proof is for the doubled sums, and the verifier rejects it. -/
theorem C100_violated : ¬ C100_statement := by
  intro hs
  obtain ⟨ps, vs, e⟩ := hs (ZMod 7) PfEx.E7 exBatchH (1 : ZMod 7) (1 : ZMod 7) [3, 5] true 2 JEx.closed SesEx.larger (by decide) PfEx.nats
    (SesEx.honest_ok (sz := SesEx.sized 2) (fun ps h => by
      obtain ⟨a, b⟩ := Bool.and_eq_true_iff.1 h
      refine ⟨fun e he => by simpa using List.all_eq_true.1 a e he, ?_⟩
      obtain ⟨e, he, hn⟩ := List.any_eq_true.1 b
      exact ⟨e, he, by simpa using hn⟩) _ _ _ _ (by decide +kernel))
  have : (SesEx.run [3, 5] SesEx.larger).toOption.isSome = false := by decide +kernel
  have e' : SesEx.run [3, 5] SesEx.larger = .ok (ps, vs) := e
  rw [e'] at this
  simp [Except.toOption] at this

/-- The first round alone is accepted. -/
example : (SesEx.run [3, 5] (SesEx.larger.take 1)).toOption.isSome = true := by decide +kernel

/-- Concrete instance of C100: the hypotheses hold of a session of three rounds. -/
theorem SesEx.rounds_honest : HonestRounds (E := PfEx.E7) (OneSize 1) true exBatchH (1 : ZMod 7) (1 : ZMod 7) [3] 2 PState.init SesEx.rounds :=
  SesEx.honest_ok (sz := SesEx.one) (fun ps h e he => by simpa using List.all_eq_true.1 h e he) _ _ _ _ (by decide +kernel)

example : ∃ ps vs, SesEx.run [3] SesEx.rounds = .ok (ps, vs) ∧ Level ps.tracker vs.st :=
  C100_session_partial (E := PfEx.E7) true JEx.closed SesEx.rounds (by decide) (by decide) (by decide) PfEx.nats SesEx.rounds_honest

/-- All three proofs together leave these claims with both sides. -/
example : (SesEx.run [3] SesEx.rounds).toOption.map (fun e => (e.1.tracker.sumClaims, e.2.st.own.sumClaims)) =
    some ([(2, 6), (8, 0), (0, 1), (18, 0), (29, 1), (34, 0)], [(2, 6), (8, 0), (0, 1), (18, 0), (29, 1), (34, 0)]) := by decide +kernel
/-! ### C101 -/

/-- C101 in full: after any history, compiling a proof does not change the table a handle reads. -/
def C101_statement : Prop :=
  ∀ (F : Type) [Field F] [DecidableEq F] (E : Curve F) (H : Oracle F E.G1) (g : E.G1) (h : E.G2) (T : List F) (ps : PState F E.G1) (debug : Bool)
    (p : CompiledProof F E.G1 (BatchProof E)) (t : PTracker F E.G1), Reachable (kzgCommit (proverParamOf g h T)) H ps →
    compile debug (kzgOf H g h T) H ps.tracker = (.ok p, t) → ∀ a ∈ ps.handles, evalsOf ⟨t, ps.handles⟩ a = evalsOf ps a

section
variable {F : Type} [Field F] [DecidableEq F] {E : Curve F} {H : Oracle F E.G1} {g : E.G1} {h : E.G2} {T : List F} {debug : Bool} {ps : PState F E.G1}
  {p : CompiledProof F E.G1 (BatchProof E)} {t : PTracker F E.G1}

/-- C101, any sizes: after compiling every handle reads its table repeated up to the largest size `N`. -/
theorem C101_repeated (hr : Reachable (kzgCommit (proverParamOf g h T)) H ps) (hc : compile debug (kzgOf H g h T) H ps.tracker = (.ok p, t)) :
    ∃ N, (∀ e ∈ ps.tracker.mats, e.2.mle.numVars ≤ N) ∧ (∃ e ∈ ps.tracker.mats, e.2.mle.numVars = N) ∧
      ∀ a ∈ ps.handles, a.numVars ≤ N ∧ ∃ l l', evalsOf ps a = .ok l ∧ evalsOf ⟨t, ps.handles⟩ a = .ok l' ∧ l.length = 2 ^ a.numVars ∧ l'.length = 2 ^ N ∧
        ∀ b < 2 ^ N, l'[b]? = l[b % 2 ^ a.numVars]? := by
  obtain ⟨hs, hz⟩ := claims_hasNv hr
  obtain ⟨N, h1, h2, hI, hv⟩ := compile_tables hr.inv.inv (hr.absorbed (compile_comms_ne hc)) hs hz hc
  refine ⟨N, h1, h2, fun a ha => ?_⟩
  have hk := hr.inv.known a ha
  obtain ⟨k1, k2, k3⟩ := hv _ _ hk
  refine ⟨k1, _, (List.range (2 ^ N)).map fun b => t.gval (fun p => p.tbl b) a.id, evalsOf_eq hr.inv hk, ?_, by simp, by simp, fun b hb => ?_⟩
  · show (TPoly.evaluations a t).1 = _
    unfold TPoly.evaluations
    rw [evaluations_run hI k2]
  · have : b % 2 ^ a.numVars < 2 ^ a.numVars := Nat.mod_lt _ (by positivity)
    rw [List.getElem?_map, List.getElem?_map, List.getElem?_range hb, List.getElem?_range this, Option.map_some, Option.map_some, k3 b hb]

/-- C101, partial: compiling does not change the table of a handle of the largest size.  Missing: smaller ones, whose tables are repeated (`C101_repeated`). -/
theorem C101_largest_partial (hr : Reachable (kzgCommit (proverParamOf g h T)) H ps) (hc : compile debug (kzgOf H g h T) H ps.tracker = (.ok p, t))
    {a : TPoly} (ha : a ∈ ps.handles) (hm : ∀ e ∈ ps.tracker.mats, e.2.mle.numVars ≤ a.numVars) : evalsOf ⟨t, ps.handles⟩ a = evalsOf ps a := by
  obtain ⟨N, _, ⟨e, he, hN⟩, hv⟩ := C101_repeated hr hc
  obtain ⟨k1, l, l', h1, h2, h3, h4, h5⟩ := hv a ha
  obtain rfl : a.numVars = N := le_antisymm k1 (hN ▸ hm e he)
  rw [h1, h2]
  congr 1
  refine List.ext_getElem? fun b => ?_
  by_cases hb : b < 2 ^ a.numVars
  · rw [h5 b hb, Nat.mod_eq_of_lt hb]
  · rw [List.getElem?_eq_none (by omega), List.getElem?_eq_none (by omega)]
end

/-- What the first handle reads before and after compiling, and the number of variables it reports. -/
def SesEx.reads (T : List (ZMod 7)) (ops : List (POp (ZMod 7) (ZMod 7))) (a : TPoly) : Option (List (ZMod 7)) × Option (List (ZMod 7)) :=
  let ps := PfEx.state T ops
  ((evalsOf ps a).toOption, (evalsOf ⟨(compile true (PfEx.pcs T) exBatchH ps.tracker).2, ps.handles⟩ a).toOption)

/-- Concrete instance: with columns of one and two variables the handle of the first column reads twice as many values after compiling. -/
theorem SesEx.reads_twice : SesEx.reads [3, 5] PfEx.opsMixed ⟨0, 1⟩ = (some [3, 5], some [3, 5, 3, 5]) := by decide +kernel

/-- The handle of the larger one reads what it did. -/
example : SesEx.reads [3, 5] PfEx.opsMixed ⟨1, 2⟩ = (some [1, 2, 4, 6], some [1, 2, 4, 6]) := by decide +kernel

/-- C101 does not hold in full. -/
theorem C101_violated : ¬ C101_statement := by
  intro hs
  have hrun : runOps (PfEx.com [3, 5]) exBatchH PState.init PfEx.opsMixed = .ok (PfEx.state [3, 5] PfEx.opsMixed) := by decide +kernel
  have hok : (PfEx.proof [3, 5] PfEx.opsMixed).toOption.isSome = true := by decide +kernel
  have hh : (⟨0, 1⟩ : TPoly) ∈ (PfEx.state [3, 5] PfEx.opsMixed).handles := by decide +kernel
  rcases e : PfEx.proof [3, 5] PfEx.opsMixed with x | p
  · rw [e] at hok
    simp [Except.toOption] at hok
  have hr := SesEx.reads_twice
  unfold SesEx.reads at hr
  obtain ⟨r1, r2⟩ := Prod.mk.inj hr
  unfold PfEx.proof at e
  generalize PfEx.state [3, 5] PfEx.opsMixed = ps at hrun hh e r1 r2
  obtain ⟨t, ht⟩ : ∃ t, compile true (PfEx.pcs [3, 5]) exBatchH ps.tracker = (.ok p, t) := ⟨_, Prod.ext e rfl⟩
  rw [ht] at r2
  have h1 : evalsOf ⟨t, ps.handles⟩ ⟨0, 1⟩ = evalsOf ps ⟨0, 1⟩ := hs (ZMod 7) PfEx.E7 exBatchH (1 : ZMod 7) (1 : ZMod 7) [3, 5] ps true p t ⟨_, hrun⟩ ht ⟨0, 1⟩ hh
  rw [h1, r1] at r2
  exact absurd (Option.some.inj r2) (by decide)

end Zksql
