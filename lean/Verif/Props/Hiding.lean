import Verif.Lemmas.Hiding
/-!
C98: what a compiled proof tells a reader about the committed columns.
-/
set_option linter.unusedSectionVars false
namespace Zksql
open Spec PTracker
variable {F C B : Type} [Field F]

/-- Two calls that differ at most in the entries of a committed column. -/
inductive SameCall : POp F C → POp F C → Prop
  | commit (p q : Mle F) (wp : p.WF) (wq : q.WF) (h : p.numVars = q.numVars) : SameCall (.commit p wp) (.commit q wq)
  | refl (op : POp F C) : SameCall op op

/-- C98 in full: two sessions that make the same calls, except for the entries of the committed columns, and whose claims are true give the same
proof.  (Proving uses no randomness of its own, so proofs that cannot be told apart are equal.) -/
def C98_statement : Prop :=
  ∀ (F : Type) [Field F] [DecidableEq F] (E : Curve F) (H : Oracle F E.G1) (g : E.G1) (h : E.G2) (T : List F) (debug : Bool)
    (ops ops' : List (POp F E.G1)) (ps ps' : PState F E.G1) (p p' : CompiledProof F E.G1 (BatchProof E)),
    List.Forall₂ SameCall ops ops' →
    runOps (kzgCommit (proverParamOf g h T)) H PState.init ops = .ok ps → runOps (kzgCommit (proverParamOf g h T)) H PState.init ops' = .ok ps' →
    ZerosTrue ps → SumsTrue ps → ZerosTrue ps' → SumsTrue ps' →
    (compile debug (kzgOf H g h T) H ps.tracker).1 = .ok p → (compile debug (kzgOf H g h T) H ps'.tracker).1 = .ok p' → p = p'

/-- The proof carries, under the identifier handed out for a committed column, exactly the commitment of that column: whatever came before or after,
and whatever was claimed. -/
theorem C98_reveals [DecidableEq F] {commit : Mle F → Res C} {H : Oracle F C} {pcs : Pcs F C B} {debug : Bool} {before after : List (POp F C)} {m : Mle F} {wf : m.WF}
    {s ps : PState F C} {p : CompiledProof F C B} {c : C} (h1 : runOps commit H PState.init before = .ok s)
    (h2 : runOps commit H s (.commit m wf :: after) = .ok ps) (hc : commit m = .ok c) (hp : (compile debug pcs H ps.tracker).1 = .ok p) :
    ps.handles[s.handles.length]? = some ⟨s.tracker.idCounter, m.numVars⟩ ∧ p.comms.lookup s.tracker.idCounter = some c := by
  have hI : StInv commit s := (runOps_stepOk stInv_init before h1).inv
  obtain ⟨s1, e1, e2⟩ := runOps_cons h2
  have e : TPoly.trackAndCommit commit m s.tracker = (.ok ⟨s.tracker.idCounter, m.numVars⟩, s.tracker.pushComm m c) := by
    unfold TPoly.trackAndCommit
    rw [Act.bind_ok (trackAndCommit_ok hc)]; rfl
  have e3 : s1 = ⟨s.tracker.pushComm m c, s.handles ++ [⟨s.tracker.idCounter, m.numVars⟩]⟩ := by
    simp only [POp.run, stepHandle, e] at e1
    exact (Except.ok.inj e1).symm
  subst e3
  have hI1 := (run_stepOk hI _ e1).inv
  have ho := runOps_effect hI1 after e2
  have hcm : p.comms = ps.tracker.comms := by
    rcases ec : compile debug pcs H ps.tracker with ⟨r, t'⟩
    rw [ec] at hp
    simp only at hp
    rw [hp] at ec
    exact compile_comms ec
  constructor
  · obtain ⟨hs, hh, _⟩ := (runOps_stepOk hI1 after e2).handles
    rw [hh]
    simp
  · rw [hcm]
    apply ho.1
    simp [pushComm, lookup_amInsert]

/-- So a reader who guesses a column can tell from the proof whether the guess has the commitment of the column: the proof answers every guess. -/
theorem C98_every_guess_is_answered [DecidableEq F] {commit : Mle F → Res C} {H : Oracle F C} {pcs : Pcs F C B} {debug : Bool} {before after : List (POp F C)}
    {m guess : Mle F} {wf : m.WF} {s ps : PState F C} {p : CompiledProof F C B} {c : C} (h1 : runOps commit H PState.init before = .ok s)
    (h2 : runOps commit H s (.commit m wf :: after) = .ok ps) (hc : commit m = .ok c) (hp : (compile debug pcs H ps.tracker).1 = .ok p) :
    ((∃ d, commit guess = .ok d ∧ p.comms.lookup s.tracker.idCounter = some d) ↔ commit guess = commit m) := by
  have hl := (C98_reveals h1 h2 hc hp).2
  rw [hl, hc]
  constructor
  · rintro ⟨d, e1, e2⟩
    rw [e1, Option.some.inj e2]
  · intro e
    exact ⟨c, e, rfl⟩

/-- Two sessions with the same calls up to one committed column, whose commitments differ: the proofs differ, whatever else the sessions do. -/
theorem C98_told_apart [DecidableEq F] {commit : Mle F → Res C} {H : Oracle F C} {pcs pcs' : Pcs F C B} {debug debug' : Bool} {before after after' : List (POp F C)}
    {m m' : Mle F} {wf : m.WF} {wf' : m'.WF} {s ps ps' : PState F C} {p p' : CompiledProof F C B} {c c' : C} (h1 : runOps commit H PState.init before = .ok s)
    (h2 : runOps commit H s (.commit m wf :: after) = .ok ps) (h2' : runOps commit H s (.commit m' wf' :: after') = .ok ps')
    (hc : commit m = .ok c) (hc' : commit m' = .ok c') (hp : (compile debug pcs H ps.tracker).1 = .ok p)
    (hp' : (compile debug' pcs' H ps'.tracker).1 = .ok p') (hne : c ≠ c') : p ≠ p' := by
  rintro rfl
  have a := (C98_reveals h1 h2 hc hp).2
  have b := (C98_reveals h1 h2' hc' hp').2
  rw [a] at b
  exact hne (Option.some.inj b)

/-- With the KZG scheme: a wrong guess of a column is refuted by the proof for all but at most `n |F|^(n-1)` of the `|F|^n` trapdoors. -/
theorem C98_wrong_guess_refuted [Fintype F] [DecidableEq F] {E : Curve F} [DecidableEq E.G1] (H : Oracle F E.G1) (g : E.G1) (hg : g ≠ 0) (h : E.G2) (n : Nat) (hn : 0 < n)
    {m guess : Mle F} (wf : m.WF) (hq : guess.WF) (hpn : m.numVars ≤ n) (hpq : m.numVars = guess.numVars) (hne : m ≠ guess) (debug : Bool)
    (before after : List (POp F E.G1)) (bad : Finset (Fin n → F))
    (hbad : ∀ r ∈ bad, ∃ (srs : _) (ck : _) (vk : _) (s ps : PState F E.G1) (pcs : Pcs F E.G1 (BatchProof E)) (p : CompiledProof F E.G1 (BatchProof E)) (c d : E.G1),
      genSrs E g h (List.ofFn r) = .ok srs ∧ pcsTrim srs none (some n) = .ok (ck, vk) ∧ runOps (kzgCommit ck) H PState.init before = .ok s ∧
      runOps (kzgCommit ck) H s (.commit m wf :: after) = .ok ps ∧ (compile debug pcs H ps.tracker).1 = .ok p ∧
      kzgCommit ck m = .ok c ∧ kzgCommit ck guess = .ok d ∧ p.comms.lookup s.tracker.idCounter = some d) :
    bad.card ≤ n * 1 * Fintype.card F ^ (n - 1) := by
  refine C76_binding g hg h n hn m guess wf hq hpn hpq hne bad fun r hr => ?_
  obtain ⟨srs, ck, vk, s, ps, pcs, p, c, d, a1, a2, a3, a4, a5, a6, a7, a8⟩ := hbad r hr
  have := (C98_reveals a3 a4 a6 a5).2
  rw [this] at a8
  exact ⟨srs, ck, vk, c, a1, a2, a6, by rw [a7, Option.some.inj a8]⟩

namespace HidEx

/-- The example session of C50 with another first column, for which the claims are true as well. -/
def ops' : List (POp (ZMod 7) (ZMod 7)) :=
  [.commit ⟨1, [4, 1]⟩ rfl, .commit ⟨1, [1, 2]⟩ rfl, .mul 0 1, .sumClaim 2 6, .sub 0 0, .zeroClaim 3]

theorem run : runOps (PfEx.com [2]) exBatchH PState.init PfEx.ops = .ok (PfEx.state [2] PfEx.ops) := by decide +kernel
theorem run' : runOps (PfEx.com [2]) exBatchH PState.init ops' = .ok (PfEx.state [2] ops') := by decide +kernel

theorem sums (ops : List (POp (ZMod 7) (ZMod 7)))
    (h : ∀ a ∈ (PfEx.state [2] ops).handles, ∀ c ∈ (PfEx.state [2] ops).tracker.sumClaims, c.1 = a.id →
      ((evalsOf (PfEx.state [2] ops) a).toOption.map List.sum = some c.2)) : SumsTrue (PfEx.state [2] ops) := by
  intro a ha v hv l hl
  have := h a ha (a.id, v) hv rfl
  rw [hl] at this
  exact Option.some.inj this

/-- Both sessions compile, and the proofs carry different commitments. -/
theorem proofs : ∃ p p', PfEx.proof [2] PfEx.ops = .ok p ∧ PfEx.proof [2] ops' = .ok p' ∧ p.comms.lookup 0 = some 0 ∧ p'.comms.lookup 0 = some 5 := by
  have e : ((PfEx.proof [2] PfEx.ops).toOption.map fun p => p.comms.lookup 0) = some (some 0) := by decide +kernel
  have e' : ((PfEx.proof [2] ops').toOption.map fun p => p.comms.lookup 0) = some (some 5) := by decide +kernel
  rcases h : PfEx.proof [2] PfEx.ops with f | p
  · rw [h] at e; simp [Except.toOption] at e
  rcases h' : PfEx.proof [2] ops' with f | p'
  · rw [h'] at e'; simp [Except.toOption] at e'
  rw [h] at e; rw [h'] at e'
  exact ⟨p, p', rfl, rfl, Option.some.inj e, Option.some.inj e'⟩

/-- Both proofs are accepted. -/
theorem accepted : PfEx.verdict [2] PfEx.ops = .ok () ∧ PfEx.verdict [2] ops' = .ok () := by decide +kernel

/-- The hypotheses of `C98_reveals` and `C98_told_apart` hold of the two sessions, after no calls. -/
example : runOps (PfEx.com [2]) exBatchH PState.init [] = .ok PState.init ∧
    (∃ ps, runOps (PfEx.com [2]) exBatchH PState.init PfEx.ops = .ok ps) ∧ (∃ ps, runOps (PfEx.com [2]) exBatchH PState.init ops' = .ok ps) ∧
    PfEx.com [2] ⟨1, [3, 5]⟩ = .ok 0 ∧ PfEx.com [2] ⟨1, [4, 1]⟩ = .ok 5 :=
  ⟨rfl, ⟨_, run⟩, ⟨_, run'⟩, by decide +kernel, by decide +kernel⟩

end HidEx

/-- C98 fails: two sessions about different columns, both with true claims and both accepted, have different proofs. -/
theorem C98_violated : ¬ C98_statement := by
  intro hall
  obtain ⟨p, p', e, e', c, c'⟩ := HidEx.proofs
  have := hall (ZMod 7) PfEx.E7 exBatchH (1 : ZMod 7) (1 : ZMod 7) [2] true PfEx.ops HidEx.ops' _ _ p p'
    (.cons (.commit _ _ _ _ rfl) (.cons (.refl _) (.cons (.refl _) (.cons (.refl _) (.cons (.refl _) (.cons (.refl _) .nil)))))) HidEx.run HidEx.run'
    (PfEx.zeros _ _ (by decide +kernel)) (HidEx.sums _ (by decide +kernel)) (PfEx.zeros _ _ (by decide +kernel)) (HidEx.sums _ (by decide +kernel)) e e'
  rw [this, c'] at c
  revert c
  decide

end Zksql
