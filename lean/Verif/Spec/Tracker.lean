import Verif.Model.ProverTracker
/-!
Histories of a prover tracker: what a user of the handle API can do, and what can be observed.
-/
namespace Zksql.Spec
variable {F C : Type} [Field F]

/-- One call of the handle API.  Handles are named by their position in the list of handles returned so far, so only handles that the
tracker handed out are used. -/
inductive POp (F C : Type) [Field F] where
  | track (p : Mle F) (wf : p.WF)
  | commit (p : Mle F) (wf : p.WF)
  | add (i j : Nat)
  | sub (i j : Nat)
  | mul (i j : Nat)
  | addScalar (i : Nat) (c : F)
  | mulScalar (i : Nat) (c : F)
  | incFront (i k : Nat)
  | incBack (i k : Nat)
  | evaluations (i : Nat)
  | challenge (label : String)
  | append (label : String) (d : TItem F C)
  | sumClaim (i : Nat) (v : F)
  | zeroClaim (i : Nat)

/-- A tracker and the handles returned so far. -/
structure PState (F C : Type) where
  tracker : PTracker F C
  handles : List TPoly
  deriving DecidableEq, Repr

/-- A call that returns a handle: a panic ends the program, a returned error does not. -/
def stepHandle (st : PState F C) (a : Act (PTracker F C) TPoly) : Res (PState F C) :=
  match a st.tracker with
  | (.ok h, t) => .ok ⟨t, st.handles ++ [h]⟩
  | (.error (.err _), t) => .ok ⟨t, st.handles⟩
  | (.error .panic, _) => .error .panic

/-- A call that returns anything else. -/
def stepOther {α : Type} (st : PState F C) (a : Act (PTracker F C) α) : Res (PState F C) :=
  match a st.tracker with
  | (.ok _, t) => .ok ⟨t, st.handles⟩
  | (.error (.err _), t) => .ok ⟨t, st.handles⟩
  | (.error .panic, _) => .error .panic

/-- Run one call. -/
def POp.run (commit : Mle F → Res C) (H : Oracle F C) (st : PState F C) : POp F C → Res (PState F C)
  | .track p _ => stepHandle st (TPoly.trackMat p)
  | .commit p _ => stepHandle st (TPoly.trackAndCommit commit p)
  | .add i j => do
    let a ← idx st.handles i
    let b ← idx st.handles j
    stepHandle st (a.add b)
  | .sub i j => do
    let a ← idx st.handles i
    let b ← idx st.handles j
    stepHandle st (a.sub b)
  | .mul i j => do
    let a ← idx st.handles i
    let b ← idx st.handles j
    stepHandle st (a.mul b)
  | .addScalar i c => do
    let a ← idx st.handles i
    stepHandle st (a.addScalar c)
  | .mulScalar i c => do
    let a ← idx st.handles i
    stepHandle st (a.mulScalar c)
  | .incFront i k => do
    let a ← idx st.handles i
    stepHandle st (a.incFront k)
  | .incBack i k => do
    let a ← idx st.handles i
    stepHandle st (a.incBack k)
  | .evaluations i => do
    let a ← idx st.handles i
    stepOther st a.evaluations
  | .challenge label => stepOther st (PTracker.challenge H label)
  | .append label d => stepOther st (PTracker.append label d)
  | .sumClaim i v => do
    let a ← idx st.handles i
    stepOther st (PTracker.addSumClaim a.id v)
  | .zeroClaim i => do
    let a ← idx st.handles i
    stepOther st (PTracker.addZeroClaim a.id)

/-- Run a history. -/
def runOps (commit : Mle F → Res C) (H : Oracle F C) (st : PState F C) (ops : List (POp F C)) : Res (PState F C) :=
  ops.foldlM (POp.run commit H) st

/-- A fresh tracker. -/
def PState.init : PState F C := ⟨PTracker.new, []⟩

/-- A state a history can lead to. -/
def Reachable (commit : Mle F → Res C) (H : Oracle F C) (st : PState F C) : Prop :=
  ∃ ops, runOps commit H PState.init ops = .ok st

/-- What `evaluations` of a handle returns. -/
def evalsOf (st : PState F C) (h : TPoly) : Res (List F) := (h.evaluations st.tracker).1

/-- The handle returned by a call has exactly the evaluations `l` and the old handles are still there. -/
def Yields (commit : Mle F → Res C) (H : Oracle F C) (st : PState F C) (op : POp F C) (nv : Nat) (l : List F) : Prop :=
  ∃ st' h, op.run commit H st = .ok st' ∧ st'.handles = st.handles ++ [h] ∧ h.numVars = nv ∧ evalsOf st' h = .ok l

/-- The handle returned by a call evaluates like `v` everywhere. -/
def YieldsFn (commit : Mle F → Res C) (H : Oracle F C) (st : PState F C) (op : POp F C) (nv : Nat) (v : List F → F) : Prop :=
  ∃ st' h, op.run commit H st = .ok st' ∧ st'.handles = st.handles ++ [h] ∧ h.numVars = nv ∧
    ∀ x : List F, x.length = nv → h.evaluate st'.tracker x = .ok (some (v x))

/-- The state after `evaluations()` of a handle. -/
def afterEvaluations (st : PState F C) (a : TPoly) : PTracker F C := (a.evaluations st.tracker).2

/-- A call that is not a multiplication of two polynomials. -/
def NotMul : POp F C → Prop
  | .mul _ _ => False
  | _ => True

end Zksql.Spec
