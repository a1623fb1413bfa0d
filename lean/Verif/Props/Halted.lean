import Verif.Lemmas.HaltedV
import Verif.Props.Program
/-!
# Properties C103 and C104: calls that fail
-/
set_option linter.unusedSectionVars false
namespace Zksql
open Spec
variable {F C B : Type} [Field F] [DecidableEq F]

/-! ### C103 -/

/-- C103 (prover): after any calls `cs`, whatever further calls `ds` are made with whatever arguments, and wherever each of them fails, with an error or a panic: every size and
table that could be read is read as before, commitments stay, claims and messages stay in order, and identifiers only grow. -/
theorem C103_prover (E : Env F C) (cs ds : List (ProverCall F C)) : Keeps (callsOn E cs PTracker.new) (callsOn E (cs ++ ds) PTracker.new) := by
  have h := callsOn_onward E cs PTracker.numbered_new
  have h' := callsOn_onward E ds h.num
  unfold callsOn at h' ⊢
  rw [List.foldl_append]
  exact h'.keeps

/-- C103 (columns): in particular a column keeps its contents. -/
theorem C103_column (E : Env F C) (cs ds : List (ProverCall F C)) (a : TPoly) (T : Nat → F) (h : HoldsP (callsOn E cs PTracker.new) a T) :
    HoldsP (callsOn E (cs ++ ds) PTracker.new) a T := by
  have hk := C103_prover E cs ds
  exact ⟨hk.sizes _ _ h.1, hk.tables _ _ h.2⟩

/-- C103 (verifier): the same, before and after a proof was loaded. -/
theorem C103_verifier (E : Env F C) (p : CompiledProof F C B) (early cs ds : List (VerifierCall F C)) :
    VKeeps (vcallsOn E early VSt.new : VSt F C B) (vcallsOn E (early ++ ds) VSt.new) ∧
    VKeeps (vcallsOn E cs (loadProof p (vcallsOn E early VSt.new))) (vcallsOn E (cs ++ ds) (loadProof p (vcallsOn E early VSt.new))) := by
  have h0 := vcallsOn_onward E early (vnumbered_new (F := F) (C := C) (B := B))
  have hl : VSt.Numbered (loadProof p (vcallsOn E early VSt.new)) := ⟨h0.num.comms, h0.num.mats⟩
  have h := vcallsOn_onward E cs hl
  have h' := vcallsOn_onward E ds h.num
  have h0' := vcallsOn_onward E ds h0.num
  constructor
  · unfold vcallsOn at h0' ⊢
    rw [List.foldl_append]
    exact h0'.keeps
  · unfold vcallsOn at h' ⊢
    rw [List.foldl_append]
    exact h'.keeps

/-- C103 (identifiers): an identifier that was handed out is not handed out again, whatever failed in between. -/
theorem C103_not_reused (E : Env F C) (cs ds : List (ProverCall F C)) (o o' : HandleOp F) (a a' : TPoly) (t t' : PTracker F C)
    (h : o.run E (callsOn E cs PTracker.new) = (.ok a, t)) (h' : o'.run E (callsOn E ds t) = (.ok a', t')) : a.id < a'.id := by
  have h0 := callsOn_onward E cs PTracker.numbered_new
  have h1 := op_goes E o _ h0.num
  rw [h] at h1
  have h2 := callsOn_onward E ds h1.num
  have e1 := op_fresh E o h0.num h
  have e2 := op_fresh E o' h2.num h'
  exact e1.2.trans_le (h2.counter.trans e2.1)

/-! ### C104 -/

/-- No call of the prover that returns an error leaves a trace. -/
def C104_statement : Prop :=
  ∀ (E : Env (ZMod 7) (ZMod 7)) (cs : List (ProverCall (ZMod 7) (ZMod 7))) (c : ProverCall (ZMod 7) (ZMod 7)) (k : ErrKind) (t' : PTracker (ZMod 7) (ZMod 7)),
    c.run E (callsOn E cs PTracker.new) = (.error (.err k), t') → t' = callsOn E cs PTracker.new

/-- C104, partial (handle operations): a handle operation, a challenge or reading a table that returns an error leaves the tracker as it was. -/
theorem C104_operations_partial (E : Env F C) (t t' : PTracker F C) (k : ErrKind) :
    (∀ o : HandleOp F, o.run E t = (.error (.err k), t') → t' = t) ∧ (∀ l, PTracker.challenge E.H l t = (.error (.err k), t') → t' = t) ∧
    ∀ a : TPoly, a.evaluations t ≠ (.error (.err k), t') :=
  ⟨fun o => op_clean E o t k t', fun l => challenge_clean E.H l t k t', fun a => evaluations_noErr a.id t k t'⟩

/-- C104, partial (checks): a check that is refused because of the sizes or the numbers of its arguments returns `InvalidParameters` and leaves the tracker as it was: a multiset check with
no bags or with multiplicities of other sizes, an equality or permutation check of bags of different sizes, and a group-by request that names a column there is not. -/
theorem C104_refused_partial (E : Env F C) (c : Check TPoly) (h : Refused c) (t : PTracker F C) : c.prove E t = (.error (.err .invalidParameters), t) := by
  cases c with
  | multiset fs gs =>
    have h' : Multitool.shapeOk (fs.map fun e => bagOf e.1) (fs.map (·.2)) = false ∨ Multitool.shapeOk (gs.map fun e => bagOf e.1) (gs.map (·.2)) = false := by
      rcases h with h | h
      · exact .inl (refused_shape h)
      · exact .inr (refused_shape h)
    show Multitool.prove E _ _ _ _ t = _
    unfold Multitool.prove
    rcases h' with h' | h'
    · simp [h']
    · simp only [h', Bool.not_false, if_true]
      split <;> rfl
  | bagEq f g =>
    show BagEq.prove E _ _ t = _
    unfold BagEq.prove
    rw [if_pos (show (bagOf f).numVars ≠ (bagOf g).numVars from h)]
    rfl
  | permutation f g p =>
    show PrescPerm.prove E _ _ _ t = _
    unfold PrescPerm.prove
    by_cases h1 : (bagOf f).numVars ≠ (bagOf g).numVars
    · rw [if_pos h1]; rfl
    · rw [if_neg h1, if_pos (show (bagOf f).numVars ≠ p.numVars from h.resolve_left h1)]; rfl
  | groupBy inp key grp mult aggs range =>
    have hv : GroupBy.validate (tableOf inp).colVals.length (requestOf key grp mult aggs) = .error (.err .invalidParameters) := by
      show GroupBy.validate inp.1.length ⟨[key], [grp.1], grp.2, mult, aggs⟩ = _
      unfold GroupBy.validate
      rw [if_neg (by simp)]
      show (if inp.1.length ≤ key then _ else _) = _
      by_cases h1 : inp.1.length ≤ key
      · rw [if_pos h1]
      · rw [if_neg h1]
        have : (aggs.any fun e => decide (inp.1.length ≤ e.1)) = true := by
          obtain ⟨e, he, hk⟩ := h.resolve_left h1
          exact List.any_eq_true.2 ⟨e, he, by simpa using hk⟩
        rw [if_pos this]
    show (GroupBy.proveWithAdvice E (tableOf inp) (requestOf key grp mult aggs) (bagOf range) >>= fun _ => pure ()) t = _
    have h1 : GroupBy.proveWithAdvice E (tableOf inp) (requestOf key grp mult aggs) (bagOf range) t = (.error (.err .invalidParameters), t) := by
      unfold GroupBy.proveWithAdvice
      exact Act.bind_error (by rw [hv]; rfl)
    exact Act.bind_error h1
  | _ => exact h.elim

/-- C104 (what is left behind): an inclusion check with given multiplicities of the wrong size returns `InvalidParameters`, but a table of ones has been tracked and an identifier used. -/
theorem C104_leftover (E : Env F C) (f g : TPoly × TPoly) (m : TPoly) (h : g.1.numVars ≠ m.numVars) (t : PTracker F C) :
    (Check.inclusionAdvice f g m).prove E t = (.error (.err .invalidParameters), t.pushMat (onesMle F f.1.numVars)) ∧
    (t.pushMat (onesMle F f.1.numVars)).idCounter = t.idCounter + 1 := by
  refine ⟨?_, rfl⟩
  show Inclusion.proveWithAdvice E (bagOf f) (bagOf g) m t = _
  have h1 : TPoly.trackMat (onesMle F (bagOf f).numVars) t = (.ok ⟨t.idCounter, f.1.numVars⟩, t.pushMat (onesMle F f.1.numVars)) := rfl
  unfold Inclusion.proveWithAdvice
  rw [Act.bind_ok h1]
  unfold Multitool.prove
  have h2 : Multitool.shapeOk [bagOf f] [⟨t.idCounter, f.1.numVars⟩] = true := by simp [Multitool.shapeOk, bagOf, Bag.numVars]
  have h3 : Multitool.shapeOk [bagOf g] [m] = false := by simp [Multitool.shapeOk, bagOf, Bag.numVars, h]
  simp only [h2, h3]
  rfl
/-! ### Calls that fail, evaluated -/
namespace HltEx
open PfEx

/-- Three columns of two rows are committed to, and a public column with one row is tracked. -/
def start : List (ProverCall (ZMod 7) (ZMod 7)) := (cols84.map fun p => .op (.commit p)) ++ [.op (.track ⟨0, [4]⟩)]
/-- An inclusion check with multiplicities of the wrong size. -/
def bad : ProverCall (ZMod 7) (ZMod 7) := .check (.inclusionAdvice (⟨0, 1⟩, ⟨1, 1⟩) (⟨2, 1⟩, ⟨1, 1⟩) ⟨3, 0⟩)
/-- Calls that fail: that check, adding columns of different sizes, committing to a column that is too large, comparing bags of different sizes, a support check with a range that there is
not, and a join on a column that there is not. -/
def failing : List (ProverCall (ZMod 7) (ZMod 7)) :=
  [bad, .op (.add ⟨0, 1⟩ ⟨3, 0⟩), .op (.commit ⟨2, [1, 2, 3, 4]⟩), .check (.bagEq (⟨0, 1⟩, ⟨1, 1⟩) (⟨3, 0⟩, ⟨3, 0⟩)),
    .check (.support (⟨0, 1⟩, ⟨1, 1⟩) (⟨2, 1⟩, ⟨1, 1⟩) (⟨99, 1⟩, ⟨99, 1⟩)), .join ⟨[⟨0, 1⟩], ⟨1, 1⟩⟩ ⟨[⟨2, 1⟩], ⟨1, 1⟩⟩ 0 3]
/-- What the calls return. -/
def outcomes (E : Env (ZMod 7) (ZMod 7)) : List (ProverCall (ZMod 7) (ZMod 7)) → PTracker (ZMod 7) (ZMod 7) → List (Res Unit)
  | [], _ => []
  | c :: cs, t => (c.run E t).1 :: outcomes E cs (c.run E t).2
/-- The proof of the program `prog85` from here on. -/
def proofOf (t : PTracker (ZMod 7) (ZMod 7)) : Res (CompiledProof (ZMod 7) (ZMod 7) (BatchProof E7)) :=
  let r := Step.proveAll env84 prog85 (startHandles cols84) t
  r.1 >>= fun _ => (PTracker.compile env84.debug (kzgOf (E := E7) H84 (1 : ZMod 7) (1 : ZMod 7) [3]) H84 r.2).1
/-- What the verifier says who knows the four columns and runs the program. -/
def verdictOf (t : PTracker (ZMod 7) (ZMod 7)) : Res Unit := do
  let p ← proofOf t
  let vs ← runVOps true H84 VState.init (.setProof p :: List.replicate 3 .transferNext)
  let s := (VSt.trackVirtual (.fn fun _ => .ok 4) vs.st).2
  let r := Step.verifyAll (B := BatchProof E7) env84 prog85 (startHandles cols84) s
  let _ ← r.1
  (VSt.verifyClaims (kzgOf (E := E7) H84 (1 : ZMod 7) (1 : ZMod 7) [3]) H84 r.2).1

/-- All six fail. -/
example : outcomes env84 (start ++ failing) PTracker.new = List.replicate 4 (.ok ()) ++
    [.error (.err .invalidParameters), .error .panic, .error (.err .invalidParameters), .error (.err .invalidParameters), .error .panic, .error .panic] := by decide +kernel

/-- They leave traces: identifiers, messages and claims. -/
example : (callsOn env84 start PTracker.new).idCounter < (callsOn env84 (start ++ failing) PTracker.new).idCounter ∧
    (callsOn env84 start PTracker.new).transcript.events.length < (callsOn env84 (start ++ failing) PTracker.new).transcript.events.length ∧
    (callsOn env84 start PTracker.new).sumClaims.length < (callsOn env84 (start ++ failing) PTracker.new).sumClaims.length := by decide +kernel

/-- The first column can be read, and so it can be read afterwards. -/
example : (PTracker.evaluations 0 (callsOn env84 (start ++ failing) PTracker.new)).1 = .ok [1, 2] :=
  (C103_prover env84 start failing).tables 0 [1, 2] (by decide +kernel)

/-- The next handle is new. -/
example : (HandleOp.run env84 (.add ⟨0, 1⟩ ⟨2, 1⟩) (callsOn env84 (start ++ failing) PTracker.new)).1.toOption.isSome = true := by decide +kernel

/-- A verifier that knows a commitment and evaluates it keeps doing so. -/
example (p : CompiledProof (ZMod 7) (ZMod 7) (BatchProof E7)) : VKeeps (vcallsOn env84 [.op (.trackComm 3)] (loadProof p VSt.new))
    (vcallsOn env84 [.op (.trackComm 3), .op (.transfer 12), .check (.noZeros (⟨0, 1⟩, ⟨0, 1⟩))] (loadProof p VSt.new)) :=
  (C103_verifier env84 p [] [.op (.trackComm 3)] [.op (.transfer 12), .check (.noZeros (⟨0, 1⟩, ⟨0, 1⟩))]).2

/-- The check of bags with different sizes is refused. -/
example : Refused (.bagEq (⟨0, 1⟩, ⟨1, 1⟩) (⟨3, 0⟩, ⟨3, 0⟩)) := by
  show (1 : Nat) ≠ 0
  decide

end HltEx

open HltEx PfEx in
/-- C104: the next proof is rejected.  Without the refused check the verifier accepts the proof of `prog85`; with it, the prover still makes a proof, but a verifier that runs `prog85`, as
before, panics when it looks for commitments under its own identifiers. -/
theorem C104_next_proof : verdictOf (callsOn env84 start PTracker.new) = .ok () ∧
    (bad.run env84 (callsOn env84 start PTracker.new)).1 = .error (.err .invalidParameters) ∧
    (proofOf (callsOn env84 (start ++ [bad]) PTracker.new)).toOption.isSome = true ∧
    verdictOf (callsOn env84 (start ++ [bad]) PTracker.new) = .error .panic := by decide +kernel

/-- C104 is violated. -/
theorem C104_violated : ¬ C104_statement := by
  intro h
  have h1 := C104_leftover PfEx.env84 (⟨0, 1⟩, ⟨1, 1⟩) (⟨2, 1⟩, ⟨1, 1⟩) ⟨3, 0⟩ (by decide) (callsOn PfEx.env84 HltEx.start PTracker.new)
  have h2 := h PfEx.env84 HltEx.start HltEx.bad .invalidParameters _ h1.1
  rw [h2] at h1
  exact absurd h1.2 (by omega)

end Zksql
