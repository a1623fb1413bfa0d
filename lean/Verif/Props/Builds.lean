import Verif.Lemmas.BuildsPrograms
import Verif.Lemmas.BuildsVerifier
import Verif.Lemmas.Hiding
import Verif.Props.Unread
/-!
C106: builds with debug assertions and builds without.
-/
set_option linter.unusedSectionVars false
namespace Zksql
open Spec
variable {F C B : Type} [Field F] [DecidableEq F]

/-- C106 in full: a program that a debug build runs and proves is run and proved by a release build, with the same proof. -/
def C106_statement : Prop :=
  ∀ (F C B : Type) [Field F] [DecidableEq F] (E : Env F C) (pcs : Pcs F C B) (prog : List (Step F)) (p : CompiledProof F C B),
    NamedAll 0 prog → makeProof (built true E) pcs prog = .ok p → makeProof (built false E) pcs prog = .ok p

/-- A program that runs in a debug build runs in a release build, with the same handles, and afterwards no user sees a difference between the two trackers. -/
theorem C106_prover (E : Env F C) (prog : List (Step F)) {hs : List TPoly} {u : PTracker F C} (hn : NamedAll 0 prog)
    (h : Step.proveAll (built true E) prog [] PTracker.new = (.ok hs, u)) :
    ∃ u', Step.proveAll (built false E) prog [] PTracker.new = (.ok hs, u') ∧ SameForUser u u' := by
  have hb := built_program (g := fun id => ((u.getPolyNv id).toOption).getD 0) E prog [] fit_nil hn
  obtain ⟨u', h1, h2, _⟩ := hb.2 _ _ hs u (PTracker.even_new (stInv_init (commit := E.commit)).inv) h fun id n e => by simp [e, Except.toOption]
  exact ⟨u', h1, h2.forUser⟩

/-- So a debug build only refuses more: what a release build refuses, a debug build refuses. -/
theorem C106_refused (E : Env F C) (prog : List (Step F)) {e : Fail} (hn : NamedAll 0 prog)
    (h : (Step.proveAll (built false E) prog [] PTracker.new).1 = .error e) : ∃ e', (Step.proveAll (built true E) prog [] PTracker.new).1 = .error e' := by
  rcases hd : Step.proveAll (built true E) prog [] PTracker.new with ⟨e' | hs, u⟩
  · exact ⟨e', rfl⟩
  · obtain ⟨u', h1, _⟩ := C106_prover E prog hn hd
    rw [h1] at h
    cases h

/-- The two verifiers do exactly the same with any program, in any state. -/
theorem C106_verifier (E : Env F C) (prog : List (Step F)) (hs : List TPoly) :
    Step.verifyAll (B := B) (built true E) prog hs = Step.verifyAll (built false E) prog hs := verifyAll_built E prog hs

/-- So a proof is accepted in one build if and only if it is accepted in the other, whichever build made it. -/
theorem C106_verdict (E : Env F C) (pcs : Pcs F C B) (prog : List (Step F)) (p : CompiledProof F C B) :
    checkProof (built true E) pcs prog p = checkProof (built false E) pcs prog p := by
  unfold checkProof
  rw [verifyAll_built]

/-- The proofs of the two builds have the same commitments. -/
theorem C106_commitments_partial (E : Env F C) (pcs : Pcs F C B) (prog : List (Step F)) {p p' : CompiledProof F C B} (hn : NamedAll 0 prog)
    (h : makeProof (built true E) pcs prog = .ok p) (h' : makeProof (built false E) pcs prog = .ok p') : p.comms = p'.comms := by
  unfold makeProof at h h'
  rcases hd : Step.proveAll (built true E) prog [] PTracker.new with ⟨e' | hs, u⟩
  · rw [Act.bind_error hd] at h; cases h
  obtain ⟨u', h1, h2⟩ := C106_prover E prog hn hd
  rw [Act.bind_ok hd] at h
  rw [Act.bind_ok h1] at h'
  rw [compile_comms (Prod.ext h rfl), compile_comms (Prod.ext h' rfl)]
  exact h2.comms

/-! ### What only a debug build refuses -/

/-- The one-to-many join, when a value occurs twice in the key column of the first table, in active rows or not. -/
theorem C106_duplicate_keys (E : Env F C) (a b : Table) (ai bi : Nat) (ta : List TPoly) {key : TPoly} {l : List F} {t : PTracker F C}
    (hk : a.colVals[ai]? = some key) (hl : (key.evaluations t).1 = .ok l) (hdup : ¬ l.Nodup) :
    (FinalJoin.proveWithAdvice (built true E) a b ai bi ta t).1 = .error (.err .invalidParameters) ∧
    FinalJoin.debugKeys (built false E) a ai t = (.ok (), t) := by
  refine ⟨?_, rfl⟩
  have hx : idx a.colVals ai = .ok key := by unfold idx; rw [hk]; rfl
  rcases e : key.evaluations t with ⟨_ | l', t'⟩
  · rw [e] at hl; cases hl
  rw [e] at hl
  obtain rfl := Except.ok.inj hl
  have hd : FinalJoin.debugKeys (built true E) a ai t = (.error (.err .invalidParameters), t') := by
    unfold FinalJoin.debugKeys
    rw [if_pos rfl, hx, Act.bind_ok (Act.lift_run _ _), Act.bind_ok e, if_neg hdup]
    rfl
  unfold FinalJoin.proveWithAdvice
  rw [Act.bind_error hd]

/-- A bag whose selector has another size. -/
theorem C106_bag_sizes (p s : TPoly) (t : PTracker F C) (h : p.numVars ≠ s.numVars) :
    Bag.new true p s t = (.error .panic, t) ∧ Bag.new false p s t = (.ok ⟨p, s⟩, t) := by
  constructor
  · unfold Bag.new
    rw [Act.bind_error (assert_false_run (by simpa using h) t)]
  · unfold Bag.new
    rw [Act.bind_ok (Act.assert_true (by simp) t)]
    rfl

/-- Taking over a commitment under another identifier than the next one. -/
theorem C106_out_of_order (s : VSt F C B) {id : Nat} {c : C} (hc : s.own.proof.comms.lookup id = some c) (h : id ≠ s.own.idCounter) :
    (VSt.transferComm true id s).1 = .error .panic ∧ (VSt.transferComm false id s).1 = .ok s.own.idCounter := by
  constructor <;> simp [VSt.transferComm, Act.bind_run, hc, unwrap, Act.expect, VSt.trackMatComm, VSt.genId, VSt.insertComm, Act.assert, h]

/-! ### Examples -/

namespace BldEx
open PfEx

/-- The opening scheme. -/
def pcs7 : Pcs (ZMod 7) (ZMod 7) (BatchProof E7) := kzgOf (E := E7) H84 (1 : ZMod 7) (1 : ZMod 7) [3]

/-- The degree of the sumcheck in the proof of the program of C105, in both builds. -/
def degree (d : Bool) : Option Nat := (makeProof (built d env84) pcs7 UnrEx.prog).toOption.map (·.scMaxDegree)

/-- The debug build proves a sumcheck of degree 1, the release build one of degree 4. -/
theorem degrees : (degree true, degree false) = (some 1, some 4) := by decide +kernel

/-- All four pairs of builds accept. -/
example : ([(true, true), (true, false), (false, true), (false, false)].map fun d => (makeProof (built d.1 env84) pcs7 UnrEx.prog).toOption.map fun p =>
    (checkProof (built d.2 env84) pcs7 UnrEx.prog p VSt.new).1.isOk) = List.replicate 4 (some true) := by decide +kernel

/-- The program meets the hypotheses of `C106_prover`. -/
theorem named : NamedAll 0 UnrEx.prog := by
  unfold UnrEx.prog prog85 cols84
  simp only [List.map_cons, List.map_nil, List.cons_append, List.nil_append, NamedAll, Step.Named, Step.added, Check.names, Mle.WF]
  decide
example : ((Step.proveAll (built true env84) UnrEx.prog [] PTracker.new).1.toOption.map (·.map (·.id))) = some [0, 1, 2, 7, 9, 27] := by decide +kernel

/-- A join whose first table has the key 1 in an active row and in an inactive row. -/
def dupJoin : List (Step (ZMod 7)) := [.commit ⟨1, [1, 1]⟩, .commit ⟨1, [1, 0]⟩, .commit ⟨1, [1, 1]⟩, .commit ⟨1, [1, 1]⟩, .join ([0], 1) ([2], 3) 0 0]

/-- Only the release build runs it: the converse of `C106_prover` is false. -/
example : ((match (Step.proveAll (built true env84) dupJoin [] PTracker.new).1 with
      | .error (.err .invalidParameters) => true
      | _ => false), (Step.proveAll (built false env84) dupJoin [] PTracker.new).1.isOk) = (true, true) := by decide +kernel

end BldEx

theorem C106_violated : ¬ C106_statement := by
  intro hall
  have h := BldEx.degrees
  unfold BldEx.degree at h
  rcases hp : makeProof (built true PfEx.env84) BldEx.pcs7 UnrEx.prog with e | p
  · rw [hp] at h
    cases (Prod.mk.inj h).1
  · have h' := hall _ _ _ PfEx.env84 BldEx.pcs7 UnrEx.prog p BldEx.named hp
    rw [hp, h'] at h
    obtain ⟨h1, h2⟩ := Prod.mk.inj h
    rw [h1] at h2
    cases h2

end Zksql
