import Verif.Lemmas.Frame
import Verif.Lemmas.Joint
import Verif.Props.Compile
/-! Compiling a proof leaves the table of commitments as it is. -/
set_option linter.unusedSectionVars false
namespace Zksql
open Spec PTracker
variable {F C B α β : Type} [Field F]

/-- A successful call leaves the table of commitments alone. -/
def KeepsComms (m : Act (PTracker F C) α) : Prop := ∀ t a t', m t = (.ok a, t') → t'.comms = t.comms

namespace KeepsComms

theorem bind {m : Act (PTracker F C) α} {f : α → Act (PTracker F C) β} (h1 : KeepsComms m) (h2 : ∀ a, KeepsComms (f a)) : KeepsComms (m >>= f) := by
  intro t b t' h
  obtain ⟨a, s, e1, e2⟩ := Act.bind_eq_ok.1 h
  exact (h2 a s b t' e2).trans (h1 t a s e1)

theorem of_eff {k : Nat} {m : Act (PTracker F C) α} (h : Eff k m) : KeepsComms m := fun t a t' e => (h t a t' e).2.2.1

theorem modify (f : PTracker F C → PTracker F C) (h : ∀ t, (f t).comms = t.comms) : KeepsComms (Act.modify f) := by
  intro t b t' e
  obtain ⟨-, rfl⟩ := Prod.mk.inj e
  exact h t

theorem challenge (H : Oracle F C) (label : String) : KeepsComms (PTracker.challenge H label) := by
  intro t b t' e
  unfold PTracker.challenge at e
  split at e
  · obtain ⟨-, rfl⟩ := Prod.mk.inj e; rfl
  · simp at e

theorem expect {m : Act (PTracker F C) α} (h : KeepsComms m) : KeepsComms (Act.expect m) := by
  intro t b t' e
  unfold Act.expect at e
  rcases em : m t with ⟨er | a, s⟩ <;> rw [em] at e
  · simp at e
  · obtain ⟨-, rfl⟩ := Prod.mk.inj e
    exact h t a _ em

theorem challengeU (H : Oracle F C) (label : String) : KeepsComms (PTracker.challengeU H label) := expect (challenge H label)

theorem challengesU (H : Oracle F C) (label : String) (n : Nat) : KeepsComms (PTracker.challengesU H label n) := by
  intro t b t' e
  unfold PTracker.challengesU at e
  split at e
  · obtain ⟨-, rfl⟩ := Prod.mk.inj e; rfl
  · simp at e

theorem trueSums (cs : List (Nat × F)) : KeepsComms (PTracker.trueSums cs : Act (PTracker F C) _) := by
  induction cs with
  | nil => exact of_eff (eff_pure _)
  | cons c cs ih => exact (of_eff (eff_evaluations _)).bind fun _ => ih.bind fun _ => of_eff (eff_pure _)

theorem equalize : KeepsComms (PTracker.equalize : Act (PTracker F C) Nat) :=
  (of_eff (eff_reads _)).bind fun _ => (of_eff (eff_reads _)).bind fun r => KeepsComms.bind (modify (fun t => { t with mats := r.1, heap := r.2 }) fun _ => rfl) fun _ =>
    (of_eff (eff_reads _)).bind fun _ => (trueSums _).bind fun sums =>
      KeepsComms.bind (modify (fun t => { t with sumClaims := List.zipWith (fun c s => (c.1, s)) t.sumClaims sums }) fun _ => rfl) fun _ => of_eff (eff_pure _)

theorem foldZero (H : Oracle F C) (cs : List Nat) (agg : Nat) : KeepsComms (PTracker.foldZeroClaims H cs agg) := by
  induction cs generalizing agg with
  | nil => exact of_eff (eff_pure _)
  | cons c cs ih => exact (challengeU _ _).bind fun _ => (of_eff (eff_mulScalar _ _)).bind fun _ => (of_eff (eff_addSub _ _ _)).bind fun a => ih a

theorem foldSum (H : Oracle F C) (cs : List (Nat × F)) (agg : Nat) (s : F) : KeepsComms (PTracker.foldSumClaims H cs agg s) := by
  induction cs generalizing agg s with
  | nil => exact of_eff (eff_pure _)
  | cons c cs ih => exact (challengeU _ _).bind fun _ => (of_eff (eff_mulScalar _ _)).bind fun _ => (of_eff (eff_addSub _ _ _)).bind fun a => ih a _

theorem addSumClaim (i : Nat) (v : F) : KeepsComms (PTracker.addSumClaim i v : Act (PTracker F C) Unit) := by
  intro t b t' e
  obtain ⟨-, rfl⟩ := Prod.mk.inj e; rfl

theorem convertZero (H : Oracle F C) (nv : Nat) : KeepsComms (PTracker.convertZero H nv) :=
  (of_eff (eff_lift _)).bind fun _ => (of_eff (eff_trackMat _)).bind fun _ => (of_eff (eff_reads _)).bind fun _ => (foldZero _ _ _).bind fun _ =>
    (challengesU _ _ _).bind fun _ => (expect (of_eff (eff_lift _))).bind fun _ => (of_eff (eff_trackMat _)).bind fun _ =>
      (of_eff (eff_mul _ _)).bind fun _ => addSumClaim _ _

theorem aggregate (H : Oracle F C) : KeepsComms (PTracker.aggregate H) :=
  equalize.bind fun _ => (convertZero _ _).bind fun _ => (of_eff (eff_lift _)).bind fun _ => (of_eff (eff_trackMat _)).bind fun _ =>
    (of_eff (eff_reads _)).bind fun _ => foldSum _ _ _ _

theorem debugCheck [DecidableEq F] (debug : Bool) (agg : Nat × F) : KeepsComms (PTracker.debugCheck debug agg : Act (PTracker F C) Unit) := by
  unfold PTracker.debugCheck
  split
  · exact (of_eff (eff_evaluations _)).bind fun _ => of_eff (eff_lift _)
  · exact of_eff (eff_pure _)

theorem proveSumcheck (H : Oracle F C) (vp : VirtPoly F) : KeepsComms (PTracker.proveSumcheck H vp) := by
  intro t b t' e
  unfold PTracker.proveSumcheck at e
  split at e
  · obtain ⟨-, rfl⟩ := Prod.mk.inj e; rfl
  · simp at e

theorem openBatch (pcs : Pcs F C B) (polys : List (Mle F)) (points : List (List F)) (evals : List F) : KeepsComms (PTracker.openBatch pcs polys points evals) := by
  intro t b t' e
  unfold PTracker.openBatch at e
  split at e
  · obtain ⟨-, rfl⟩ := Prod.mk.inj e; rfl
  · simp at e
  · simp at e

theorem compile [DecidableEq F] (debug : Bool) (pcs : Pcs F C B) (H : Oracle F C) : KeepsComms (PTracker.compile debug pcs H) :=
  (aggregate _).bind fun _ => (debugCheck _ _).bind fun _ => (of_eff (eff_reads _)).bind fun _ => (proveSumcheck _ _).bind fun _ =>
    (of_eff (eff_reads _)).bind fun _ => (of_eff (eff_reads _)).bind fun _ => (of_eff (eff_lift _)).bind fun _ => (openBatch _ _ _ _).bind fun _ =>
      of_eff (eff_reads _)

end KeepsComms

/-- The commitments in a compiled proof are those recorded so far. -/
theorem compile_comms [DecidableEq F] {debug : Bool} {pcs : Pcs F C B} {H : Oracle F C} {t t' : PTracker F C} {p : CompiledProof F C B}
    (h : compile debug pcs H t = (.ok p, t')) : p.comms = t.comms := (compile_queries h).1.trans (KeepsComms.compile debug pcs H t p t' h)

end Zksql
