import Verif.Lemmas.ProverTracker3
/-! What the prover's calls do to counters, transcript, commitments and claims. -/
set_option linter.unusedSectionVars false
namespace Zksql
open Spec
variable {F C α β : Type} [Field F]

namespace PTracker

/-- A successful call uses `k` identifiers and leaves transcript, commitments and claims alone. -/
def Eff (k : Nat) (m : Act (PTracker F C) α) : Prop :=
  ∀ t a t', m t = (.ok a, t') → t'.idCounter = t.idCounter + k ∧ t'.transcript = t.transcript ∧ t'.comms = t.comms ∧
    t'.sumClaims = t.sumClaims ∧ t'.zeroClaims = t.zeroClaims

theorem Eff.bind {k l : Nat} {m : Act (PTracker F C) α} {f : α → Act (PTracker F C) β} (h1 : Eff k m) (h2 : ∀ a, Eff l (f a)) : Eff (k + l) (m >>= f) := by
  intro t b t' h
  obtain ⟨a, s, e1, e2⟩ := Act.bind_eq_ok.1 h
  obtain ⟨a1, a2, a3, a4, a5⟩ := h1 t a s e1
  obtain ⟨b1, b2, b3, b4, b5⟩ := h2 a s b t' e2
  exact ⟨by rw [b1, a1, Nat.add_assoc], b2.trans a2, b3.trans a3, b4.trans a4, b5.trans a5⟩

theorem eff_pure (a : α) : Eff 0 (pure a : Act (PTracker F C) α) := by
  intro t b t' h
  obtain ⟨-, rfl⟩ := Prod.mk.inj h
  exact ⟨rfl, rfl, rfl, rfl, rfl⟩

theorem eff_reads (f : PTracker F C → Res α) : Eff 0 (Act.reads f) := by
  intro t b t' h
  obtain ⟨-, rfl⟩ := Prod.mk.inj h
  exact ⟨rfl, rfl, rfl, rfl, rfl⟩

theorem eff_lift (r : Res α) : Eff 0 (Act.lift r : Act (PTracker F C) α) := by
  intro t b t' h
  obtain ⟨-, rfl⟩ := Prod.mk.inj h
  exact ⟨rfl, rfl, rfl, rfl, rfl⟩

theorem eff_assert (p : Prop) [Decidable p] : Eff 0 (Act.assert p : Act (PTracker F C) Unit) := by
  intro t b t' h
  unfold Act.assert at h
  split at h <;> obtain ⟨-, rfl⟩ := Prod.mk.inj h <;> exact ⟨rfl, rfl, rfl, rfl, rfl⟩

theorem eff_trackMatArc (a : ArcMle F) : Eff 1 (trackMatArc a : Act (PTracker F C) Nat) := by
  intro t b t' h
  obtain ⟨-, rfl⟩ := Prod.mk.inj h
  exact ⟨rfl, rfl, rfl, rfl, rfl⟩

theorem eff_trackMat (p : Mle F) : Eff 1 (trackMat p : Act (PTracker F C) Nat) := by
  intro t b t' h
  obtain ⟨-, rfl⟩ := Prod.mk.inj h
  exact ⟨rfl, rfl, rfl, rfl, rfl⟩

theorem eff_trackVirt (v : VRep F) : Eff 1 (trackVirt v : Act (PTracker F C) Nat) := by
  intro t b t' h
  obtain ⟨-, rfl⟩ := Prod.mk.inj h
  exact ⟨rfl, rfl, rfl, rfl, rfl⟩

theorem eff_allocArc (p : Mle F) : Eff 0 (allocArc p : Act (PTracker F C) _) := by
  intro t b t' h
  obtain ⟨-, rfl⟩ := Prod.mk.inj h
  exact ⟨rfl, rfl, rfl, rfl, rfl⟩

theorem eff_addSub (i j : Nat) (s : Bool) : Eff 1 (addSubPolys i j s : Act (PTracker F C) Nat) :=
  (eff_reads _).bind (l := 1) fun v => eff_trackVirt v

theorem eff_mul (i j : Nat) : Eff 1 (mulPolys i j : Act (PTracker F C) Nat) :=
  (eff_reads _).bind (l := 1) fun v => eff_trackVirt v

theorem eff_mulScalar (i : Nat) (c : F) : Eff 1 (mulScalar i c : Act (PTracker F C) Nat) :=
  (eff_reads _).bind (l := 1) fun v => eff_trackVirt v

theorem eff_addScalar (i : Nat) (c : F) : Eff 2 (addScalar i c : Act (PTracker F C) Nat) :=
  (eff_reads _).bind (l := 2) fun _ => (eff_lift _).bind (l := 2) fun _ => (eff_trackMat _).bind (l := 1) fun _ => eff_addSub _ _ _

theorem eff_materialize (i : Nat) : Eff 0 (materialize i : Act (PTracker F C) Unit) := by
  intro t b t' h
  unfold materialize at h
  split at h
  · obtain ⟨-, rfl⟩ := Prod.mk.inj h
    exact ⟨rfl, rfl, rfl, rfl, rfl⟩
  · split at h
    · simp at h
    · rename_i v _
      have : Eff 0 (do
        let m ← Act.lift (t.materializeRep v)
        let a ← allocArc m
        Act.modify fun t => { t with mats := amInsert i a t.mats, virts := amErase i t.virts } : Act (PTracker F C) Unit) :=
        (eff_lift _).bind (l := 0) fun m => (eff_allocArc m).bind (l := 0) fun a => by
          intro t b t' h
          obtain ⟨-, rfl⟩ := Prod.mk.inj h
          exact ⟨rfl, rfl, rfl, rfl, rfl⟩
      exact this t b t' h

theorem eff_evaluations (i : Nat) : Eff 0 (evaluations i : Act (PTracker F C) (List F)) :=
  (eff_materialize i).bind (l := 0) fun _ => (eff_reads _).bind (l := 0) fun _ => eff_pure _

theorem eff_incArc (inc : Mle F → Nat → Res (Mle F)) (a : ArcMle F) (n : Nat) : Eff 0 (incArc inc a n : Act (PTracker F C) _) := by
  unfold incArc
  split
  · exact eff_pure _
  · exact (eff_lift _).bind (l := 0) fun m => eff_allocArc m

theorem eff_increaseNv (inc : Mle F → Nat → Res (Mle F)) (i k : Nat) : Eff 1 (increaseNv inc i k : Act (PTracker F C) Nat) :=
  (eff_materialize i).bind (l := 1) fun _ => (eff_reads _).bind (l := 1) fun _ => (eff_incArc inc _ _).bind (l := 1) fun a => eff_trackMatArc a

end PTracker

namespace TPoly
open PTracker

theorem eff_trackMat (p : Mle F) : Eff 1 (TPoly.trackMat p : Act (PTracker F C) TPoly) := (PTracker.eff_trackMat p).bind (l := 0) fun _ => eff_pure _
theorem eff_add (a b : TPoly) : Eff 1 (a.add b : Act (PTracker F C) TPoly) :=
  (eff_assert _).bind (l := 1) fun _ => (eff_addSub _ _ _).bind (l := 0) fun _ => eff_pure _
theorem eff_sub (a b : TPoly) : Eff 1 (a.sub b : Act (PTracker F C) TPoly) :=
  (eff_assert _).bind (l := 1) fun _ => (eff_addSub _ _ _).bind (l := 0) fun _ => eff_pure _
theorem eff_mul (a b : TPoly) : Eff 1 (a.mul b : Act (PTracker F C) TPoly) :=
  (eff_assert _).bind (l := 1) fun _ => (PTracker.eff_mul _ _).bind (l := 0) fun _ => eff_pure _
theorem eff_addScalar (a : TPoly) (c : F) : Eff 2 (a.addScalar c : Act (PTracker F C) TPoly) :=
  (PTracker.eff_addScalar _ _).bind (l := 0) fun _ => eff_pure _
theorem eff_mulScalar (a : TPoly) (c : F) : Eff 1 (a.mulScalar c : Act (PTracker F C) TPoly) :=
  (PTracker.eff_mulScalar _ _).bind (l := 0) fun _ => eff_pure _
theorem eff_incFront (a : TPoly) (k : Nat) : Eff 1 (a.incFront k : Act (PTracker F C) TPoly) :=
  (eff_increaseNv _ _ _).bind (l := 0) fun _ => eff_pure _
theorem eff_incBack (a : TPoly) (k : Nat) : Eff 1 (a.incBack k : Act (PTracker F C) TPoly) :=
  (eff_increaseNv _ _ _).bind (l := 0) fun _ => eff_pure _
theorem eff_evaluations (a : TPoly) : Eff 0 (a.evaluations : Act (PTracker F C) (List F)) := PTracker.eff_evaluations _

end TPoly
end Zksql
