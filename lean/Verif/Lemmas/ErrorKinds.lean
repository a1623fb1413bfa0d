import Verif.Lemmas.HaltedV
import Verif.Spec.ErrorKinds
/-!
The kinds of the errors that calls return.
-/
set_option linter.unusedSectionVars false
namespace Zksql
open Spec PTracker
variable {F C B : Type} [Field F] [DecidableEq F]

/-- The errors of a call are of kind `K`, or it asked for a challenge while the transcript was empty; and the transcript does not become empty. -/
def ErrsT {S α : Type} (tr : S → Transcript F C) (K : ErrKind → Prop) (m : Act S α) : Prop :=
  ∀ s, (∀ k, (m s).1 = .error (.err k) → K k ∨ k = .invalidTranscript ∧ (tr s).isEmpty = true) ∧
    ((tr s).isEmpty = false → (tr (m s).2).isEmpty = false)

namespace ErrsT
variable {S α β : Type} {tr : S → Transcript F C} {K K' : ErrKind → Prop}

theorem mono {m : Act S α} (hK : ∀ k, K k → K' k) (h : ErrsT tr K m) : ErrsT tr K' m := fun s =>
  ⟨fun k e => ((h s).1 k e).imp (hK k) id, (h s).2⟩
theorem bind {m : Act S α} {f : α → Act S β} (h : ErrsT tr K m) (hf : ∀ a, ErrsT tr K (f a)) : ErrsT tr K (m >>= f) := by
  intro s
  have h1 := h s
  rcases e : m s with ⟨x | a, s1⟩
  · rw [Act.bind_error e]
    rw [e] at h1
    exact ⟨fun k hk => h1.1 k (show Except.error x = _ from congrArg _ (Except.error.inj hk)), h1.2⟩
  · rw [Act.bind_ok e]
    rw [e] at h1
    refine ⟨fun k hk => ?_, fun hs => (hf a s1).2 (h1.2 hs)⟩
    rcases (hf a s1).1 k hk with h2 | ⟨h2, h3⟩
    · exact .inl h2
    · refine .inr ⟨h2, ?_⟩
      by_contra hc
      rw [Bool.not_eq_true] at hc
      rw [h1.2 hc] at h3
      cases h3
theorem pure (a : α) : ErrsT tr K (Pure.pure a : Act S α) := fun _ => ⟨fun _ h => (by cases h), id⟩
theorem liftK {r : Res α} (h : ∀ k, r = .error (.err k) → K k) : ErrsT tr K (Act.lift r : Act S α) := fun _ => ⟨fun k e => .inl (h k e), id⟩
theorem lift {r : Res α} (h : PanicOnly r) : ErrsT tr K (Act.lift r : Act S α) := liftK fun k e => (h k e).elim
theorem reads {f : S → Res α} (h : ∀ s, PanicOnly (f s)) : ErrsT tr K (Act.reads f) := fun s => ⟨fun k e => (h s k e).elim, id⟩
theorem modify {f : S → S} (h : ∀ s, (tr s).isEmpty = false → (tr (f s)).isEmpty = false) : ErrsT tr K (Act.modify f) := fun s => ⟨fun _ e => (by cases e), h s⟩
theorem assert (p : Prop) [Decidable p] : ErrsT tr K (Act.assert p : Act S Unit) := by
  intro s
  unfold Act.assert
  split <;> exact ⟨fun _ e => (by cases e), id⟩
theorem expect {m : Act S α} (h : ErrsT tr K m) : ErrsT tr K (Act.expect m) := by
  intro s
  have h1 := (h s).2
  unfold Act.expect
  rcases e : m s with ⟨x | a, s1⟩ <;> rw [e] at h1 <;> exact ⟨fun _ e => (by cases e), h1⟩
theorem ite {p : Prop} [Decidable p] {m m' : Act S α} (h1 : ErrsT tr K m) (h2 : ErrsT tr K m') : ErrsT tr K (if p then m else m') := by
  split
  · exact h1
  · exact h2
theorem forget {m : Act S α} (h : ErrsT tr K m) : ErrsT tr K (Spec.forget m) := bind h fun _ => pure _
/-- A failure of the transcript and nothing else. -/
theorem chal {H : Oracle F C} {l : String} {m : Act S F} (hm : ∀ s, (tr s).challenge H l = .error (.err .invalidTranscript) ∧ m s = (.error (.err .invalidTranscript), s) ∧ (tr s).isEmpty = true ∨
    ∃ c t s', (tr s).challenge H l = .ok (c, t) ∧ m s = (.ok c, s') ∧ tr s' = t ∧ t.isEmpty = false) : ErrsT tr K m := by
  intro s
  rcases hm s with ⟨-, h2, h3⟩ | ⟨c, t, s', -, h2, h3, h4⟩
  · rw [h2]
    exact ⟨fun k e => .inr ⟨by cases e; rfl, h3⟩, id⟩
  · rw [h2]
    exact ⟨fun k e => (by cases e), fun _ => by rw [h3]; exact h4⟩

end ErrsT

theorem transcript_challenge_cases (H : Oracle F C) (t : Transcript F C) (l : String) :
    t.challenge H l = .error (.err .invalidTranscript) ∧ t.isEmpty = true ∨ ∃ c t', t.challenge H l = .ok (c, t') ∧ t'.isEmpty = false := by
  unfold Transcript.challenge
  rcases h : t.isEmpty
  · right
    exact ⟨_, _, rfl, rfl⟩
  · left
    exact ⟨rfl, rfl⟩

/-! ### Functions that only panic -/

theorem panicOnly_ite {α : Type} {p : Prop} [Decidable p] {a b : Res α} (h1 : PanicOnly a) (h2 : PanicOnly b) : PanicOnly (if p then a else b) := by
  split
  · exact h1
  · exact h2
theorem panicOnly_sumLoop (a b c : List F) : ∀ (l : List Nat) (v : F), PanicOnly (Multitool.sumLoop a b c l v)
  | [], _ => panicOnly_ok _
  | _ :: l, _ => (panicOnly_idx _ _).bind fun _ => (panicOnly_idx _ _).bind fun _ => (panicOnly_idx _ _).bind fun _ => panicOnly_sumLoop a b c l _
theorem panicOnly_hatLoop (γ : F) (a b : List F) : ∀ l : List Nat, PanicOnly (PrescPerm.hatLoop γ a b l)
  | [] => panicOnly_ok _
  | _ :: l => (panicOnly_idx _ _).bind fun _ => (panicOnly_idx _ _).bind fun _ => (panicOnly_hatLoop γ a b l).bind fun _ => panicOnly_ok _
theorem panicOnly_rotated : ∀ l : List F, PanicOnly (StrictSort.rotated l)
  | [] => panicOnly_panic
  | _ :: _ => panicOnly_ok _
theorem panicOnly_padTo (n : Nat) (l : List F) : PanicOnly (padTo n l) := panicOnly_ite panicOnly_panic (panicOnly_ok _)
theorem panicOnly_prefixOf {α : Type} (n : Nat) (l : List α) : PanicOnly (FinalJoin.prefixOf n l) := panicOnly_ite panicOnly_panic (panicOnly_ok _)
theorem panicOnly_mles (n : Nat) (l : List F) : PanicOnly (LmrSplit.mles n l) :=
  (panicOnly_padTo _ _).bind fun _ => (panicOnly_padTo _ _).bind fun _ => (Par.panicOnly_fromEvals _ _).bind fun _ => (Par.panicOnly_fromEvals _ _).bind fun _ => panicOnly_ok _
theorem panicOnly_multMle (n : Nat) (l : List Nat) : PanicOnly (LmrSplit.multMle n l : Res (Mle F)) :=
  (panicOnly_padTo _ _).bind fun _ => Par.panicOnly_fromEvals _ _

theorem panicOnly_divPow2 (v : F) (k : Nat) : PanicOnly (Multitool.divPow2 v k) := panicOnly_ite panicOnly_panic (panicOnly_ok _)
theorem panicOnly_multCount : ∀ (p s : List F) (m : List (F × Nat)), PanicOnly (multCount p s m)
  | [], _, _ => panicOnly_ok _
  | _ :: _, [], _ => panicOnly_panic
  | _ :: ps, _ :: ss, _ => panicOnly_multCount ps ss _
theorem panicOnly_adviceLoop : ∀ (p s : List F) (m : List (F × Nat)), PanicOnly (Inclusion.adviceLoop p s m)
  | [], _, _ => panicOnly_ok _
  | _ :: _, [], _ => panicOnly_panic
  | v :: ps, s :: ss, m => by
    unfold Inclusion.adviceLoop
    split
    · exact (panicOnly_adviceLoop ps ss _).bind fun _ => panicOnly_ok _
    · split
      · exact (panicOnly_adviceLoop ps ss _).bind fun _ => panicOnly_ok _
      · exact (panicOnly_adviceLoop ps ss _).bind fun _ => panicOnly_ok _
theorem panicOnly_adviceMle (a b c d : Mle F) : PanicOnly (Inclusion.adviceMle a b c d) :=
  (panicOnly_multCount _ _ _).bind fun _ => (panicOnly_adviceLoop _ _ _).bind fun _ => Par.panicOnly_fromEvals _ _
theorem panicOnly_adviceVecs (E : Env F C) (n : Nat) (a b : List (F × Nat)) : PanicOnly (Disjoint.adviceVecs E n a b) := by
  unfold Disjoint.adviceVecs
  exact panicOnly_ite panicOnly_panic (panicOnly_ok _)
theorem panicOnly_keyMap : ∀ (v s : List F) (i : Nat) (m : List (F × Nat)), PanicOnly (FinalJoin.keyMap v s i m)
  | [], _, _, _ => panicOnly_ok _
  | _ :: _, [], _, _ => panicOnly_panic
  | _ :: vs, _ :: ss, _, _ => panicOnly_keyMap vs ss _ _
theorem panicOnly_applyLoop (o : List F) : ∀ (ks : List Nat) (s : List F), PanicOnly (FinalJoin.applyLoop o ks s)
  | [], _ => panicOnly_ok _
  | _ :: _, [] => panicOnly_panic
  | k :: ks, s :: ss => by
    unfold FinalJoin.applyLoop
    exact panicOnly_ite ((panicOnly_idx _ _).bind fun _ => (panicOnly_applyLoop o ks ss).bind fun _ => panicOnly_ok _)
      ((panicOnly_applyLoop o ks ss).bind fun _ => panicOnly_ok _)
theorem lookups_kind (m : List (F × Nat)) : ∀ (v s : List F) (k : ErrKind), FinalJoin.lookups m v s = .error (.err k) → k = .invalidParameters
  | [], _, _, h => by cases h
  | _ :: _, [], _, h => by cases h
  | v :: vs, s :: ss, k, h => by
    unfold FinalJoin.lookups at h
    have step : ∀ x, (FinalJoin.lookups m vs ss >>= fun r => .ok (x :: r)) = .error (.err k) → k = .invalidParameters := by
      intro x hx
      rcases e : FinalJoin.lookups m vs ss with e1 | r
      · rw [e, error_bind] at hx
        exact lookups_kind m vs ss k (by rw [e, hx])
      · rw [e] at hx
        cases hx
    split at h
    · split at h
      · cases h
        rfl
      · exact step _ h
    · exact step _ h
theorem validate_kind {X : Type} (n : Nat) (i : GroupInstr X) (k : ErrKind) (h : GroupBy.validate n i = .error (.err k)) : k = .invalidParameters := by
  unfold GroupBy.validate at h
  split at h
  · cases h
    rfl
  · rcases e : idx i.groupingCols 0 with x | g
    · rw [e, error_bind] at h
      exact (panicOnly_idx _ _ k (by rw [e, Except.error.inj h])).elim
    · rw [e, ok_bind] at h
      split at h
      · cases h
        rfl
      · split at h
        · cases h
          rfl
        · exact (((panicOnly_idx i.supportCols 0).bind fun _ => panicOnly_ok _) k h).elim
theorem panicOnly_runOf (v : F) (l : List F) : PanicOnly (LmrSplit.runOf v l) := by
  unfold LmrSplit.runOf
  split
  · exact panicOnly_panic
  · exact panicOnly_ok _
theorem panicOnly_multMerge (E : Env F C) : ∀ (n : Nat) (a : List F) (i : Nat) (b : List F) (j : Nat), PanicOnly (LmrSplit.multMerge E n a i b j)
  | 0, _, _, _, _ => panicOnly_ok _
  | n + 1, a, i, b, j => by
    unfold LmrSplit.multMerge
    refine panicOnly_ite (panicOnly_ok _) ?_
    split
    · exact panicOnly_ite ((panicOnly_runOf _ _).bind fun _ => (panicOnly_multMerge E n _ _ _ _).bind fun _ => panicOnly_ok _)
        (panicOnly_ite ((panicOnly_runOf _ _).bind fun _ => (panicOnly_multMerge E n _ _ _ _).bind fun _ => panicOnly_ok _)
          ((panicOnly_multMerge E n _ _ _ _).bind fun _ => panicOnly_ok _))
    · exact panicOnly_panic
theorem panicOnly_multTail : ∀ s a : List F, PanicOnly (LmrSplit.multTail s a)
  | [], _ => panicOnly_ok _
  | s :: ss, a => by
    unfold LmrSplit.multTail
    refine panicOnly_ite (panicOnly_multTail ss a) ?_
    split
    · exact panicOnly_panic
    · exact (panicOnly_runOf _ _).bind fun _ => (panicOnly_multTail ss _).bind fun _ => panicOnly_ok _
theorem panicOnly_multVecs (E : Env F C) (a b c d : List F) : PanicOnly (LmrSplit.multVecs E a b c d) := by
  unfold LmrSplit.multVecs
  exact (panicOnly_multMerge E _ _ _ _ _).bind fun _ => (panicOnly_multTail _ _).bind fun _ => (panicOnly_multTail _ _).bind fun _ => panicOnly_ok _

syntax "panics_only" : tactic
macro_rules | `(tactic| panics_only) => `(tactic| with_reducible first
  | exact Par.panicOnly_fromEvals _ _ | exact panicOnly_idx _ _ | exact panicOnly_sumLoop _ _ _ _ _ | exact panicOnly_hatLoop _ _ _ _ | exact panicOnly_rotated _
  | exact panicOnly_padTo _ _ | exact panicOnly_prefixOf _ _ | exact panicOnly_mles _ _ | exact panicOnly_multMle _ _ | exact panicOnly_divPow2 _ _
  | exact panicOnly_multCount _ _ _ | exact panicOnly_adviceMle _ _ _ _ | exact panicOnly_adviceVecs _ _ _ _ | exact panicOnly_keyMap _ _ _ _
  | exact panicOnly_applyLoop _ _ _ | exact panicOnly_multVecs _ _ _ _ _ | exact panicOnly_panic | exact panicOnly_ok _)

/-! ### The prover -/

/-- The kinds the commitment scheme returns. -/
def CK (E : Env F C) (k : ErrKind) : Prop := ∃ p, E.commit p = .error (.err k)
/-- The same or a complaint about the arguments. -/
def PK (E : Env F C) (k : ErrKind) : Prop := k = .invalidParameters ∨ CK E k

/-- For the prover. -/
abbrev Errs {α : Type} (K : ErrKind → Prop) (m : Act (PTracker F C) α) : Prop := ErrsT (fun t : PTracker F C => t.transcript) K m

variable {K : ErrKind → Prop}

namespace PTracker
theorem errs_of_same {α : Type} {m : Act (PTracker F C) α} (h1 : NoErr m) (h2 : ∀ t, (m t).2.transcript = t.transcript) : Errs K m := by
  intro t
  refine ⟨fun k e => ?_, fun h => (congrArg Transcript.isEmpty (h2 t)).trans h⟩
  rcases h : m t with ⟨r, t'⟩
  rw [h] at e
  exact (h1 t k t' (by rw [h, ← e])).elim
theorem trackVirt_errs (v : VRep F) : Errs K (trackVirt v : Act (PTracker F C) _) := errs_of_same (noErr_virt v) fun _ => rfl
theorem trackMatArc_errs (a : ArcMle F) : Errs K (trackMatArc a : Act (PTracker F C) _) := errs_of_same (noErr_matArc a) fun _ => rfl
theorem trackMat_errs (p : Mle F) : Errs K (trackMat p : Act (PTracker F C) _) := errs_of_same (noErr_mat p) fun _ => rfl
theorem allocArc_errs (p : Mle F) : Errs K (allocArc p : Act (PTracker F C) _) := errs_of_same (noErr_alloc p) fun _ => rfl
theorem materialize_errs (i : Nat) : Errs K (materialize i : Act (PTracker F C) _) := by
  refine errs_of_same (materialize_noErr i) fun t => ?_
  rcases hm : t.mats.lookup i with _ | a
  · rcases hv : t.virts.lookup i with _ | v
    · rw [PTracker.materialize_unknown hm hv]
    · rcases hr : t.materializeRep v with x | m
      · rw [PTracker.materialize_bad hm hv hr]
      · rw [PTracker.materialize_virt hm hv hr]
  · rw [PTracker.materialize_mat hm]
theorem evaluations_errs (i : Nat) : Errs K (evaluations i : Act (PTracker F C) _) :=
  .bind (materialize_errs i) fun _ => .bind (.reads fun _ => panicOnly_unwrap _) fun _ => .pure _
theorem increaseNv_errs {inc : Mle F → Nat → Res (Mle F)} (h : ∀ p n, PanicOnly (inc p n)) (i k : Nat) : Errs K (increaseNv inc i k : Act (PTracker F C) _) := by
  refine .bind (materialize_errs i) fun _ => .bind (.reads fun _ => panicOnly_unwrap _) fun a => .bind ?_ fun b => trackMatArc_errs b
  unfold PTracker.incArc
  exact .ite (.pure _) (.bind (.lift (h _ _)) fun _ => allocArc_errs _)
theorem trackAndCommit_errs {commit : Mle F → Res C} {p : Mle F} (h : ∀ k, commit p = .error (.err k) → K k) : Errs K (trackAndCommit commit p) :=
  .bind (.liftK h) fun _ => .bind (trackMat_errs p) fun _ => .bind (.modify fun _ h => h) fun _ => .bind (.modify fun _ _ => rfl) fun _ => .pure _
theorem challenge_errs (H : Oracle F C) (l : String) : Errs K (challenge H l) := by
  refine ErrsT.chal (H := H) (l := l) fun t => ?_
  unfold PTracker.challenge
  rcases transcript_challenge_cases H t.transcript l with ⟨h1, h2⟩ | ⟨c, t', h1, h2⟩
  · exact .inl ⟨h1, by rw [h1], h2⟩
  · exact .inr ⟨c, t', { t with transcript := t' }, h1, by rw [h1], rfl, h2⟩
theorem append_errs (l : String) (d : TItem F C) : Errs K (append l d) := .modify fun _ _ => rfl
theorem addSumClaim_errs (i : Nat) (v : F) : Errs K (addSumClaim i v : Act (PTracker F C) _) := .modify fun _ h => h
theorem addZeroClaim_errs (i : Nat) : Errs K (addZeroClaim i : Act (PTracker F C) _) := .modify fun _ h => h
theorem addSubPolys_errs (i j : Nat) (s : Bool) : Errs K (addSubPolys i j s : Act (PTracker F C) _) := .bind (.reads fun _ => panicOnly_addSubRep _ _ _ _) fun _ => trackVirt_errs _
theorem mulPolys_errs (i j : Nat) : Errs K (mulPolys i j : Act (PTracker F C) _) := .bind (.reads fun _ => panicOnly_mulRep _ _ _) fun _ => trackVirt_errs _
theorem mulScalar_errs (i : Nat) (c : F) : Errs K (mulScalar i c : Act (PTracker F C) _) := .bind (.reads fun _ => panicOnly_mulScalarRep _ _ _) fun _ => trackVirt_errs _
theorem addScalar_errs (i : Nat) (c : F) : Errs K (addScalar i c : Act (PTracker F C) _) :=
  .bind (.reads fun _ => panicOnly_getPolyNv _ _) fun _ => .bind (.lift (Par.panicOnly_fromEvals _ _)) fun _ => .bind (trackMat_errs _) fun _ => addSubPolys_errs _ _ _
end PTracker

syntax "errs_call" : tactic
macro_rules | `(tactic| errs_call) => `(tactic| fail "no rule")

/-- All steps of a call. -/
macro "errs" : tactic => `(tactic| repeat (first
  | with_reducible exact ErrsT.pure _ | (with_reducible refine ErrsT.lift ?_; panics_only) | with_reducible exact ErrsT.assert _
  | errs_call
  | with_reducible refine ErrsT.bind ?_ fun _ => ?_
  | with_reducible refine ErrsT.ite ?_ ?_))

namespace TPoly
theorem trackMat_errs (p : Mle F) : Errs K (TPoly.trackMat p : Act (PTracker F C) _) := .bind (PTracker.trackMat_errs p) fun _ => .pure _
theorem commit_errs {commit : Mle F → Res C} {p : Mle F} (h : ∀ k, commit p = .error (.err k) → K k) : Errs K (TPoly.trackAndCommit commit p) := .bind (PTracker.trackAndCommit_errs h) fun _ => .pure _
theorem trackAndCommit_errs (E : Env F C) (p : Mle F) : Errs (CK E) (TPoly.trackAndCommit E.commit p) := commit_errs fun _ h => ⟨p, h⟩
theorem trackAndCommit_errsP (E : Env F C) (p : Mle F) : Errs (PK E) (TPoly.trackAndCommit E.commit p) := commit_errs fun _ h => .inr ⟨p, h⟩
theorem add_errs (a b : TPoly) : Errs K (F := F) (C := C) (a.add b) := .bind (.assert _) fun _ => .bind (addSubPolys_errs _ _ _) fun _ => .pure _
theorem sub_errs (a b : TPoly) : Errs K (F := F) (C := C) (a.sub b) := .bind (.assert _) fun _ => .bind (addSubPolys_errs _ _ _) fun _ => .pure _
theorem mul_errs (a b : TPoly) : Errs K (F := F) (C := C) (a.mul b) := .bind (.assert _) fun _ => .bind (mulPolys_errs _ _) fun _ => .pure _
theorem addScalar_errs (a : TPoly) (c : F) : Errs K (C := C) (a.addScalar c) := .bind (PTracker.addScalar_errs _ _) fun _ => .pure _
theorem mulScalar_errs (a : TPoly) (c : F) : Errs K (C := C) (a.mulScalar c) := .bind (PTracker.mulScalar_errs _ _) fun _ => .pure _
theorem incFront_errs (a : TPoly) (k : Nat) : Errs K (F := F) (C := C) (a.incFront k) := .bind (increaseNv_errs panicOnly_incFront _ _) fun _ => .pure _
theorem incBack_errs (a : TPoly) (k : Nat) : Errs K (F := F) (C := C) (a.incBack k) := .bind (increaseNv_errs panicOnly_incBack _ _) fun _ => .pure _
theorem evaluations_errs (a : TPoly) : Errs K (F := F) (C := C) a.evaluations := PTracker.evaluations_errs _
end TPoly

macro_rules | `(tactic| errs_call) => `(tactic| with_reducible first
  | exact TPoly.trackMat_errs _ | exact TPoly.trackAndCommit_errs _ _ | exact TPoly.trackAndCommit_errsP _ _ | exact TPoly.add_errs _ _ | exact TPoly.sub_errs _ _ | exact TPoly.mul_errs _ _
  | exact TPoly.addScalar_errs _ _ | exact TPoly.mulScalar_errs _ _ | exact TPoly.incFront_errs _ _ | exact TPoly.incBack_errs _ _
  | exact TPoly.evaluations_errs _ | exact addSumClaim_errs _ _ | exact addZeroClaim_errs _ | exact PTracker.challenge_errs _ _)

theorem bagNew_errs (d : Bool) (a b : TPoly) : Errs K (F := F) (C := C) (Bag.new d a b) := by
  unfold Bag.new
  errs
theorem tableNew_errs (d : Bool) (a : List TPoly) (b : TPoly) : Errs K (F := F) (C := C) (Table.new d a b) := by
  unfold Table.new
  errs
macro_rules | `(tactic| errs_call) => `(tactic| with_reducible first | exact bagNew_errs _ _ _ | exact tableNew_errs _ _ _)

/-! ### Provers -/
variable (E : Env F C)

theorem toPK {α : Type} {m : Act (PTracker F C) α} (h : Errs (CK E) m) : Errs (PK E) m := h.mono fun _ => .inr
theorem params_errs {α : Type} : Errs (PK E) (Act.lift (.error (.err .invalidParameters)) : Act (PTracker F C) α) := .liftK fun _ e => by cases e; exact .inl rfl
macro_rules | `(tactic| errs_call) => `(tactic| with_reducible exact params_errs _)

theorem proveSub_errs (b : Bag) (m : TPoly) (γ : F) : Errs (CK E) (Multitool.proveSub E b m γ) := by
  unfold Multitool.proveSub
  errs
theorem proveSubs_errs (γ : F) : ∀ l : List (Bag × TPoly), Errs (CK E) (Multitool.proveSubs E γ l)
  | [] => .pure _
  | (b, m) :: r => .bind (proveSub_errs E b m γ) fun _ => proveSubs_errs γ r
macro_rules | `(tactic| errs_call) => `(tactic| with_reducible exact toPK _ (proveSubs_errs _ _ _))

theorem multitool_errs (fxs gxs : List Bag) (mf mg : List TPoly) : Errs (PK E) (Multitool.prove E fxs gxs mf mg) := by
  unfold Multitool.prove
  errs
macro_rules | `(tactic| errs_call) => `(tactic| with_reducible exact multitool_errs _ _ _ _ _)

theorem bagEq_errs (f g : Bag) : Errs (PK E) (BagEq.prove E f g) := by unfold BagEq.prove; errs
theorem bagSum_errs (f g h : Bag) : Errs (PK E) (BagSum.prove E f g h) := by unfold BagSum.prove; errs
theorem noZeros_errs (b : Bag) : Errs (CK E) (NoZeros.prove E b) := by unfold NoZeros.prove; errs
theorem selector_errs (s : TPoly) : Errs K (F := F) (C := C) (SelectorValid.prove s) := by unfold SelectorValid.prove; errs
macro_rules | `(tactic| errs_call) => `(tactic| with_reducible first
  | exact bagEq_errs _ _ _ | exact bagSum_errs _ _ _ _ | exact toPK _ (noZeros_errs _ _) | exact selector_errs _)

theorem incAdvice_errs (a b : Bag) : Errs K (F := F) (C := C) (Inclusion.advice a b) := by unfold Inclusion.advice; errs
theorem inclusionWith_errs (a b : Bag) (m : TPoly) : Errs (PK E) (Inclusion.proveWithAdvice E a b m) := by unfold Inclusion.proveWithAdvice; errs
macro_rules | `(tactic| errs_call) => `(tactic| with_reducible first | exact incAdvice_errs _ _ | exact inclusionWith_errs _ _ _ _)
theorem inclusion_errs (a b : Bag) : Errs (PK E) (Inclusion.prove E a b) := by unfold Inclusion.prove; errs
theorem permutation_errs (a b : Bag) (p : TPoly) : Errs (PK E) (PrescPerm.prove E a b p) := by unfold PrescPerm.prove; errs
theorem debugDiff_errs (d : Bool) (a : TPoly) (l : List F) : Errs K (C := C) (StrictSort.debugDiff d a l) := by unfold StrictSort.debugDiff; errs
macro_rules | `(tactic| errs_call) => `(tactic| with_reducible first
  | exact inclusion_errs _ _ _ | exact permutation_errs _ _ _ _ | exact debugDiff_errs _ _ _)
theorem sort_errs (a r : Bag) : Errs (PK E) (StrictSort.prove E a r) := by unfold StrictSort.prove; errs
macro_rules | `(tactic| errs_call) => `(tactic| with_reducible exact sort_errs _ _ _)
theorem suppWith_errs (a b : Bag) (m : TPoly) (r : Bag) : Errs (PK E) (Supp.proveWithAdvice E a b m r) := by unfold Supp.proveWithAdvice; errs
macro_rules | `(tactic| errs_call) => `(tactic| with_reducible exact suppWith_errs _ _ _ _ _)
theorem supp_errs (a b r : Bag) : Errs (PK E) (Supp.prove E a b r) := by unfold Supp.prove; errs
theorem suppAdvice_errs (a : Bag) : Errs K (Supp.advice E a) := by unfold Supp.advice; dsimp only; errs
theorem bagCount_errs (a : Bag) : Errs K (F := F) (C := C) (Disjoint.bagCount a) := by unfold Disjoint.bagCount; errs
macro_rules | `(tactic| errs_call) => `(tactic| with_reducible first | exact supp_errs _ _ _ _ | exact bagCount_errs _)
theorem disjointAdvice_errs (a b : Bag) : Errs K (Disjoint.advice E a b) := by unfold Disjoint.advice; dsimp only; errs
theorem disjointWith_errs (a b c : Bag) (m n : TPoly) (r : Bag) : Errs (PK E) (Disjoint.proveWithAdvice E a b c m n r) := by unfold Disjoint.proveWithAdvice; errs
macro_rules | `(tactic| errs_call) => `(tactic| with_reducible first | exact disjointAdvice_errs _ _ _ | exact disjointWith_errs _ _ _ _ _ _ _)
theorem disjoint_errs (a b r : Bag) : Errs (PK E) (Disjoint.prove E a b r) := by unfold Disjoint.prove; errs
theorem setDisjoint_errs (a b r : Bag) : Errs (PK E) (SetDisjoint.prove E a b r) := by unfold SetDisjoint.prove; dsimp only; errs
macro_rules | `(tactic| errs_call) => `(tactic| with_reducible first | exact disjoint_errs _ _ _ _ | exact setDisjoint_errs _ _ _ _)
theorem setDiff_errs (a b l m : Bag) (bm : TPoly) (r : Bag) : Errs (PK E) (SetDiff.prove E a b l m bm r) := by unfold SetDiff.prove; errs
theorem setUnion_errs (a b u r : Bag) : Errs (PK E) (SetUnion.prove E a b u r) := by unfold SetUnion.prove; dsimp only; errs
theorem setIntersect_errs (a b l m r x : Bag) : Errs (PK E) (SetIntersect.prove E a b l m r x) := by unfold SetIntersect.prove; errs
theorem joinReduction_errs (a b : Bag) (l r : TPoly) (x : Bag) : Errs (PK E) (JoinReduction.prove E a b l r x) := by unfold JoinReduction.prove; errs

theorem incFronts_errs (k : Nat) : ∀ l : List TPoly, Errs K (F := F) (C := C) (CrossProduct.incFronts k l)
  | [] => .pure _
  | _ :: r => .bind (TPoly.incFront_errs _ _) fun _ => .bind (incFronts_errs k r) fun _ => .pure _
theorem incBacks_errs (k : Nat) : ∀ l : List TPoly, Errs K (F := F) (C := C) (CrossProduct.incBacks k l)
  | [] => .pure _
  | _ :: r => .bind (TPoly.incBack_errs _ _) fun _ => .bind (incBacks_errs k r) fun _ => .pure _
macro_rules | `(tactic| errs_call) => `(tactic| with_reducible first | exact incFronts_errs _ _ | exact incBacks_errs _ _)
theorem crossProduct_errs (a b : Table) : Errs K (CrossProduct.prover E a b) := by unfold CrossProduct.prover; errs
theorem frontAlias_errs (a : TPoly) (k : Nat) : Errs K (F := F) (C := C) (CrossProduct.frontAlias a k) := by unfold CrossProduct.frontAlias; errs
theorem backAlias_errs (a : TPoly) (k : Nat) : Errs K (F := F) (C := C) (CrossProduct.backAlias a k) := by unfold CrossProduct.backAlias; errs

theorem powers_errs (n : Nat) : Errs K (IndexTransform.proverPowers E n) := by unfold IndexTransform.proverPowers; errs
theorem rands_errs : ∀ n : Nat, Errs K (IndexTransform.proverRands E n)
  | 0 => .pure _
  | n + 1 => .bind (PTracker.challenge_errs _ _) fun _ => .bind (rands_errs n) fun _ => .pure _
theorem aggLoop_errs : ∀ (acc : TPoly) (cs : List TPoly) (rs : List F), Errs K (C := C) (IndexTransform.proverAggLoop acc cs rs)
  | _, [], _ => .pure _
  | _, _ :: _, [] => .lift panicOnly_panic
  | _, _ :: cs, _ :: rs => .bind (TPoly.mulScalar_errs _ _) fun _ => .bind (TPoly.mul_errs _ _) fun _ => aggLoop_errs _ cs rs
macro_rules | `(tactic| errs_call) => `(tactic| with_reducible first | exact powers_errs _ _ | exact aggLoop_errs _ _ _)
theorem agg_errs (t : Table) (l : List F) : Errs K (IndexTransform.proverAgg E t l) := by unfold IndexTransform.proverAgg; errs
macro_rules | `(tactic| errs_call) => `(tactic| with_reducible exact agg_errs _ _ _)
theorem indexTransform_errs (a b : Table) : Errs (PK E) (IndexTransform.prove E a b) := by unfold IndexTransform.prove; errs

theorem transform_errs (a b : Table) (i j : Nat) : Errs (F := F) (C := C) (PK E) (FinalJoin.transform a b i j) := by
  unfold FinalJoin.transform
  errs
  exact .liftK fun k e => .inl (lookups_kind _ _ _ k e)
theorem applyTransform_errs (ks : List Nat) (o a : TPoly) : Errs K (FinalJoin.applyTransform E ks o a) := by unfold FinalJoin.applyTransform; errs
theorem applyAll_errs (ks : List Nat) (a : TPoly) : ∀ l : List TPoly, Errs K (FinalJoin.applyAll E ks a l)
  | [] => .pure _
  | _ :: r => .bind (applyTransform_errs E _ _ _) fun _ => .bind (applyAll_errs ks a r) fun _ => .pure _
theorem commitAll_errs : ∀ l : List (Mle F), Errs (CK E) (FinalJoin.commitAll E l)
  | [] => .pure _
  | _ :: r => .bind (TPoly.trackAndCommit_errs _ _) fun _ => .bind (commitAll_errs r) fun _ => .pure _
theorem debugKeys_errs (a : Table) (i : Nat) : Errs (PK E) (FinalJoin.debugKeys E a i) := by unfold FinalJoin.debugKeys; errs
macro_rules | `(tactic| errs_call) => `(tactic| with_reducible first
  | exact indexTransform_errs _ _ _ | exact transform_errs _ _ _ _ _ | exact applyAll_errs _ _ _ _ | exact toPK _ (commitAll_errs _ _) | exact debugKeys_errs _ _ _)
theorem joinWith_errs (a b : Table) (i j : Nat) (l : List TPoly) : Errs (PK E) (FinalJoin.proveWithAdvice E a b i j l) := by unfold FinalJoin.proveWithAdvice; errs
macro_rules | `(tactic| errs_call) => `(tactic| with_reducible exact joinWith_errs _ _ _ _ _ _)
theorem join_errs (a b : Table) (i j : Nat) : Errs (PK E) (FinalJoin.prove E a b i j) := by unfold FinalJoin.prove; errs

theorem aggs_errs (inp : Table) (pre grp : Bag) (m : TPoly) : ∀ (l : List (Nat × AggType × TPoly)) (cols : List TPoly),
    Errs (PK E) (GroupBy.proveAggs E inp pre grp m l cols)
  | [], _ => .pure _
  | (_, .count, _) :: r, cols => by unfold GroupBy.proveAggs; exact aggs_errs inp pre grp m r _
  | (_, .sum, _) :: r, cols => by
    unfold GroupBy.proveAggs
    exact .bind (.lift (panicOnly_idx _ _)) fun _ => .bind (multitool_errs E _ _ _ _) fun _ => aggs_errs inp pre grp m r _
  | (_, .avg, _) :: _, _ => .lift panicOnly_panic
  | (_, .min, _) :: _, _ => .lift panicOnly_panic
  | (_, .max, _) :: _, _ => .lift panicOnly_panic
macro_rules | `(tactic| errs_call) => `(tactic| with_reducible exact aggs_errs _ _ _ _ _ _ _)
theorem groupBy_errs (inp : Table) (i : GroupInstr TPoly) (r : Bag) : Errs (PK E) (GroupBy.proveWithAdvice E inp i r) := by
  unfold GroupBy.proveWithAdvice
  refine .bind (.liftK fun k e => .inl (validate_kind _ _ k e)) fun gs => ?_
  obtain ⟨g, sp⟩ := gs
  dsimp only
  errs

theorem commitBag_errs (q : Mle F × Mle F) : Errs (CK E) (LmrSplit.commitBag E q) := by unfold LmrSplit.commitBag; errs
macro_rules | `(tactic| errs_call) => `(tactic| with_reducible exact commitBag_errs _ _)
theorem split_errs (a b : Bag) : Errs (CK E) (LmrSplit.bag E a b) := by unfold LmrSplit.bag; dsimp only; errs
theorem setSplit_errs (a b : Bag) : Errs (CK E) (LmrSplit.set E a b) := .bind (split_errs E a b) fun _ => .pure _
theorem multSplit_errs (a b : Bag) : Errs (CK E) (LmrSplit.multBag E a b) := by unfold LmrSplit.multBag; dsimp only; errs

theorem check_errs : ∀ c : Check TPoly, Errs (PK E) (c.prove E)
  | .multiset _ _ => multitool_errs E _ _ _ _
  | .bagEq _ _ => bagEq_errs E _ _
  | .bagSum _ _ _ => bagSum_errs E _ _ _
  | .inclusion _ _ => inclusion_errs E _ _
  | .inclusionAdvice _ _ _ => inclusionWith_errs E _ _ _
  | .noZeros _ => toPK E (noZeros_errs E _)
  | .selector _ => selector_errs _
  | .permutation _ _ _ => permutation_errs E _ _ _
  | .sort _ _ => sort_errs E _ _
  | .support _ _ _ => supp_errs E _ _ _
  | .supportAdvice _ _ _ _ => suppWith_errs E _ _ _ _
  | .disjoint _ _ _ => disjoint_errs E _ _ _
  | .setDisjoint _ _ _ => setDisjoint_errs E _ _ _
  | .union _ _ _ _ => setUnion_errs E _ _ _ _
  | .diff _ _ _ _ _ _ => setDiff_errs E _ _ _ _ _ _
  | .intersect _ _ _ _ _ _ => setIntersect_errs E _ _ _ _ _ _
  | .joinReduction _ _ _ _ _ => joinReduction_errs E _ _ _ _ _
  | .indexTransform _ _ => indexTransform_errs E _ _
  | .joinAdvice _ _ _ _ _ => .bind (joinWith_errs E _ _ _ _ _) fun _ => .pure _
  | .groupBy _ _ _ _ _ _ => .bind (groupBy_errs E _ _ _) fun _ => .pure _

theorem op_errs : ∀ o : HandleOp F, Errs (fun k => proverKind E k (.op o)) (o.run E)
  | .track _ => TPoly.trackMat_errs _
  | .commit _ => TPoly.commit_errs fun _ h => h
  | .add _ _ => TPoly.add_errs _ _
  | .sub _ _ => TPoly.sub_errs _ _
  | .mul _ _ => TPoly.mul_errs _ _
  | .addScalar _ _ => TPoly.addScalar_errs _ _
  | .mulScalar _ _ => TPoly.mulScalar_errs _ _
  | .incFront _ _ => TPoly.incFront_errs _ _
  | .incBack _ _ => TPoly.incBack_errs _ _

theorem call_errs : ∀ c : ProverCall F C, Errs (fun k => proverKind E k c) (c.run E)
  | .op o => .forget (op_errs E o)
  | .read _ => .forget (TPoly.evaluations_errs _)
  | .challenge _ => .forget (PTracker.challenge_errs _ _)
  | .append _ _ => append_errs _ _
  | .sumClaim _ _ => addSumClaim_errs _ _
  | .zeroClaim _ => addZeroClaim_errs _
  | .bag _ _ => .forget (bagNew_errs _ _ _)
  | .table _ _ => .forget (tableNew_errs _ _ _)
  | .check c => by
    cases c with
    | noZeros f => exact noZeros_errs E _
    | selector f => exact selector_errs _
    | _ => exact check_errs E _
  | .join _ _ _ _ => .forget (join_errs E _ _ _ _)
  | .cross _ _ => .forget (crossProduct_errs E _ _)
  | .split _ _ => .forget (split_errs E _ _)
  | .setSplit _ _ => .forget (setSplit_errs E _ _)
  | .multSplit _ _ => .forget (multSplit_errs E _ _)
  | .inclusionAdvice _ _ => .forget (incAdvice_errs _ _)
  | .supportAdvice _ => .forget (suppAdvice_errs E _)
  | .disjointAdvice _ _ => .forget (disjointAdvice_errs E _ _)

/-! ### The verifier -/

/-- For the verifier. -/
abbrev VErrs {α : Type} (K : ErrKind → Prop) (m : Act (VSt F C B) α) : Prop := ErrsT (fun s : VSt F C B => s.own.transcript) K m

/-- The comparison of the claimed sums fails. -/
def VK (k : ErrKind) : Prop := k = .invalidVerifier
/-- The same or a complaint about the request. -/
def VPK (k : ErrKind) : Prop := k = .invalidParameters ∨ k = .invalidVerifier

namespace VErrs
variable {α β : Type} {K : ErrKind → Prop}

theorem bind {m : Act (VSt F C B) α} {f : α → Act (VSt F C B) β} (h : VErrs K m) (hf : ∀ a, VErrs K (f a)) : VErrs K (m >>= f) := ErrsT.bind h hf
theorem pure (a : α) : VErrs K (Pure.pure a : Act (VSt F C B) α) := ErrsT.pure _
theorem lift {r : Res α} (h : PanicOnly r) : VErrs K (Act.lift r : Act (VSt F C B) α) := ErrsT.lift h
theorem ite {p : Prop} [Decidable p] {m m' : Act (VSt F C B) α} (h1 : VErrs K m) (h2 : VErrs K m') : VErrs K (if p then m else m') := ErrsT.ite h1 h2
theorem forget {m : Act (VSt F C B) α} (h : VErrs K m) : VErrs K (Spec.forget m) := ErrsT.forget h
theorem nextId : VErrs K (VSt.getNextId : Act (VSt F C B) Nat) := fun _ => ⟨fun _ e => (by cases e), id⟩
theorem genId : VErrs K (VSt.genId : Act (VSt F C B) Nat) := fun _ => ⟨fun _ e => (by cases e), id⟩
theorem virtual (c : VComm F) : VErrs K (VSt.trackVirtual c : Act (VSt F C B) Nat) := fun _ => ⟨fun _ e => (by cases e), id⟩
theorem trackMat (c : C) : VErrs K (VSt.trackMatComm c : Act (VSt F C B) Nat) := fun _ => ⟨fun _ e => (by cases e), fun _ => rfl⟩
theorem add (i j : Nat) : VErrs K (VSt.addComms i j : Act (VSt F C B) Nat) := virtual _
theorem sub (i j : Nat) : VErrs K (VSt.subComms i j : Act (VSt F C B) Nat) := virtual _
theorem mul (i j : Nat) : VErrs K (VSt.mulComms i j : Act (VSt F C B) Nat) := virtual _
theorem mulScalar (i : Nat) (c : F) : VErrs K (VSt.mulScalar i c : Act (VSt F C B) Nat) := virtual _
theorem incFront (i k : Nat) : VErrs K (VSt.incFront i k : Act (VSt F C B) Nat) := virtual _
theorem incBack (i k : Nat) : VErrs K (VSt.incBack i k : Act (VSt F C B) Nat) := virtual _
theorem addScalar (i : Nat) (c : F) : VErrs K (VSt.addScalar i c : Act (VSt F C B) Nat) := bind genId fun _ => virtual _
theorem transfer (d : Bool) (i : Nat) : VErrs K (VSt.transferComm d i : Act (VSt F C B) Nat) :=
  bind (ErrsT.reads fun _ => panicOnly_unwrap _) fun _ => bind (ErrsT.expect (trackMat _)) fun _ => bind (ErrsT.assert _) fun _ => pure _
theorem challenge (H : Oracle F C) (l : String) : VErrs K (VSt.challenge H l : Act (VSt F C B) F) := by
  refine ErrsT.chal (H := H) (l := l) fun s => ?_
  unfold VSt.challenge
  rcases transcript_challenge_cases H s.own.transcript l with ⟨h1, h2⟩ | ⟨c, t', h1, h2⟩
  · exact .inl ⟨h1, by rw [h1], h2⟩
  · exact .inr ⟨c, t', { s with own := { s.own with transcript := t' } }, h1, by rw [h1], rfl, h2⟩
theorem append (l : String) (d : TItem F C) : VErrs K (VSt.append l d : Act (VSt F C B) Unit) := ErrsT.modify fun _ _ => rfl
theorem sumClaim (i : Nat) (v : F) : VErrs K (VSt.addSumClaim i v : Act (VSt F C B) Unit) := ErrsT.modify fun _ h => h
theorem zeroClaim (i : Nat) : VErrs K (VSt.addZeroClaim i : Act (VSt F C B) Unit) := ErrsT.modify fun _ h => h
theorem claimedSum (i : Nat) : VErrs K (VSt.claimedSum i : Act (VSt F C B) F) := ErrsT.reads fun _ => panicOnly_unwrap _
theorem toVPK {m : Act (VSt F C B) α} (h : VErrs VK m) : VErrs VPK m := ErrsT.mono (fun _ => .inr) h

variable (E : Env F C)

syntax "verrs_call" : tactic
macro_rules | `(tactic| verrs_call) => `(tactic| fail "no rule")

/-- All steps of a call. -/
macro "verrs" : tactic => `(tactic| repeat (first
  | with_reducible exact pure _ | (with_reducible refine lift ?_; panics_only) | with_reducible exact nextId | with_reducible exact claimedSum _
  | with_reducible exact zeroClaim _ | with_reducible exact sumClaim _ _ | with_reducible exact challenge _ _ | with_reducible exact virtual _
  | with_reducible exact add _ _ | with_reducible exact sub _ _ | with_reducible exact mul _ _ | with_reducible exact mulScalar _ _
  | with_reducible exact addScalar _ _ | with_reducible exact transfer _ _ | with_reducible exact incFront _ _ | with_reducible exact incBack _ _
  | verrs_call
  | (with_reducible refine bind ?_ fun _ => ?_)
  | (with_reducible refine ite ?_ ?_)))

theorem verifySub (b : BagComm) (m : Nat) (γ : F) : VErrs K (Multitool.verifySub E b m γ : Act (VSt F C B) F) := by
  unfold Multitool.verifySub
  verrs
macro_rules | `(tactic| verrs_call) => `(tactic| with_reducible exact VErrs.verifySub _ _ _ _)

theorem verifySubs (γ : F) (t : Nat) : ∀ (l : List (BagComm × Nat)) (acc : F), VErrs K (Multitool.verifySubs E γ t l acc : Act (VSt F C B) F)
  | [], _ => pure _
  | (b, m) :: r, acc => by
    unfold Multitool.verifySubs
    verrs
    exact verifySubs γ t r _
macro_rules | `(tactic| verrs_call) => `(tactic| with_reducible exact VErrs.verifySubs _ _ _ _ _)

theorem multitoolP (fxs gxs : List BagComm) (mf mg : List Nat) : VErrs VPK (Multitool.verify E fxs gxs mf mg : Act (VSt F C B) Unit) := by
  unfold Multitool.verify
  refine ite (ErrsT.liftK fun k e => by cases e; exact .inl rfl) (ite (ErrsT.liftK fun k e => by cases e; exact .inl rfl) ?_)
  verrs
  exact ErrsT.liftK fun k e => by cases e; exact .inr rfl

theorem multitool (fxs gxs : List BagComm) (mf mg : List Nat) (h1 : fxs ≠ [] ∧ fxs.length = mf.length) (h2 : gxs ≠ [] ∧ gxs.length = mg.length) :
    VErrs VK (Multitool.verify E fxs gxs mf mg : Act (VSt F C B) Unit) := by
  unfold Multitool.verify
  rw [if_neg (by simp [h1]), if_neg (by simp [h2])]
  verrs
  exact ErrsT.liftK fun k e => by cases e; rfl
macro_rules | `(tactic| verrs_call) => `(tactic| with_reducible exact VErrs.multitool _ _ _ _ _ ⟨by simp, rfl⟩ ⟨by simp, rfl⟩)

theorem bagEq (f g : BagComm) : VErrs VK (BagEq.verify E f g : Act (VSt F C B) Unit) := by
  unfold BagEq.verify
  verrs
macro_rules | `(tactic| verrs_call) => `(tactic| with_reducible exact VErrs.bagEq _ _ _)

theorem bagSum (f g h : BagComm) : VErrs VK (BagSum.verify E f g h : Act (VSt F C B) Unit) := by
  unfold BagSum.verify
  verrs
macro_rules | `(tactic| verrs_call) => `(tactic| with_reducible exact VErrs.bagSum _ _ _ _)

theorem noZeros (b : BagComm) : VErrs K (NoZeros.verify E b : Act (VSt F C B) Unit) := by
  unfold NoZeros.verify
  verrs
macro_rules | `(tactic| verrs_call) => `(tactic| with_reducible exact VErrs.noZeros _ _)

theorem selector (i : Nat) : VErrs K (SelectorValid.verify i : Act (VSt F C B) Unit) := by
  unfold SelectorValid.verify
  verrs
macro_rules | `(tactic| verrs_call) => `(tactic| with_reducible exact VErrs.selector _)

theorem inclusionAdvice (f g : BagComm) (m : Nat) : VErrs VK (Inclusion.verifyWithAdvice E f g m : Act (VSt F C B) Unit) := by
  unfold Inclusion.verifyWithAdvice
  verrs
macro_rules | `(tactic| verrs_call) => `(tactic| with_reducible exact VErrs.inclusionAdvice _ _ _ _)

theorem inclusion (f g : BagComm) : VErrs VK (Inclusion.verify E f g : Act (VSt F C B) Unit) := by
  unfold Inclusion.verify
  verrs
macro_rules | `(tactic| verrs_call) => `(tactic| with_reducible exact VErrs.inclusion _ _ _)

theorem permutation (f g : BagComm) (p : Nat) : VErrs VK (PrescPerm.verify E f g p : Act (VSt F C B) Unit) := by
  unfold PrescPerm.verify
  verrs
macro_rules | `(tactic| verrs_call) => `(tactic| with_reducible exact VErrs.permutation _ _ _ _)

theorem sort (f r : BagComm) : VErrs VK (StrictSort.verify E f r : Act (VSt F C B) Unit) := by
  unfold StrictSort.verify
  dsimp only
  verrs
macro_rules | `(tactic| verrs_call) => `(tactic| with_reducible exact VErrs.sort _ _ _)

theorem suppAdvice (b p : BagComm) (m : Nat) (r : BagComm) : VErrs VK (Supp.verifyWithAdvice E b p m r : Act (VSt F C B) Unit) :=
  bind (inclusionAdvice E _ _ _) fun _ => bind (noZeros E _) fun _ => sort E _ _
macro_rules | `(tactic| verrs_call) => `(tactic| with_reducible first | exact VErrs.suppAdvice _ _ _ _ _ | exact toVPK (VErrs.suppAdvice _ _ _ _ _))

theorem supp (b p r : BagComm) : VErrs VK (Supp.verify E b p r : Act (VSt F C B) Unit) := by
  unfold Supp.verify
  verrs
macro_rules | `(tactic| verrs_call) => `(tactic| with_reducible exact VErrs.supp _ _ _ _)

theorem disjoint (a b r : BagComm) : VErrs VK (Disjoint.verify E a b r : Act (VSt F C B) Unit) := by
  unfold Disjoint.verify Disjoint.verifyWithAdvice
  dsimp only
  verrs
macro_rules | `(tactic| verrs_call) => `(tactic| with_reducible exact VErrs.disjoint _ _ _ _)

theorem setDisjoint (a b r : BagComm) : VErrs VK (SetDisjoint.verify E a b r : Act (VSt F C B) Unit) := by
  unfold SetDisjoint.verify
  dsimp only
  verrs
macro_rules | `(tactic| verrs_call) => `(tactic| with_reducible exact VErrs.setDisjoint _ _ _ _)

theorem setUnion (a b u r : BagComm) : VErrs VK (SetUnion.verify E a b u r : Act (VSt F C B) Unit) := by
  unfold SetUnion.verify
  dsimp only
  verrs
macro_rules | `(tactic| verrs_call) => `(tactic| with_reducible exact VErrs.setUnion _ _ _ _ _)

theorem setDiff (a b l m : BagComm) (bm : Nat) (r : BagComm) : VErrs VK (SetDiff.verify E a b l m bm r : Act (VSt F C B) Unit) :=
  bind (setDisjoint E _ _ _) fun _ => bind (bagSum E _ _ _) fun _ => inclusionAdvice E _ _ _
macro_rules | `(tactic| verrs_call) => `(tactic| with_reducible exact VErrs.setDiff _ _ _ _ _ _ _)

theorem setIntersect (a b l m r range : BagComm) : VErrs VK (SetIntersect.verify E a b l m r range : Act (VSt F C B) Unit) :=
  bind (bagSum E _ _ _) fun _ => bind (bagSum E _ _ _) fun _ => setDisjoint E _ _ _
macro_rules | `(tactic| verrs_call) => `(tactic| with_reducible exact VErrs.setIntersect _ _ _ _ _ _ _)

theorem joinReduction (a b : BagComm) (l r : Nat) (range : BagComm) : VErrs VK (JoinReduction.verify E a b l r range : Act (VSt F C B) Unit) := by
  unfold JoinReduction.verify
  verrs
macro_rules | `(tactic| verrs_call) => `(tactic| with_reducible exact VErrs.joinReduction _ _ _ _ _ _)

theorem vIncFronts (k : Nat) : ∀ l : List Nat, VErrs K (CrossProduct.vIncFronts k l : Act (VSt F C B) (List Nat))
  | [] => pure _
  | _ :: r => bind (incFront _ _) fun _ => bind (vIncFronts k r) fun _ => pure _
macro_rules | `(tactic| verrs_call) => `(tactic| with_reducible exact VErrs.vIncFronts _ _)

theorem vIncBacks (k : Nat) : ∀ l : List Nat, VErrs K (CrossProduct.vIncBacks k l : Act (VSt F C B) (List Nat))
  | [] => pure _
  | _ :: r => bind (incBack _ _) fun _ => bind (vIncBacks k r) fun _ => pure _
macro_rules | `(tactic| verrs_call) => `(tactic| with_reducible exact VErrs.vIncBacks _ _)

theorem crossProduct (a b : TableComm) : VErrs K (CrossProduct.verifier a b : Act (VSt F C B) TableComm) := by
  unfold CrossProduct.verifier
  verrs
macro_rules | `(tactic| verrs_call) => `(tactic| with_reducible exact VErrs.crossProduct _ _)

theorem rands : ∀ n : Nat, VErrs K (IndexTransform.verifierRands E n : Act (VSt F C B) (List F))
  | 0 => pure _
  | n + 1 => bind (challenge _ _) fun _ => bind (rands n) fun _ => pure _
macro_rules | `(tactic| verrs_call) => `(tactic| with_reducible exact VErrs.rands _ _)

theorem aggLoop : ∀ (acc : Nat) (cs : List Nat) (rs : List F), VErrs K (IndexTransform.verifierAggLoop acc cs rs : Act (VSt F C B) Nat)
  | _, [], _ => pure _
  | _, _ :: _, [] => lift panicOnly_panic
  | _, _ :: cs, _ :: rs => bind (mulScalar _ _) fun _ => bind (mul _ _) fun _ => aggLoop _ cs rs
macro_rules | `(tactic| verrs_call) => `(tactic| with_reducible exact VErrs.aggLoop _ _ _)

theorem indexTransform (a b : TableComm) : VErrs VK (IndexTransform.verify E a b : Act (VSt F C B) Unit) := by
  unfold IndexTransform.verify IndexTransform.verifierPowers IndexTransform.verifierAgg
  verrs
macro_rules | `(tactic| verrs_call) => `(tactic| with_reducible exact VErrs.indexTransform _ _ _)

theorem joinAdvice (a b : TableComm) (ai bi : Nat) (ta : List Nat) : VErrs VK (FinalJoin.verifyWithAdvice E a b ai bi ta : Act (VSt F C B) TableComm) := by
  unfold FinalJoin.verifyWithAdvice
  dsimp only
  verrs
macro_rules | `(tactic| verrs_call) => `(tactic| with_reducible exact VErrs.joinAdvice _ _ _ _ _ _)

theorem transferAll : ∀ n : Nat, VErrs K (FinalJoin.transferAll E n : Act (VSt F C B) (List Nat))
  | 0 => pure _
  | n + 1 => bind nextId fun _ => bind (transfer _ _) fun _ => bind (transferAll n) fun _ => pure _
macro_rules | `(tactic| verrs_call) => `(tactic| with_reducible exact VErrs.transferAll _ _)

theorem join (a b : TableComm) (ai bi : Nat) : VErrs VK (FinalJoin.verify E a b ai bi : Act (VSt F C B) TableComm) :=
  bind (transferAll E _) fun _ => joinAdvice E _ _ _ _ _
macro_rules | `(tactic| verrs_call) => `(tactic| with_reducible exact VErrs.join _ _ _ _ _)

theorem aggs (inp : TableComm) (pre grp : BagComm) (mult : Nat) : ∀ (l : List (Nat × AggType × Nat)) (cols : List Nat),
    VErrs VPK (GroupBy.verifyAggs E inp pre grp mult l cols : Act (VSt F C B) (List Nat))
  | [], _ => pure _
  | (_, .count, _) :: r, cols => by unfold GroupBy.verifyAggs; exact aggs inp pre grp mult r _
  | (_, .sum, _) :: r, cols => by
    unfold GroupBy.verifyAggs
    exact bind (lift (panicOnly_idx _ _)) fun _ => bind (multitoolP E _ _ _ _) fun _ => aggs inp pre grp mult r _
  | (_, .avg, _) :: _, _ => lift panicOnly_panic
  | (_, .min, _) :: _, _ => lift panicOnly_panic
  | (_, .max, _) :: _, _ => lift panicOnly_panic
macro_rules | `(tactic| verrs_call) => `(tactic| with_reducible exact VErrs.aggs _ _ _ _ _ _ _)

theorem groupBy (inp : TableComm) (i : GroupInstr Nat) (r : BagComm) : VErrs VPK (GroupBy.verifyWithAdvice E inp i r : Act (VSt F C B) TableComm) := by
  unfold GroupBy.verifyWithAdvice
  refine bind (ErrsT.liftK fun k e => .inl (validate_kind _ _ k e)) fun gs => ?_
  obtain ⟨g, sp⟩ := gs
  dsimp only
  verrs
macro_rules | `(tactic| verrs_call) => `(tactic| with_reducible exact VErrs.groupBy _ _ _ _)

theorem op {K : ErrKind → Prop} : ∀ o : VHandleOp F C, VErrs K (o.run E : Act (VSt F C B) Nat)
  | .trackComm _ => trackMat _
  | .transfer _ => transfer _ _
  | .closure _ => virtual _
  | .add _ _ => add _ _
  | .sub _ _ => sub _ _
  | .mul _ _ => mul _ _
  | .addScalar _ _ => addScalar _ _
  | .mulScalar _ _ => mulScalar _ _
  | .incFront _ _ => incFront _ _
  | .incBack _ _ => incBack _ _

theorem call : ∀ c : VerifierCall F C, VErrs (fun k => verifierKind k c) (c.run E : Act (VSt F C B) Unit)
  | .op _ => forget (op E _)
  | .challenge _ => forget (challenge _ _)
  | .append _ _ => append _ _
  | .claimedSum _ => forget (claimedSum _)
  | .sumClaim _ _ => sumClaim _ _
  | .zeroClaim _ => zeroClaim _
  | .join _ _ _ _ => forget (join E _ _ _ _)
  | .cross _ _ => forget (crossProduct _ _)
  | .check (.multiset _ _) => multitoolP E _ _ _ _
  | .check (.bagEq _ _) => bagEq E _ _
  | .check (.bagSum _ _ _) => bagSum E _ _ _
  | .check (.inclusion _ _) => inclusion E _ _
  | .check (.inclusionAdvice _ _ _) => inclusionAdvice E _ _ _
  | .check (.noZeros _) => noZeros E _
  | .check (.selector _) => selector _
  | .check (.permutation _ _ _) => permutation E _ _ _
  | .check (.sort _ _) => sort E _ _
  | .check (.support _ _ _) => supp E _ _ _
  | .check (.supportAdvice _ _ _ _) => suppAdvice E _ _ _ _
  | .check (.disjoint _ _ _) => disjoint E _ _ _
  | .check (.setDisjoint _ _ _) => setDisjoint E _ _ _
  | .check (.union _ _ _ _) => setUnion E _ _ _ _
  | .check (.diff _ _ _ _ _ _) => setDiff E _ _ _ _ _ _
  | .check (.intersect _ _ _ _ _ _) => setIntersect E _ _ _ _ _ _
  | .check (.joinReduction _ _ _ _ _) => joinReduction E _ _ _ _ _
  | .check (.indexTransform _ _) => indexTransform E _ _
  | .check (.joinAdvice _ _ _ _ _) => bind (joinAdvice E _ _ _ _ _) fun _ => pure _
  | .check (.groupBy _ _ _ _ _ _) => bind (groupBy E _ _ _) fun _ => pure _

end VErrs

end Zksql
