import Verif.Lemmas.ProverTracker
import Verif.Lemmas.Schedule
import Verif.Spec.Halted
/-!
What every call keeps, whether it succeeds, returns an error or panics.
-/
set_option linter.unusedSectionVars false
namespace Zksql
open Spec
variable {F C B : Type} [Field F]

/-! ### Results that stay -/

/-- The second result is at least as good as the first. -/
def OkLe {α : Type} (r r' : Res α) : Prop := ∀ a, r = .ok a → r' = .ok a

namespace OkLe
variable {α β : Type}

theorem rfl' (r : Res α) : OkLe r r := fun _ h => h
theorem error (e : Fail) (r : Res α) : OkLe (.error e) r := fun a h => by cases h
theorem bind {r r' : Res α} {f f' : α → Res β} (h : OkLe r r') (hf : ∀ a, OkLe (f a) (f' a)) : OkLe (r >>= f) (r' >>= f') := by
  intro b hb
  rcases r with e | a
  · cases hb
  · rw [h a rfl]
    exact hf a b hb
theorem unwrap {o o' : Option α} (h : ∀ a, o = some a → o' = some a) : OkLe (Zksql.unwrap o) (Zksql.unwrap o') := by
  intro a ha
  rcases o with _ | b
  · cases ha
  · rw [h b rfl]
    exact ha
theorem mapM {f f' : α → Res β} (h : ∀ a, OkLe (f a) (f' a)) : ∀ l : List α, OkLe (l.mapM f) (l.mapM f')
  | [] => rfl' _
  | a :: l => by
    rw [List.mapM_cons, List.mapM_cons]
    exact bind (h a) fun b => bind (mapM h l) fun bs => rfl' _

end OkLe

namespace PTracker
variable {t t1 t2 t' : PTracker F C}

/-- Tables that are there stay there. -/
def MatsLe (t t' : PTracker F C) : Prop := ∀ id a, t.mats.lookup id = some a → t'.mats.lookup id = some a

theorem repNv_le (h : MatsLe t t') (v : VRep F) : OkLe (t.repNv v) (t'.repNv v) :=
  OkLe.bind (.rfl' _) fun _ => OkLe.bind (.rfl' _) fun x => OkLe.bind (OkLe.unwrap (h x)) fun _ => .rfl' _

theorem prodEvals_le (h : MatsLe t t') (nv : Nat) (q : F × List Nat) : OkLe (t.prodEvals nv q) (t'.prodEvals nv q) :=
  OkLe.bind (OkLe.mapM (fun id => OkLe.bind (OkLe.unwrap (h id)) fun _ => .rfl' _) _) fun _ => .rfl' _

theorem materializeRep_le (h : MatsLe t t') (v : VRep F) : OkLe (t.materializeRep v) (t'.materializeRep v) :=
  OkLe.bind (repNv_le h v) fun nv => OkLe.bind (OkLe.mapM (fun q => prodEvals_le h nv q) _) fun _ => .rfl' _

theorem materializeRep_nv {v : VRep F} {n : Nat} {m : Mle F} (h : t.materializeRep v = .ok m) (hn : t.repNv v = .ok n) : m.numVars = n := by
  unfold materializeRep at h
  rw [hn] at h
  have h2 : (v.mapM (t.prodEvals n) >>= fun prods => Mle.fromEvals n (prods.foldl (fun res e => List.zipWith (· + ·) res e) (List.replicate (2 ^ n) 0)) : Res (Mle F)) = .ok m := h
  rcases e : (v.mapM (t.prodEvals n) : Res (List (List F))) with x | ps
  · rw [e] at h2; cases h2
  rw [e] at h2
  have h3 : Mle.fromEvals n (ps.foldl (fun res e => List.zipWith (· + ·) res e) (List.replicate (2 ^ n) 0)) = .ok m := h2
  unfold Mle.fromEvals at h3
  split at h3
  · rw [← Except.ok.inj h3]
  · cases h3

/-- Identifiers are below the counter, and each names one thing. -/
structure Numbered (t : PTracker F C) : Prop where
  mats : ∀ id a, t.mats.lookup id = some a → id < t.idCounter
  virts : ∀ id v, t.virts.lookup id = some v → id < t.idCounter ∧ t.mats.lookup id = none
  comms : ∀ id c, t.comms.lookup id = some c → id < t.idCounter

/-- Nothing was lost or changed, except that virtual polynomials may have become tables. -/
structure Onward (t t' : PTracker F C) : Prop where
  num : Numbered t'
  mats : MatsLe t t'
  virts : ∀ id v, t.virts.lookup id = some v → (t'.virts.lookup id = some v ∧ t'.mats.lookup id = none) ∨
    ∃ a, t'.mats.lookup id = some a ∧ t'.materializeRep v = .ok a.mle
  comms : ∀ id c, t.comms.lookup id = some c → t'.comms.lookup id = some c
  sums : t.sumClaims <+: t'.sumClaims
  zeros : t.zeroClaims <+: t'.zeroClaims
  messages : t.transcript.events <+: t'.transcript.events
  label : t'.transcript.label = t.transcript.label
  counter : t.idCounter ≤ t'.idCounter

theorem Onward.refl (h : Numbered t) : Onward t t :=
  ⟨h, fun _ _ h => h, fun id v hv => .inl ⟨hv, (h.virts id v hv).2⟩, fun _ _ h => h, List.prefix_refl _, List.prefix_refl _, List.prefix_refl _, rfl, le_refl _⟩

theorem Onward.trans (h1 : Onward t t1) (h2 : Onward t1 t2) : Onward t t2 := by
  refine ⟨h2.num, fun id a h => h2.mats id a (h1.mats id a h), fun id v hv => ?_, fun id c h => h2.comms id c (h1.comms id c h), h1.sums.trans h2.sums,
    h1.zeros.trans h2.zeros, h1.messages.trans h2.messages, h2.label.trans h1.label, h1.counter.trans h2.counter⟩
  rcases h1.virts id v hv with ⟨hk, _⟩ | ⟨a, ha, hm⟩
  · exact h2.virts id v hk
  · exact .inr ⟨a, h2.mats id a ha, materializeRep_le h2.mats v _ hm⟩

theorem materialize_mat {id : Nat} {a : ArcMle F} (h : t.mats.lookup id = some a) : materialize id t = (.ok (), t) := by
  unfold materialize
  simp only [h]
theorem materialize_unknown {id : Nat} (h : t.mats.lookup id = none) (hv : t.virts.lookup id = none) : materialize id t = (.error .panic, t) := by
  unfold materialize
  simp only [h, hv]
theorem materialize_bad {id : Nat} {v : VRep F} {e : Fail} (h : t.mats.lookup id = none) (hv : t.virts.lookup id = some v) (hr : t.materializeRep v = .error e) :
    materialize id t = (.error e, t) := by
  unfold materialize
  simp only [h, hv, hr]
  rfl
theorem materialize_virt {id : Nat} {v : VRep F} {m : Mle F} (h : t.mats.lookup id = none) (hv : t.virts.lookup id = some v) (hr : t.materializeRep v = .ok m) :
    materialize id t = (.ok (), { t with heap := t.heap + 1, mats := amInsert id ⟨t.heap, m⟩ t.mats, virts := amErase id t.virts }) := by
  unfold materialize
  simp only [h, hv, hr]
  rfl

/-- Reading a table. -/
theorem evaluations_result (t : PTracker F C) (id : Nat) : (evaluations id t).1 =
    match t.mats.lookup id with
    | some a => .ok a.mle.evals
    | none => match t.virts.lookup id with
      | none => .error .panic
      | some v => t.materializeRep v >>= fun m => .ok m.evals := by
  unfold evaluations
  rcases hm : t.mats.lookup id with _ | a
  · rcases hv : t.virts.lookup id with _ | v
    · rw [Act.bind_error (materialize_unknown hm hv)]
    · rcases hr : t.materializeRep v with e | m
      · rw [Act.bind_error (materialize_bad hm hv hr)]
        dsimp only
        rw [hr]
        rfl
      · rw [Act.bind_ok (materialize_virt hm hv hr)]
        simp only [Act.bind_run, Act.reads_run, lookup_amInsert, unwrap, if_pos, Act.pure_run]
        rw [hr]
        rfl
  · rw [Act.bind_ok (materialize_mat hm)]
    simp [Act.bind_run, hm, unwrap]

theorem Onward.keeps (h : Onward t t') : Keeps t t' := by
  refine ⟨fun id n hs => ?_, fun id l hl => ?_, h.comms, h.sums, h.zeros, h.messages, h.label, h.counter⟩
  · unfold getPolyNv at hs ⊢
    rcases hm : t.mats.lookup id with _ | a
    · rw [hm] at hs
      rcases hv : t.virts.lookup id with _ | v
      · rw [hv] at hs; cases hs
      · rw [hv] at hs
        have hs' : t'.repNv v = .ok n := repNv_le h.mats v n hs
        rcases h.virts id v hv with ⟨hk, hk'⟩ | ⟨a, ha, hr⟩
        · simp only [hk, hk']
          exact hs'
        · simp only [ha]
          rw [materializeRep_nv hr hs']
    · rw [hm] at hs
      simp only [h.mats id a hm]
      exact hs
  · rw [evaluations_result] at hl ⊢
    rcases hm : t.mats.lookup id with _ | a
    · rw [hm] at hl
      rcases hv : t.virts.lookup id with _ | v
      · rw [hv] at hl; cases hl
      · rw [hv] at hl
        have hl' : (t'.materializeRep v >>= fun m => .ok m.evals) = .ok l :=
          OkLe.bind (materializeRep_le h.mats v) (fun m => .rfl' (.ok m.evals)) l hl
        rcases h.virts id v hv with ⟨hk, hk'⟩ | ⟨a, ha, hr⟩
        · simp only [hk, hk']
          exact hl'
        · simp only [ha]
          rw [hr] at hl'
          exact hl'
    · rw [hm] at hl
      simp only [h.mats id a hm]
      exact hl

end PTracker

/-! ### Calls of the prover -/
open PTracker

/-- Whatever the call does, nothing there is lost or changed. -/
def Goes {α : Type} (m : Act (PTracker F C) α) : Prop := ∀ t, Numbered t → Onward t (m t).2

namespace Goes
variable {α β : Type}

theorem bind {m : Act (PTracker F C) α} {f : α → Act (PTracker F C) β} (h : Goes m) (hf : ∀ a, Goes (f a)) : Goes (m >>= f) := by
  intro t ht
  have h1 := h t ht
  rcases e : m t with ⟨e | a, t1⟩
  · rw [Act.bind_error e]
    rw [e] at h1
    exact h1
  · rw [Act.bind_ok e]
    rw [e] at h1
    exact h1.trans (hf a t1 h1.num)
theorem pure (a : α) : Goes (Pure.pure a : Act (PTracker F C) α) := fun _ h => .refl h
theorem lift (r : Res α) : Goes (Act.lift r : Act (PTracker F C) α) := fun _ h => .refl h
theorem reads (f : PTracker F C → Res α) : Goes (Act.reads f) := fun _ h => .refl h
theorem assert (p : Prop) [Decidable p] : Goes (Act.assert p : Act (PTracker F C) Unit) := by
  intro t h
  unfold Act.assert
  split <;> exact .refl h
theorem ite {p : Prop} [Decidable p] {m m' : Act (PTracker F C) α} (h1 : Goes m) (h2 : Goes m') : Goes (if p then m else m') := by
  split
  · exact h1
  · exact h2
theorem forget {m : Act (PTracker F C) α} (h : Goes m) : Goes (Spec.forget m) := bind h fun _ => pure _

end Goes

namespace PTracker

theorem numbered_new : Numbered (new : PTracker F C) := ⟨fun _ _ h => (by cases h), fun _ _ h => (by cases h), fun _ _ h => (by cases h)⟩

theorem allocArc_goes (p : Mle F) : Goes (allocArc p : Act (PTracker F C) _) := fun _ h =>
  ⟨⟨h.mats, h.virts, h.comms⟩, fun _ _ h => h, fun id v hv => .inl ⟨hv, (h.virts id v hv).2⟩, fun _ _ h => h, List.prefix_refl _, List.prefix_refl _,
    List.prefix_refl _, rfl, le_refl _⟩

/-- Adding a table under the next identifier. -/
theorem trackMatArc_goes (a : ArcMle F) : Goes (trackMatArc a : Act (PTracker F C) _) := by
  intro t h
  change Onward t { t with idCounter := t.idCounter + 1, mats := amInsert t.idCounter a t.mats }
  have hm : MatsLe t { t with idCounter := t.idCounter + 1, mats := amInsert t.idCounter a t.mats } := by
    intro id b hb
    have := h.mats id b hb
    change (amInsert t.idCounter a t.mats).lookup id = some b
    rw [lookup_amInsert, if_neg (by omega)]
    exact hb
  have hv : ∀ id v, t.virts.lookup id = some v → (amInsert t.idCounter a t.mats).lookup id = none := by
    intro id v hv
    obtain ⟨h1, h2⟩ := h.virts id v hv
    rw [lookup_amInsert, if_neg (by omega)]
    exact h2
  refine ⟨⟨fun id b hb => ?_, fun id v hb => ⟨Nat.lt_succ_of_lt (h.virts id v hb).1, hv id v hb⟩, fun id c hc => Nat.lt_succ_of_lt (h.comms id c hc)⟩, hm,
    fun id v hb => .inl ⟨hb, hv id v hb⟩, fun _ _ h => h, List.prefix_refl _, List.prefix_refl _, List.prefix_refl _, rfl, Nat.le_succ _⟩
  change (amInsert t.idCounter a t.mats).lookup id = some b at hb
  rw [lookup_amInsert] at hb
  split at hb
  · change id < t.idCounter + 1
    omega
  · exact Nat.lt_succ_of_lt (h.mats id b hb)

theorem trackMat_goes (p : Mle F) : Goes (trackMat p : Act (PTracker F C) _) := Goes.bind (allocArc_goes p) fun a => trackMatArc_goes a

theorem trackVirt_goes (v : VRep F) : Goes (trackVirt v : Act (PTracker F C) _) := by
  intro t h
  change Onward t { t with idCounter := t.idCounter + 1, virts := amInsert t.idCounter v t.virts }
  refine ⟨⟨fun id b hb => Nat.lt_succ_of_lt (h.mats id b hb), fun id w hb => ?_, fun id c hc => Nat.lt_succ_of_lt (h.comms id c hc)⟩, fun _ _ h => h,
    fun id w hb => .inl ⟨?_, (h.virts id w hb).2⟩, fun _ _ h => h, List.prefix_refl _, List.prefix_refl _, List.prefix_refl _, rfl, Nat.le_succ _⟩
  · change (amInsert t.idCounter v t.virts).lookup id = some w at hb
    change id < t.idCounter + 1 ∧ t.mats.lookup id = none
    rw [lookup_amInsert] at hb
    split at hb
    · refine ⟨by omega, ?_⟩
      rcases e : t.mats.lookup id with _ | a
      · rfl
      · have := h.mats id a e
        omega
    · exact ⟨Nat.lt_succ_of_lt (h.virts id w hb).1, (h.virts id w hb).2⟩
  · have := (h.virts id w hb).1
    change (amInsert t.idCounter v t.virts).lookup id = some w
    rw [lookup_amInsert, if_neg (by omega)]
    exact hb

theorem materialize_goes (i : Nat) : Goes (materialize i : Act (PTracker F C) _) := by
  intro t h
  rcases hm : t.mats.lookup i with _ | a
  · rcases hv : t.virts.lookup i with _ | v
    · rw [materialize_unknown hm hv]
      exact .refl h
    · rcases hr : t.materializeRep v with e | m
      · rw [materialize_bad hm hv hr]
        exact .refl h
      · rw [materialize_virt hm hv hr]
        change Onward t { t with heap := t.heap + 1, mats := amInsert i ⟨t.heap, m⟩ t.mats, virts := amErase i t.virts }
        have hle : MatsLe t { t with heap := t.heap + 1, mats := amInsert i ⟨t.heap, m⟩ t.mats, virts := amErase i t.virts } := by
          intro id b hb
          change (amInsert i _ t.mats).lookup id = some b
          rw [lookup_amInsert, if_neg]
          · exact hb
          · rintro rfl
            rw [hm] at hb; cases hb
        refine ⟨⟨fun id b hb => ?_, fun id w hb => ?_, h.comms⟩, hle, fun id w hb => ?_, fun _ _ h => h, List.prefix_refl _, List.prefix_refl _, List.prefix_refl _, rfl,
          le_refl _⟩
        · change (amInsert i _ t.mats).lookup id = some b at hb
          rw [lookup_amInsert] at hb
          split at hb
          · rename_i e
            exact e ▸ (h.virts i v hv).1
          · exact h.mats id b hb
        · change (amErase i t.virts).lookup id = some w at hb
          rw [lookup_amErase] at hb
          split at hb
          · cases hb
          · rename_i hne
            refine ⟨(h.virts id w hb).1, ?_⟩
            change (amInsert i _ t.mats).lookup id = none
            rw [lookup_amInsert, if_neg hne]
            exact (h.virts id w hb).2
        · by_cases hi : id = i
          · subst hi
            refine .inr ⟨⟨t.heap, m⟩, ?_, ?_⟩
            · change (amInsert id _ t.mats).lookup id = _
              rw [lookup_amInsert, if_pos rfl]
            · rw [hv] at hb
              cases hb
              exact materializeRep_le hle v _ hr
          · refine .inl ⟨?_, ?_⟩
            · change (amErase i t.virts).lookup id = some w
              rw [lookup_amErase, if_neg hi]
              exact hb
            · change (amInsert i _ t.mats).lookup id = none
              rw [lookup_amInsert, if_neg hi]
              exact (h.virts id w hb).2
  · rw [materialize_mat hm]
    exact .refl h

theorem evaluations_goes (i : Nat) : Goes (evaluations i : Act (PTracker F C) _) :=
  Goes.bind (materialize_goes i) fun _ => Goes.bind (.reads _) fun _ => .pure _

theorem increaseNv_goes (inc : Mle F → Nat → Res (Mle F)) (i k : Nat) : Goes (increaseNv inc i k : Act (PTracker F C) _) := by
  refine Goes.bind (materialize_goes i) fun _ => Goes.bind (.reads _) fun a => Goes.bind ?_ fun b => trackMatArc_goes b
  unfold incArc
  exact Goes.ite (.pure _) (Goes.bind (.lift _) fun _ => allocArc_goes _)

theorem trackAndCommit_goes (commit : Mle F → Res C) (p : Mle F) : Goes (trackAndCommit commit p) := by
  intro t h
  unfold trackAndCommit
  rcases hc : commit p with e | c
  · simp only [Act.bind_run, Act.lift]
    exact .refl h
  · have h1 := trackMat_goes p t h
    change Onward t { (trackMat p t).2 with comms := amInsert t.idCounter c t.comms, transcript := t.transcript.append "comm" (.comm c) }
    refine ⟨⟨h1.num.mats, h1.num.virts, fun id d hd => ?_⟩, h1.mats, ?_, fun id d hd => ?_, h1.sums, h1.zeros, List.prefix_append _ _, rfl, h1.counter⟩
    · change (amInsert t.idCounter c t.comms).lookup id = some d at hd
      change id < t.idCounter + 1
      rw [lookup_amInsert] at hd
      split at hd
      · omega
      · exact Nat.lt_succ_of_lt (h.comms id d hd)
    · exact h1.virts
    · have := h.comms id d hd
      change (amInsert t.idCounter c t.comms).lookup id = some d
      rw [lookup_amInsert, if_neg (by omega)]
      exact hd

theorem challenge_goes (H : Oracle F C) (l : String) : Goes (challenge H l) := by
  intro t h
  unfold challenge Transcript.challenge
  split
  · rename_i c tr e
    split at e
    · cases e
    · obtain ⟨-, rfl⟩ := Prod.mk.inj (Except.ok.inj e)
      refine ⟨⟨h.mats, h.virts, h.comms⟩, fun _ _ h => h, fun id v hv => .inl ⟨hv, (h.virts id v hv).2⟩, fun _ _ h => h, List.prefix_refl _, List.prefix_refl _, ?_, rfl, le_refl _⟩
      exact (List.prefix_append _ _).trans (List.prefix_append _ _)
  · exact .refl h

theorem append_goes (l : String) (d : TItem F C) : Goes (append l d) := fun _ h =>
  ⟨⟨h.mats, h.virts, h.comms⟩, fun _ _ h => h, fun id v hv => .inl ⟨hv, (h.virts id v hv).2⟩, fun _ _ h => h, List.prefix_refl _, List.prefix_refl _,
    List.prefix_append _ _, rfl, le_refl _⟩

theorem addSumClaim_goes (i : Nat) (v : F) : Goes (addSumClaim i v : Act (PTracker F C) _) := fun _ h =>
  ⟨⟨h.mats, h.virts, h.comms⟩, fun _ _ h => h, fun id v hv => .inl ⟨hv, (h.virts id v hv).2⟩, fun _ _ h => h, List.prefix_append _ _, List.prefix_refl _,
    List.prefix_refl _, rfl, le_refl _⟩

theorem addZeroClaim_goes (i : Nat) : Goes (addZeroClaim i : Act (PTracker F C) _) := fun _ h =>
  ⟨⟨h.mats, h.virts, h.comms⟩, fun _ _ h => h, fun id v hv => .inl ⟨hv, (h.virts id v hv).2⟩, fun _ _ h => h, List.prefix_refl _, List.prefix_append _ _,
    List.prefix_refl _, rfl, le_refl _⟩

theorem addSubPolys_goes (i j : Nat) (s : Bool) : Goes (addSubPolys i j s : Act (PTracker F C) _) := Goes.bind (.reads _) fun _ => trackVirt_goes _
theorem mulPolys_goes (i j : Nat) : Goes (mulPolys i j : Act (PTracker F C) _) := Goes.bind (.reads _) fun _ => trackVirt_goes _
theorem mulScalar_goes (i : Nat) (c : F) : Goes (mulScalar i c : Act (PTracker F C) _) := Goes.bind (.reads _) fun _ => trackVirt_goes _
theorem addScalar_goes (i : Nat) (c : F) : Goes (addScalar i c : Act (PTracker F C) _) :=
  Goes.bind (.reads _) fun _ => Goes.bind (.lift _) fun _ => Goes.bind (trackMat_goes _) fun _ => addSubPolys_goes _ _ _

end PTracker

syntax "goes_call" : tactic
macro_rules | `(tactic| goes_call) => `(tactic| fail "no rule")

/-- All steps of a call. -/
macro "goes" : tactic => `(tactic| repeat (first
  | with_reducible exact Goes.pure _ | with_reducible exact Goes.lift _ | with_reducible exact Goes.assert _
  | goes_call
  | with_reducible refine Goes.bind ?_ fun _ => ?_
  | with_reducible refine Goes.ite ?_ ?_))

namespace TPoly
theorem trackMat_goes (p : Mle F) : Goes (TPoly.trackMat p : Act (PTracker F C) _) := Goes.bind (PTracker.trackMat_goes p) fun _ => .pure _
theorem trackAndCommit_goes (commit : Mle F → Res C) (p : Mle F) : Goes (TPoly.trackAndCommit commit p) := Goes.bind (PTracker.trackAndCommit_goes commit p) fun _ => .pure _
theorem add_goes (a b : TPoly) : Goes (F := F) (C := C) (a.add b) := Goes.bind (.assert _) fun _ => Goes.bind (addSubPolys_goes _ _ _) fun _ => .pure _
theorem sub_goes (a b : TPoly) : Goes (F := F) (C := C) (a.sub b) := Goes.bind (.assert _) fun _ => Goes.bind (addSubPolys_goes _ _ _) fun _ => .pure _
theorem mul_goes (a b : TPoly) : Goes (F := F) (C := C) (a.mul b) := Goes.bind (.assert _) fun _ => Goes.bind (mulPolys_goes _ _) fun _ => .pure _
theorem addScalar_goes (a : TPoly) (c : F) : Goes (C := C) (a.addScalar c) := Goes.bind (PTracker.addScalar_goes _ _) fun _ => .pure _
theorem mulScalar_goes (a : TPoly) (c : F) : Goes (C := C) (a.mulScalar c) := Goes.bind (PTracker.mulScalar_goes _ _) fun _ => .pure _
theorem incFront_goes (a : TPoly) (k : Nat) : Goes (F := F) (C := C) (a.incFront k) := Goes.bind (increaseNv_goes _ _ _) fun _ => .pure _
theorem incBack_goes (a : TPoly) (k : Nat) : Goes (F := F) (C := C) (a.incBack k) := Goes.bind (increaseNv_goes _ _ _) fun _ => .pure _
theorem evaluations_goes (a : TPoly) : Goes (F := F) (C := C) a.evaluations := PTracker.evaluations_goes _
end TPoly

macro_rules | `(tactic| goes_call) => `(tactic| with_reducible first
  | exact TPoly.trackMat_goes _ | exact TPoly.trackAndCommit_goes _ _ | exact TPoly.add_goes _ _ | exact TPoly.sub_goes _ _ | exact TPoly.mul_goes _ _
  | exact TPoly.addScalar_goes _ _ | exact TPoly.mulScalar_goes _ _ | exact TPoly.incFront_goes _ _ | exact TPoly.incBack_goes _ _
  | exact TPoly.evaluations_goes _ | exact addSumClaim_goes _ _ | exact addZeroClaim_goes _ | exact PTracker.challenge_goes _ _)

theorem bagNew_goes (d : Bool) (a b : TPoly) : Goes (F := F) (C := C) (Bag.new d a b) := by
  unfold Bag.new
  goes
theorem tableNew_goes (d : Bool) (a : List TPoly) (b : TPoly) : Goes (F := F) (C := C) (Table.new d a b) := by
  unfold Table.new
  goes
macro_rules | `(tactic| goes_call) => `(tactic| with_reducible first | exact bagNew_goes _ _ _ | exact tableNew_goes _ _ _)

/-! ### Provers -/
variable (E : Env F C)

theorem proveSub_goes (b : Bag) (m : TPoly) (γ : F) : Goes (Multitool.proveSub E b m γ) := by
  unfold Multitool.proveSub
  goes
theorem proveSubs_goes (γ : F) : ∀ l : List (Bag × TPoly), Goes (Multitool.proveSubs E γ l)
  | [] => .pure _
  | (b, m) :: r => Goes.bind (proveSub_goes E b m γ) fun _ => proveSubs_goes γ r
macro_rules | `(tactic| goes_call) => `(tactic| with_reducible exact proveSubs_goes _ _ _)

theorem multitool_goes (fxs gxs : List Bag) (mf mg : List TPoly) : Goes (Multitool.prove E fxs gxs mf mg) := by
  unfold Multitool.prove
  goes
macro_rules | `(tactic| goes_call) => `(tactic| with_reducible exact multitool_goes _ _ _ _ _)

theorem bagEq_goes (f g : Bag) : Goes (BagEq.prove E f g) := by unfold BagEq.prove; goes
theorem bagSum_goes (f g h : Bag) : Goes (BagSum.prove E f g h) := by unfold BagSum.prove; goes
theorem noZeros_goes (b : Bag) : Goes (NoZeros.prove E b) := by unfold NoZeros.prove; goes
theorem selector_goes (s : TPoly) : Goes (F := F) (C := C) (SelectorValid.prove s) := by unfold SelectorValid.prove; goes
macro_rules | `(tactic| goes_call) => `(tactic| with_reducible first
  | exact bagEq_goes _ _ _ | exact bagSum_goes _ _ _ _ | exact noZeros_goes _ _ | exact selector_goes _)

variable [DecidableEq F]

theorem incAdvice_goes (a b : Bag) : Goes (F := F) (C := C) (Inclusion.advice a b) := by unfold Inclusion.advice; goes
theorem inclusionWith_goes (a b : Bag) (m : TPoly) : Goes (Inclusion.proveWithAdvice E a b m) := by unfold Inclusion.proveWithAdvice; goes
macro_rules | `(tactic| goes_call) => `(tactic| with_reducible first | exact incAdvice_goes _ _ | exact inclusionWith_goes _ _ _ _)
theorem inclusion_goes (a b : Bag) : Goes (Inclusion.prove E a b) := by unfold Inclusion.prove; goes
theorem permutation_goes (a b : Bag) (p : TPoly) : Goes (PrescPerm.prove E a b p) := by unfold PrescPerm.prove; goes
theorem debugDiff_goes (d : Bool) (a : TPoly) (l : List F) : Goes (C := C) (StrictSort.debugDiff d a l) := by unfold StrictSort.debugDiff; goes
macro_rules | `(tactic| goes_call) => `(tactic| with_reducible first
  | exact inclusion_goes _ _ _ | exact permutation_goes _ _ _ _ | exact debugDiff_goes _ _ _)
theorem sort_goes (a r : Bag) : Goes (StrictSort.prove E a r) := by unfold StrictSort.prove; goes
macro_rules | `(tactic| goes_call) => `(tactic| with_reducible exact sort_goes _ _ _)
theorem suppWith_goes (a b : Bag) (m : TPoly) (r : Bag) : Goes (Supp.proveWithAdvice E a b m r) := by unfold Supp.proveWithAdvice; goes
macro_rules | `(tactic| goes_call) => `(tactic| with_reducible exact suppWith_goes _ _ _ _ _)
theorem supp_goes (a b r : Bag) : Goes (Supp.prove E a b r) := by unfold Supp.prove; goes
theorem suppAdvice_goes (a : Bag) : Goes (Supp.advice E a) := by unfold Supp.advice; dsimp only; goes
theorem bagCount_goes (a : Bag) : Goes (F := F) (C := C) (Disjoint.bagCount a) := by unfold Disjoint.bagCount; goes
macro_rules | `(tactic| goes_call) => `(tactic| with_reducible first | exact supp_goes _ _ _ _ | exact bagCount_goes _)
theorem disjointAdvice_goes (a b : Bag) : Goes (Disjoint.advice E a b) := by unfold Disjoint.advice; dsimp only; goes
theorem disjointWith_goes (a b c : Bag) (m n : TPoly) (r : Bag) : Goes (Disjoint.proveWithAdvice E a b c m n r) := by unfold Disjoint.proveWithAdvice; goes
macro_rules | `(tactic| goes_call) => `(tactic| with_reducible first | exact disjointAdvice_goes _ _ _ | exact disjointWith_goes _ _ _ _ _ _ _)
theorem disjoint_goes (a b r : Bag) : Goes (Disjoint.prove E a b r) := by unfold Disjoint.prove; goes
theorem setDisjoint_goes (a b r : Bag) : Goes (SetDisjoint.prove E a b r) := by unfold SetDisjoint.prove; dsimp only; goes
macro_rules | `(tactic| goes_call) => `(tactic| with_reducible first | exact disjoint_goes _ _ _ _ | exact setDisjoint_goes _ _ _ _)
theorem setDiff_goes (a b l m : Bag) (bm : TPoly) (r : Bag) : Goes (SetDiff.prove E a b l m bm r) := by unfold SetDiff.prove; goes
theorem setUnion_goes (a b u r : Bag) : Goes (SetUnion.prove E a b u r) := by unfold SetUnion.prove; dsimp only; goes
theorem setIntersect_goes (a b l m r x : Bag) : Goes (SetIntersect.prove E a b l m r x) := by unfold SetIntersect.prove; goes
theorem joinReduction_goes (a b : Bag) (l r : TPoly) (x : Bag) : Goes (JoinReduction.prove E a b l r x) := by unfold JoinReduction.prove; goes

theorem incFronts_goes (k : Nat) : ∀ l : List TPoly, Goes (F := F) (C := C) (CrossProduct.incFronts k l)
  | [] => .pure _
  | _ :: r => Goes.bind (TPoly.incFront_goes _ _) fun _ => Goes.bind (incFronts_goes k r) fun _ => .pure _
theorem incBacks_goes (k : Nat) : ∀ l : List TPoly, Goes (F := F) (C := C) (CrossProduct.incBacks k l)
  | [] => .pure _
  | _ :: r => Goes.bind (TPoly.incBack_goes _ _) fun _ => Goes.bind (incBacks_goes k r) fun _ => .pure _
macro_rules | `(tactic| goes_call) => `(tactic| with_reducible first | exact incFronts_goes _ _ | exact incBacks_goes _ _)
theorem crossProduct_goes (a b : Table) : Goes (CrossProduct.prover E a b) := by unfold CrossProduct.prover; goes
theorem frontAlias_goes (a : TPoly) (k : Nat) : Goes (F := F) (C := C) (CrossProduct.frontAlias a k) := by unfold CrossProduct.frontAlias; goes
theorem backAlias_goes (a : TPoly) (k : Nat) : Goes (F := F) (C := C) (CrossProduct.backAlias a k) := by unfold CrossProduct.backAlias; goes

theorem powers_goes (n : Nat) : Goes (IndexTransform.proverPowers E n) := by unfold IndexTransform.proverPowers; goes
theorem rands_goes : ∀ n : Nat, Goes (IndexTransform.proverRands E n)
  | 0 => .pure _
  | n + 1 => Goes.bind (PTracker.challenge_goes _ _) fun _ => Goes.bind (rands_goes n) fun _ => .pure _
theorem aggLoop_goes : ∀ (acc : TPoly) (cs : List TPoly) (rs : List F), Goes (C := C) (IndexTransform.proverAggLoop acc cs rs)
  | _, [], _ => .pure _
  | _, _ :: _, [] => .lift _
  | _, _ :: cs, _ :: rs => Goes.bind (TPoly.mulScalar_goes _ _) fun _ => Goes.bind (TPoly.mul_goes _ _) fun _ => aggLoop_goes _ cs rs
macro_rules | `(tactic| goes_call) => `(tactic| with_reducible first | exact powers_goes _ _ | exact aggLoop_goes _ _ _)
theorem agg_goes (t : Table) (l : List F) : Goes (IndexTransform.proverAgg E t l) := by unfold IndexTransform.proverAgg; goes
macro_rules | `(tactic| goes_call) => `(tactic| with_reducible exact agg_goes _ _ _)
theorem indexTransform_goes (a b : Table) : Goes (IndexTransform.prove E a b) := by unfold IndexTransform.prove; goes

theorem transform_goes (a b : Table) (i j : Nat) : Goes (F := F) (C := C) (FinalJoin.transform a b i j) := by unfold FinalJoin.transform; goes
theorem applyTransform_goes (ks : List Nat) (o a : TPoly) : Goes (FinalJoin.applyTransform E ks o a) := by unfold FinalJoin.applyTransform; goes
theorem applyAll_goes (ks : List Nat) (a : TPoly) : ∀ l : List TPoly, Goes (FinalJoin.applyAll E ks a l)
  | [] => .pure _
  | _ :: r => Goes.bind (applyTransform_goes E _ _ _) fun _ => Goes.bind (applyAll_goes ks a r) fun _ => .pure _
theorem commitAll_goes : ∀ l : List (Mle F), Goes (FinalJoin.commitAll E l)
  | [] => .pure _
  | _ :: r => Goes.bind (TPoly.trackAndCommit_goes _ _) fun _ => Goes.bind (commitAll_goes r) fun _ => .pure _
theorem debugKeys_goes (a : Table) (i : Nat) : Goes (FinalJoin.debugKeys E a i) := by unfold FinalJoin.debugKeys; goes
macro_rules | `(tactic| goes_call) => `(tactic| with_reducible first
  | exact indexTransform_goes _ _ _ | exact transform_goes _ _ _ _ | exact applyAll_goes _ _ _ _ | exact commitAll_goes _ _ | exact debugKeys_goes _ _ _)
theorem joinWith_goes (a b : Table) (i j : Nat) (l : List TPoly) : Goes (FinalJoin.proveWithAdvice E a b i j l) := by unfold FinalJoin.proveWithAdvice; goes
macro_rules | `(tactic| goes_call) => `(tactic| with_reducible exact joinWith_goes _ _ _ _ _ _)
theorem join_goes (a b : Table) (i j : Nat) : Goes (FinalJoin.prove E a b i j) := by unfold FinalJoin.prove; goes

theorem aggs_goes (inp : Table) (pre grp : Bag) (m : TPoly) : ∀ (l : List (Nat × AggType × TPoly)) (cols : List TPoly),
    Goes (GroupBy.proveAggs E inp pre grp m l cols)
  | [], _ => .pure _
  | (_, .count, _) :: r, cols => by unfold GroupBy.proveAggs; exact aggs_goes inp pre grp m r _
  | (_, .sum, _) :: r, cols => by
    unfold GroupBy.proveAggs
    exact Goes.bind (.lift _) fun _ => Goes.bind (multitool_goes E _ _ _ _) fun _ => aggs_goes inp pre grp m r _
  | (_, .avg, _) :: _, _ => .lift _
  | (_, .min, _) :: _, _ => .lift _
  | (_, .max, _) :: _, _ => .lift _
macro_rules | `(tactic| goes_call) => `(tactic| with_reducible exact aggs_goes _ _ _ _ _ _ _)
theorem groupBy_goes (inp : Table) (i : GroupInstr TPoly) (r : Bag) : Goes (GroupBy.proveWithAdvice E inp i r) := by
  unfold GroupBy.proveWithAdvice
  refine Goes.bind (.lift _) fun gs => ?_
  obtain ⟨g, sp⟩ := gs
  dsimp only
  goes

theorem commitBag_goes (q : Mle F × Mle F) : Goes (LmrSplit.commitBag E q) := by unfold LmrSplit.commitBag; goes
macro_rules | `(tactic| goes_call) => `(tactic| with_reducible exact commitBag_goes _ _)
theorem split_goes (a b : Bag) : Goes (LmrSplit.bag E a b) := by unfold LmrSplit.bag; dsimp only; goes
theorem setSplit_goes (a b : Bag) : Goes (LmrSplit.set E a b) := Goes.bind (split_goes E a b) fun _ => .pure _
theorem multSplit_goes (a b : Bag) : Goes (LmrSplit.multBag E a b) := by unfold LmrSplit.multBag; dsimp only; goes

theorem check_goes : ∀ c : Check TPoly, Goes (c.prove E)
  | .multiset _ _ => multitool_goes E _ _ _ _
  | .bagEq _ _ => bagEq_goes E _ _
  | .bagSum _ _ _ => bagSum_goes E _ _ _
  | .inclusion _ _ => inclusion_goes E _ _
  | .inclusionAdvice _ _ _ => inclusionWith_goes E _ _ _
  | .noZeros _ => noZeros_goes E _
  | .selector _ => selector_goes _
  | .permutation _ _ _ => permutation_goes E _ _ _
  | .sort _ _ => sort_goes E _ _
  | .support _ _ _ => supp_goes E _ _ _
  | .supportAdvice _ _ _ _ => suppWith_goes E _ _ _ _
  | .disjoint _ _ _ => disjoint_goes E _ _ _
  | .setDisjoint _ _ _ => setDisjoint_goes E _ _ _
  | .union _ _ _ _ => setUnion_goes E _ _ _ _
  | .diff _ _ _ _ _ _ => setDiff_goes E _ _ _ _ _ _
  | .intersect _ _ _ _ _ _ => setIntersect_goes E _ _ _ _ _ _
  | .joinReduction _ _ _ _ _ => joinReduction_goes E _ _ _ _ _
  | .indexTransform _ _ => indexTransform_goes E _ _
  | .joinAdvice _ _ _ _ _ => Goes.bind (joinWith_goes E _ _ _ _ _) fun _ => .pure _
  | .groupBy _ _ _ _ _ _ => Goes.bind (groupBy_goes E _ _ _) fun _ => .pure _

theorem op_goes : ∀ o : HandleOp F, Goes (o.run E)
  | .track _ => TPoly.trackMat_goes _
  | .commit _ => TPoly.trackAndCommit_goes _ _
  | .add _ _ => TPoly.add_goes _ _
  | .sub _ _ => TPoly.sub_goes _ _
  | .mul _ _ => TPoly.mul_goes _ _
  | .addScalar _ _ => TPoly.addScalar_goes _ _
  | .mulScalar _ _ => TPoly.mulScalar_goes _ _
  | .incFront _ _ => TPoly.incFront_goes _ _
  | .incBack _ _ => TPoly.incBack_goes _ _

theorem call_goes : ∀ c : ProverCall F C, Goes (c.run E)
  | .op _ => .forget (op_goes E _)
  | .read _ => .forget (TPoly.evaluations_goes _)
  | .challenge _ => .forget (PTracker.challenge_goes _ _)
  | .append _ _ => append_goes _ _
  | .sumClaim _ _ => addSumClaim_goes _ _
  | .zeroClaim _ => addZeroClaim_goes _
  | .bag _ _ => .forget (bagNew_goes _ _ _)
  | .table _ _ => .forget (tableNew_goes _ _ _)
  | .check _ => check_goes E _
  | .join _ _ _ _ => .forget (join_goes E _ _ _ _)
  | .cross _ _ => .forget (crossProduct_goes E _ _)
  | .split _ _ => .forget (split_goes E _ _)
  | .setSplit _ _ => .forget (setSplit_goes E _ _)
  | .multSplit _ _ => .forget (multSplit_goes E _ _)
  | .inclusionAdvice _ _ => .forget (incAdvice_goes _ _)
  | .supportAdvice _ => .forget (suppAdvice_goes E _)
  | .disjointAdvice _ _ => .forget (disjointAdvice_goes E _ _)

theorem callsOn_onward : ∀ (cs : List (ProverCall F C)) {t : PTracker F C}, Numbered t → Onward t (callsOn E cs t)
  | [], _, h => .refl h
  | c :: cs, t, h => (call_goes E c t h).trans (callsOn_onward cs (call_goes E c t h).num)

/-! ### Identifiers -/

/-- A successful call returns an identifier that was not used before and counts as used afterwards. -/
def FreshId (m : Act (PTracker F C) Nat) : Prop :=
  ∀ t, PTracker.Numbered t → ∀ i t', m t = (.ok i, t') → t.idCounter ≤ i ∧ i < t'.idCounter

theorem FreshId.bind {α : Type} {m : Act (PTracker F C) α} {f : α → Act (PTracker F C) Nat} (h : Goes m) (hf : ∀ a, FreshId (f a)) : FreshId (m >>= f) := by
  intro t ht i t' e
  obtain ⟨a, s, e1, e2⟩ := Act.bind_eq_ok.1 e
  have h1 := h t ht
  rw [e1] at h1
  obtain ⟨h2, h3⟩ := hf a s h1.num i t' e2
  exact ⟨h1.counter.trans h2, h3⟩

theorem freshId_matArc (a : ArcMle F) : FreshId (PTracker.trackMatArc a : Act (PTracker F C) _) := by
  intro t _ i t' e
  obtain ⟨e1, rfl⟩ := Prod.mk.inj e
  obtain rfl := Except.ok.inj e1
  exact ⟨le_refl _, Nat.lt_succ_self _⟩

theorem freshId_virt (v : VRep F) : FreshId (PTracker.trackVirt v : Act (PTracker F C) _) := by
  intro t _ i t' e
  obtain ⟨e1, rfl⟩ := Prod.mk.inj e
  obtain rfl := Except.ok.inj e1
  exact ⟨le_refl _, Nat.lt_succ_self _⟩

theorem freshId_increase (inc : Mle F → Nat → Res (Mle F)) (i k : Nat) : FreshId (PTracker.increaseNv inc i k : Act (PTracker F C) _) := by
  refine FreshId.bind (PTracker.materialize_goes i) fun _ => FreshId.bind (.reads _) fun a => FreshId.bind ?_ fun b => freshId_matArc b
  unfold PTracker.incArc
  exact Goes.ite (.pure _) (Goes.bind (.lift _) fun _ => PTracker.allocArc_goes _)

theorem freshId_commit (commit : Mle F → Res C) (p : Mle F) : FreshId (PTracker.trackAndCommit commit p) := by
  intro t _ i t' e
  unfold PTracker.trackAndCommit at e
  obtain ⟨c, s, e1, e2⟩ := Act.bind_eq_ok.1 e
  obtain ⟨_, rfl⟩ := Prod.mk.inj e1
  obtain ⟨e3, rfl⟩ := Prod.mk.inj e2
  obtain rfl := Except.ok.inj e3
  exact ⟨le_refl _, Nat.lt_succ_self _⟩

/-- The handle a call returns. -/
theorem handle_fresh {m : Act (PTracker F C) Nat} (h : FreshId m) (k : Nat) {t t' : PTracker F C} (ht : PTracker.Numbered t) {a : TPoly}
    (e : (m >>= fun i => pure ⟨i, k⟩) t = (.ok a, t')) : t.idCounter ≤ a.id ∧ a.id < t'.idCounter := by
  obtain ⟨i, s, e1, e2⟩ := Act.bind_eq_ok.1 e
  obtain ⟨e3, rfl⟩ := Prod.mk.inj e2
  obtain rfl := Except.ok.inj e3
  exact h t ht i s e1

theorem after_assert {p : Prop} [Decidable p] {α S : Type} {f : Unit → Act S α} {t t' : S} {a : α} (e : (Act.assert p >>= f) t = (.ok a, t')) : f () t = (.ok a, t') := by
  obtain ⟨_, s, e1, e2⟩ := Act.bind_eq_ok.1 e
  unfold Act.assert at e1
  split at e1
  · obtain ⟨_, rfl⟩ := Prod.mk.inj e1
    exact e2
  · cases (Prod.mk.inj e1).1

theorem op_fresh (o : HandleOp F) {t t' : PTracker F C} (ht : PTracker.Numbered t) {a : TPoly} (e : o.run E t = (.ok a, t')) :
    t.idCounter ≤ a.id ∧ a.id < t'.idCounter := by
  cases o with
  | track p => exact handle_fresh (FreshId.bind (PTracker.allocArc_goes p) fun _ => freshId_matArc _) _ ht e
  | commit p => exact handle_fresh (freshId_commit _ p) _ ht e
  | add a b => exact handle_fresh (FreshId.bind (.reads _) fun _ => freshId_virt _) _ ht (after_assert e)
  | sub a b => exact handle_fresh (FreshId.bind (.reads _) fun _ => freshId_virt _) _ ht (after_assert e)
  | mul a b => exact handle_fresh (FreshId.bind (.reads _) fun _ => freshId_virt _) _ ht (after_assert e)
  | addScalar a c =>
    exact handle_fresh (FreshId.bind (.reads _) fun _ => FreshId.bind (.lift _) fun _ => FreshId.bind (PTracker.trackMat_goes _) fun _ =>
      FreshId.bind (.reads _) fun _ => freshId_virt _) _ ht e
  | mulScalar a c => exact handle_fresh (FreshId.bind (.reads _) fun _ => freshId_virt _) _ ht e
  | incFront a k => exact handle_fresh (freshId_increase _ _ _) _ ht e
  | incBack a k => exact handle_fresh (freshId_increase _ _ _) _ ht e

/-! ### Returned errors -/

/-- The call returns no error: it succeeds or panics. -/
def NoErr {α : Type} (m : Act (PTracker F C) α) : Prop := ∀ t k t', m t ≠ (.error (.err k), t')

namespace NoErr
variable {α β : Type}

theorem bind {m : Act (PTracker F C) α} {f : α → Act (PTracker F C) β} (h : NoErr m) (hf : ∀ a, NoErr (f a)) : NoErr (m >>= f) := by
  intro t k t'
  rcases e : m t with ⟨x | a, t1⟩
  · rw [Act.bind_error e]
    intro e'
    obtain ⟨e1, rfl⟩ := Prod.mk.inj e'
    obtain rfl := Except.error.inj e1
    exact h t k _ e
  · rw [Act.bind_ok e]
    exact hf a t1 k t'
theorem pure (a : α) : NoErr (Pure.pure a : Act (PTracker F C) α) := fun _ _ _ h => by cases (Prod.mk.inj h).1
theorem lift {r : Res α} (h : PanicOnly r) : NoErr (Act.lift r : Act (PTracker F C) α) := fun _ k _ e => h k (Prod.mk.inj e).1
theorem reads {f : PTracker F C → Res α} (h : ∀ t, PanicOnly (f t)) : NoErr (Act.reads f) := fun t k _ e => h t k (Prod.mk.inj e).1
theorem assert (p : Prop) [Decidable p] : NoErr (Act.assert p : Act (PTracker F C) Unit) := by
  intro t k t' e
  unfold Act.assert at e
  split at e <;> cases (Prod.mk.inj e).1
theorem ite {p : Prop} [Decidable p] {m m' : Act (PTracker F C) α} (h1 : NoErr m) (h2 : NoErr m') : NoErr (if p then m else m') := by
  split
  · exact h1
  · exact h2

end NoErr

theorem noErr_virt (v : VRep F) : NoErr (PTracker.trackVirt v : Act (PTracker F C) _) := fun _ _ _ e => by cases (Prod.mk.inj e).1
theorem noErr_matArc (a : ArcMle F) : NoErr (PTracker.trackMatArc a : Act (PTracker F C) _) := fun _ _ _ e => by cases (Prod.mk.inj e).1
theorem noErr_mat (p : Mle F) : NoErr (PTracker.trackMat p : Act (PTracker F C) _) := fun _ _ _ e => by cases (Prod.mk.inj e).1
theorem noErr_alloc (p : Mle F) : NoErr (PTracker.allocArc p : Act (PTracker F C) _) := fun _ _ _ e => by cases (Prod.mk.inj e).1

theorem panicOnly_repNv (t : PTracker F C) (v : VRep F) : PanicOnly (t.repNv v) :=
  PanicOnly.bind (panicOnly_idx _ _) fun _ => PanicOnly.bind (panicOnly_idx _ _) fun _ => PanicOnly.bind (panicOnly_unwrap _) fun _ => panicOnly_ok _
theorem panicOnly_materializeRep (t : PTracker F C) (v : VRep F) : PanicOnly (t.materializeRep v) :=
  PanicOnly.bind (panicOnly_repNv t v) fun _ => PanicOnly.bind (panicOnly_mapM _ (fun _ => PanicOnly.bind (panicOnly_mapM _ (fun _ =>
    PanicOnly.bind (panicOnly_unwrap _) fun _ => panicOnly_ok _) _) fun _ => panicOnly_ok _) _) fun _ => Par.panicOnly_fromEvals _ _
theorem panicOnly_getPolyNv (t : PTracker F C) (i : Nat) : PanicOnly (t.getPolyNv i) := by
  unfold PTracker.getPolyNv
  split
  · exact panicOnly_ok _
  · split
    · exact panicOnly_panic
    · exact panicOnly_repNv _ _
theorem panicOnly_addSubRep (t : PTracker F C) (i j : Nat) (s : Bool) : PanicOnly (t.addSubRep i j s) := by
  unfold PTracker.addSubRep
  dsimp only
  split <;> first | exact panicOnly_panic | exact panicOnly_ok _
theorem panicOnly_mulRep (t : PTracker F C) (i j : Nat) : PanicOnly (t.mulRep i j) := by
  unfold PTracker.mulRep
  split <;> first | exact panicOnly_panic | exact panicOnly_ok _
theorem panicOnly_mulScalarRep (t : PTracker F C) (i : Nat) (c : F) : PanicOnly (t.mulScalarRep i c) := by
  unfold PTracker.mulScalarRep
  split
  · exact panicOnly_ok _
  · exact PanicOnly.bind (panicOnly_unwrap _) fun _ => panicOnly_ok _
theorem panicOnly_incFront (p : Mle F) (n : Nat) : PanicOnly (increaseNvFront p n) := by
  unfold increaseNvFront
  split
  · exact panicOnly_ok _
  · split
    · exact panicOnly_panic
    · exact Par.panicOnly_fromEvals _ _
theorem panicOnly_incBack (p : Mle F) (n : Nat) : PanicOnly (increaseNvBack p n) := by
  unfold increaseNvBack
  split
  · exact panicOnly_ok _
  · split
    · exact panicOnly_panic
    · exact Par.panicOnly_fromEvals _ _

theorem materialize_noErr (i : Nat) : NoErr (PTracker.materialize i : Act (PTracker F C) _) := by
  intro t k t' e
  rcases hm : t.mats.lookup i with _ | a
  · rcases hv : t.virts.lookup i with _ | v
    · rw [PTracker.materialize_unknown hm hv] at e
      cases (Prod.mk.inj e).1
    · rcases hr : t.materializeRep v with x | m
      · rw [PTracker.materialize_bad hm hv hr] at e
        exact panicOnly_materializeRep t v k (hr.trans (by rw [Except.error.inj (Prod.mk.inj e).1]))
      · rw [PTracker.materialize_virt hm hv hr] at e
        cases (Prod.mk.inj e).1
  · rw [PTracker.materialize_mat hm] at e
    cases (Prod.mk.inj e).1
theorem evaluations_noErr (i : Nat) : NoErr (PTracker.evaluations i : Act (PTracker F C) _) :=
  NoErr.bind (materialize_noErr i) fun _ => NoErr.bind (.reads fun _ => panicOnly_unwrap _) fun _ => .pure _
theorem increase_noErr {inc : Mle F → Nat → Res (Mle F)} (h : ∀ p n, PanicOnly (inc p n)) (i k : Nat) : NoErr (PTracker.increaseNv inc i k : Act (PTracker F C) _) := by
  refine NoErr.bind (materialize_noErr i) fun _ => NoErr.bind (.reads fun _ => panicOnly_unwrap _) fun a => NoErr.bind ?_ fun b => noErr_matArc b
  unfold PTracker.incArc
  exact NoErr.ite (.pure _) (NoErr.bind (.lift (h _ _)) fun _ => noErr_alloc _)

theorem op_clean (o : HandleOp F) (t : PTracker F C) (k : ErrKind) (t' : PTracker F C) (e : o.run E t = (.error (.err k), t')) : t' = t := by
  have no : ∀ {m : Act (PTracker F C) TPoly}, NoErr m → m t = (.error (.err k), t') → t' = t := fun h e => (h t k t' e).elim
  cases o with
  | commit p =>
    have e' : (PTracker.trackAndCommit E.commit p >>= fun id => (pure ⟨id, p.numVars⟩ : Act (PTracker F C) TPoly)) t = (.error (.err k), t') := e
    rcases hc : E.commit p with x | c
    · have h1 : PTracker.trackAndCommit E.commit p t = (.error x, t) := by
        unfold PTracker.trackAndCommit
        exact Act.bind_error (by rw [hc]; rfl)
      rw [Act.bind_error h1] at e'
      exact (Prod.mk.inj e').2.symm
    · have h1 : ∃ i s, PTracker.trackAndCommit E.commit p t = (.ok i, s) := by
        unfold PTracker.trackAndCommit
        rw [hc]
        exact ⟨_, _, rfl⟩
      obtain ⟨i, s, h1⟩ := h1
      rw [Act.bind_ok h1] at e'
      cases (Prod.mk.inj e').1
  | track p => exact no (NoErr.bind (noErr_mat p) fun _ => .pure _) e
  | add a b => exact no (NoErr.bind (.assert _) fun _ => NoErr.bind (NoErr.bind (.reads fun _ => panicOnly_addSubRep _ _ _ _) fun _ => noErr_virt _) fun _ => .pure _) e
  | sub a b => exact no (NoErr.bind (.assert _) fun _ => NoErr.bind (NoErr.bind (.reads fun _ => panicOnly_addSubRep _ _ _ _) fun _ => noErr_virt _) fun _ => .pure _) e
  | mul a b => exact no (NoErr.bind (.assert _) fun _ => NoErr.bind (NoErr.bind (.reads fun _ => panicOnly_mulRep _ _ _) fun _ => noErr_virt _) fun _ => .pure _) e
  | addScalar a c =>
    exact no (NoErr.bind (NoErr.bind (.reads fun _ => panicOnly_getPolyNv _ _) fun _ => NoErr.bind (.lift (Par.panicOnly_fromEvals _ _)) fun _ => NoErr.bind (noErr_mat _) fun _ =>
      NoErr.bind (.reads fun _ => panicOnly_addSubRep _ _ _ _) fun _ => noErr_virt _) fun _ => .pure _) e
  | mulScalar a c => exact no (NoErr.bind (NoErr.bind (.reads fun _ => panicOnly_mulScalarRep _ _ _) fun _ => noErr_virt _) fun _ => .pure _) e
  | incFront a k => exact no (NoErr.bind (increase_noErr panicOnly_incFront _ _) fun _ => .pure _) e
  | incBack a k => exact no (NoErr.bind (increase_noErr panicOnly_incBack _ _) fun _ => .pure _) e

theorem challenge_clean (H : Oracle F C) (l : String) (t : PTracker F C) (k : ErrKind) (t' : PTracker F C) (e : PTracker.challenge H l t = (.error (.err k), t')) : t' = t := by
  unfold PTracker.challenge at e
  split at e
  · cases (Prod.mk.inj e).1
  · exact (Prod.mk.inj e).2.symm

theorem refused_shape {es : List ((TPoly × TPoly) × TPoly)} (h : RefusedSide es) : Multitool.shapeOk (es.map fun e => bagOf e.1) (es.map (·.2)) = false := by
  unfold Multitool.shapeOk
  rcases h with rfl | ⟨e, he, hn⟩
  · rfl
  · have : (((es.map fun e => bagOf e.1).zip (es.map (·.2))).all fun q => q.1.numVars == q.2.numVars) = false := by
      rw [List.zip_map', List.all_eq_false]
      exact ⟨_, List.mem_map_of_mem he, by simpa [bagOf, Bag.numVars] using hn⟩
    rw [this, Bool.and_false]

end Zksql
