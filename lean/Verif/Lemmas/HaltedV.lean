import Verif.Lemmas.Halted
/-!
What every call of the verifier keeps, whether it succeeds, returns an error or panics.
-/
set_option linter.unusedSectionVars false
namespace Zksql
open Spec
variable {F C B : Type} [Field F] [DecidableEq F]

namespace VSt
variable {s s1 s2 s' : VSt F C B}

theorem evalC_le {comms comms' : List (Nat × VComm F)} {ans ans' : Nat → List F → Res F} (hc : ∀ id c, comms.lookup id = some c → comms'.lookup id = some c)
    (ha : ∀ id pt, OkLe (ans id pt) (ans' id pt)) : ∀ (n id : Nat) (pt : List F), OkLe (evalC comms ans n id pt) (evalC comms' ans' n id pt)
  | 0, _, _ => .rfl' _
  | n + 1, id, pt => by
    unfold evalC
    refine OkLe.bind (OkLe.unwrap (hc id)) fun c => ?_
    have ih := evalC_le hc ha n
    cases c with
    | query i => exact ha i pt
    | fn f => exact .rfl' _
    | add i j => exact OkLe.bind (ih i pt) fun _ => OkLe.bind (ih j pt) fun _ => .rfl' _
    | sub i j => exact OkLe.bind (ih i pt) fun _ => OkLe.bind (ih j pt) fun _ => .rfl' _
    | mul i j => exact OkLe.bind (ih i pt) fun _ => OkLe.bind (ih j pt) fun _ => .rfl' _
    | addScalar i c => exact OkLe.bind (ih i pt) fun _ => .rfl' _
    | mulScalar i c => exact OkLe.bind (ih i pt) fun _ => .rfl' _
    | incFront i k =>
      dsimp only
      split
      · exact .rfl' _
      · exact ih i _
    | incBack i k =>
      dsimp only
      split
      · exact .rfl' _
      · exact ih i _

/-- Identifiers are below the counter. -/
structure Numbered (s : VSt F C B) : Prop where
  comms : ∀ id c, s.sh.comms.lookup id = some c → id < s.own.idCounter
  mats : ∀ id c, s.own.matComms.lookup id = some c → id < s.own.idCounter

/-- Nothing was lost or changed. -/
structure Onward (s s' : VSt F C B) : Prop where
  num : Numbered s'
  closures : ∀ id c, s.sh.comms.lookup id = some c → s'.sh.comms.lookup id = some c
  queries : s'.sh.queries = s.sh.queries
  comms : ∀ id c, s.own.matComms.lookup id = some c → s'.own.matComms.lookup id = some c
  sums : s.own.sumClaims <+: s'.own.sumClaims
  zeros : s.own.zeroClaims <+: s'.own.zeroClaims
  messages : s.own.transcript.events <+: s'.own.transcript.events
  label : s'.own.transcript.label = s.own.transcript.label
  counter : s.own.idCounter ≤ s'.own.idCounter
  proof : s'.own.proof = s.own.proof

theorem Onward.refl (h : Numbered s) : Onward s s :=
  ⟨h, fun _ _ h => h, rfl, fun _ _ h => h, List.prefix_refl _, List.prefix_refl _, List.prefix_refl _, rfl, le_refl _, rfl⟩

theorem Onward.trans (h1 : Onward s s1) (h2 : Onward s1 s2) : Onward s s2 :=
  ⟨h2.num, fun id c h => h2.closures id c (h1.closures id c h), h2.queries.trans h1.queries, fun id c h => h2.comms id c (h1.comms id c h), h1.sums.trans h2.sums,
    h1.zeros.trans h2.zeros, h1.messages.trans h2.messages, h2.label.trans h1.label, h1.counter.trans h2.counter, h2.proof.trans h1.proof⟩

theorem Onward.keeps (h : Onward s s') : VKeeps s s' := by
  refine ⟨fun id pt v hv => ?_, h.comms, h.sums, h.zeros, h.messages, h.label, h.counter, h.proof⟩
  refine evalC_le h.closures (fun i x => ?_) (id + 1) id pt v hv
  unfold queryAns
  rw [h.queries]
  exact .rfl' _

end VSt
open VSt

/-- Whatever the call does, nothing there is lost or changed. -/
def VGoes {α : Type} (m : Act (VSt F C B) α) : Prop := ∀ s, Numbered s → Onward s (m s).2

namespace VGoes
variable {α β : Type} (E : Env F C)

theorem bind {m : Act (VSt F C B) α} {f : α → Act (VSt F C B) β} (h : VGoes m) (hf : ∀ a, VGoes (f a)) : VGoes (m >>= f) := by
  intro t ht
  have h1 := h t ht
  rcases e : m t with ⟨e | a, t1⟩
  · rw [Act.bind_error e]
    rw [e] at h1
    exact h1
  · rw [Act.bind_ok e]
    rw [e] at h1
    exact h1.trans (hf a t1 h1.num)
theorem pure (a : α) : VGoes (Pure.pure a : Act (VSt F C B) α) := fun _ h => .refl h
theorem lift (r : Res α) : VGoes (Act.lift r : Act (VSt F C B) α) := fun _ h => .refl h
theorem reads (f : VSt F C B → Res α) : VGoes (Act.reads f) := fun _ h => .refl h
theorem nextId : VGoes (VSt.getNextId : Act (VSt F C B) Nat) := fun _ h => .refl h
theorem assert (p : Prop) [Decidable p] : VGoes (Act.assert p : Act (VSt F C B) Unit) := by
  intro t h
  unfold Act.assert
  split <;> exact .refl h
theorem expect {m : Act (VSt F C B) α} (h : VGoes m) : VGoes (Act.expect m) := by
  intro t ht
  have h1 := h t ht
  unfold Act.expect
  rcases e : m t with ⟨e | a, t1⟩ <;> rw [e] at h1 <;> exact h1
theorem ite {p : Prop} [Decidable p] {m m' : Act (VSt F C B) α} (h1 : VGoes m) (h2 : VGoes m') : VGoes (if p then m else m') := by
  split
  · exact h1
  · exact h2
theorem forget {m : Act (VSt F C B) α} (h : VGoes m) : VGoes (Spec.forget m) := bind h fun _ => pure _

theorem genId : VGoes (VSt.genId : Act (VSt F C B) Nat) := fun _ h =>
  ⟨⟨fun id c hc => Nat.lt_succ_of_lt (h.comms id c hc), fun id c hc => Nat.lt_succ_of_lt (h.mats id c hc)⟩, fun _ _ h => h, rfl, fun _ _ h => h,
    List.prefix_refl _, List.prefix_refl _, List.prefix_refl _, rfl, Nat.le_succ _, rfl⟩

theorem virtual (c : VComm F) : VGoes (VSt.trackVirtual c : Act (VSt F C B) Nat) := by
  intro s h
  change Onward s ⟨{ s.own with idCounter := s.own.idCounter + 1 }, { s.sh with comms := amInsert s.own.idCounter c s.sh.comms }⟩
  refine ⟨⟨fun id d hd => ?_, fun id d hd => Nat.lt_succ_of_lt (h.mats id d hd)⟩, fun id d hd => ?_, rfl, fun _ _ h => h,
    List.prefix_refl _, List.prefix_refl _, List.prefix_refl _, rfl, Nat.le_succ _, rfl⟩
  · change (amInsert s.own.idCounter c s.sh.comms).lookup id = some d at hd
    change id < s.own.idCounter + 1
    rw [lookup_amInsert] at hd
    split at hd
    · omega
    · exact Nat.lt_succ_of_lt (h.comms id d hd)
  · have := h.comms id d hd
    change (amInsert s.own.idCounter c s.sh.comms).lookup id = some d
    rw [lookup_amInsert, if_neg (by omega)]
    exact hd

theorem trackMat (c : C) : VGoes (VSt.trackMatComm c : Act (VSt F C B) Nat) := by
  intro s h
  have h1 := virtual (F := F) (C := C) (B := B) (.query s.own.idCounter) s h
  change Onward s ⟨{ s.own with idCounter := s.own.idCounter + 1, transcript := s.own.transcript.append "comm" (.comm c), matComms := amInsert s.own.idCounter c s.own.matComms },
    { s.sh with comms := amInsert s.own.idCounter (.query s.own.idCounter) s.sh.comms }⟩
  refine ⟨⟨h1.num.comms, fun id d hd => ?_⟩, h1.closures, rfl, fun id d hd => ?_, List.prefix_refl _, List.prefix_refl _, List.prefix_append _ _, rfl, Nat.le_succ _, rfl⟩
  · change (amInsert s.own.idCounter c s.own.matComms).lookup id = some d at hd
    change id < s.own.idCounter + 1
    rw [lookup_amInsert] at hd
    split at hd
    · omega
    · exact Nat.lt_succ_of_lt (h.mats id d hd)
  · have := h.mats id d hd
    change (amInsert s.own.idCounter c s.own.matComms).lookup id = some d
    rw [lookup_amInsert, if_neg (by omega)]
    exact hd

theorem add (i j : Nat) : VGoes (VSt.addComms i j : Act (VSt F C B) Nat) := virtual _
theorem sub (i j : Nat) : VGoes (VSt.subComms i j : Act (VSt F C B) Nat) := virtual _
theorem mul (i j : Nat) : VGoes (VSt.mulComms i j : Act (VSt F C B) Nat) := virtual _
theorem mulScalar (i : Nat) (c : F) : VGoes (VSt.mulScalar i c : Act (VSt F C B) Nat) := virtual _
theorem incFront (i k : Nat) : VGoes (VSt.incFront i k : Act (VSt F C B) Nat) := virtual _
theorem incBack (i k : Nat) : VGoes (VSt.incBack i k : Act (VSt F C B) Nat) := virtual _
theorem addScalar (i : Nat) (c : F) : VGoes (VSt.addScalar i c : Act (VSt F C B) Nat) := bind genId fun _ => virtual _
theorem transfer (d : Bool) (i : Nat) : VGoes (VSt.transferComm d i : Act (VSt F C B) Nat) :=
  bind (reads _) fun _ => bind (expect (trackMat _)) fun _ => bind (assert _) fun _ => pure _
theorem challenge (H : Oracle F C) (l : String) : VGoes (VSt.challenge H l : Act (VSt F C B) F) := by
  intro s h
  unfold VSt.challenge Transcript.challenge
  split
  · rename_i c tr e
    split at e
    · cases e
    · obtain ⟨-, rfl⟩ := Prod.mk.inj (Except.ok.inj e)
      exact ⟨⟨h.comms, h.mats⟩, fun _ _ h => h, rfl, fun _ _ h => h, List.prefix_refl _, List.prefix_refl _, (List.prefix_append _ _).trans (List.prefix_append _ _), rfl,
        le_refl _, rfl⟩
  · exact .refl h
theorem append (l : String) (d : TItem F C) : VGoes (VSt.append l d : Act (VSt F C B) Unit) := fun _ h =>
  ⟨⟨h.comms, h.mats⟩, fun _ _ h => h, rfl, fun _ _ h => h, List.prefix_refl _, List.prefix_refl _, List.prefix_append _ _, rfl, le_refl _, rfl⟩
theorem sumClaim (i : Nat) (v : F) : VGoes (VSt.addSumClaim i v : Act (VSt F C B) Unit) := fun _ h =>
  ⟨⟨h.comms, h.mats⟩, fun _ _ h => h, rfl, fun _ _ h => h, List.prefix_append _ _, List.prefix_refl _, List.prefix_refl _, rfl, le_refl _, rfl⟩
theorem zeroClaim (i : Nat) : VGoes (VSt.addZeroClaim i : Act (VSt F C B) Unit) := fun _ h =>
  ⟨⟨h.comms, h.mats⟩, fun _ _ h => h, rfl, fun _ _ h => h, List.prefix_refl _, List.prefix_append _ _, List.prefix_refl _, rfl, le_refl _, rfl⟩
theorem claimedSum (i : Nat) : VGoes (VSt.claimedSum i : Act (VSt F C B) F) := reads _

syntax "vgoes_call" : tactic
macro_rules | `(tactic| vgoes_call) => `(tactic| fail "no rule")

/-- All steps of a call. -/
macro "vgoes" : tactic => `(tactic| repeat (first
  | with_reducible exact pure _ | with_reducible exact lift _ | with_reducible exact nextId | with_reducible exact claimedSum _
  | with_reducible exact zeroClaim _ | with_reducible exact sumClaim _ _ | with_reducible exact challenge _ _ | with_reducible exact virtual _
  | with_reducible exact add _ _ | with_reducible exact sub _ _ | with_reducible exact mul _ _ | with_reducible exact mulScalar _ _
  | with_reducible exact addScalar _ _ | with_reducible exact transfer _ _ | with_reducible exact incFront _ _ | with_reducible exact incBack _ _
  | vgoes_call
  | (with_reducible refine bind ?_ fun _ => ?_)
  | (with_reducible refine ite ?_ ?_)))

theorem verifySub (b : BagComm) (m : Nat) (γ : F) : VGoes (Multitool.verifySub E b m γ : Act (VSt F C B) F) := by
  unfold Multitool.verifySub
  vgoes
macro_rules | `(tactic| vgoes_call) => `(tactic| with_reducible exact VGoes.verifySub _ _ _ _)

theorem verifySubs (γ : F) (t : Nat) : ∀ (l : List (BagComm × Nat)) (acc : F), VGoes (Multitool.verifySubs E γ t l acc : Act (VSt F C B) F)
  | [], _ => pure _
  | (b, m) :: r, acc => by
    unfold Multitool.verifySubs
    vgoes
    exact verifySubs γ t r _
macro_rules | `(tactic| vgoes_call) => `(tactic| with_reducible exact VGoes.verifySubs _ _ _ _ _)

theorem multitool (fxs gxs : List BagComm) (mf mg : List Nat) : VGoes (Multitool.verify E fxs gxs mf mg : Act (VSt F C B) Unit) := by
  unfold Multitool.verify
  vgoes
macro_rules | `(tactic| vgoes_call) => `(tactic| with_reducible exact VGoes.multitool _ _ _ _ _)

theorem bagEq (f g : BagComm) : VGoes (BagEq.verify E f g : Act (VSt F C B) Unit) := by
  unfold BagEq.verify
  vgoes
macro_rules | `(tactic| vgoes_call) => `(tactic| with_reducible exact VGoes.bagEq _ _ _)

theorem bagSum (f g h : BagComm) : VGoes (BagSum.verify E f g h : Act (VSt F C B) Unit) := by
  unfold BagSum.verify
  vgoes
macro_rules | `(tactic| vgoes_call) => `(tactic| with_reducible exact VGoes.bagSum _ _ _ _)

theorem noZeros (b : BagComm) : VGoes (NoZeros.verify E b : Act (VSt F C B) Unit) := by
  unfold NoZeros.verify
  vgoes
macro_rules | `(tactic| vgoes_call) => `(tactic| with_reducible exact VGoes.noZeros _ _)

theorem selector (i : Nat) : VGoes (SelectorValid.verify i : Act (VSt F C B) Unit) := by
  unfold SelectorValid.verify
  vgoes
macro_rules | `(tactic| vgoes_call) => `(tactic| with_reducible exact VGoes.selector _)

theorem inclusionAdvice (f g : BagComm) (m : Nat) : VGoes (Inclusion.verifyWithAdvice E f g m : Act (VSt F C B) Unit) := by
  unfold Inclusion.verifyWithAdvice
  vgoes
macro_rules | `(tactic| vgoes_call) => `(tactic| with_reducible exact VGoes.inclusionAdvice _ _ _ _)

theorem inclusion (f g : BagComm) : VGoes (Inclusion.verify E f g : Act (VSt F C B) Unit) := by
  unfold Inclusion.verify
  vgoes
macro_rules | `(tactic| vgoes_call) => `(tactic| with_reducible exact VGoes.inclusion _ _ _)

theorem permutation (f g : BagComm) (p : Nat) : VGoes (PrescPerm.verify E f g p : Act (VSt F C B) Unit) := by
  unfold PrescPerm.verify
  vgoes
macro_rules | `(tactic| vgoes_call) => `(tactic| with_reducible exact VGoes.permutation _ _ _ _)

theorem sort (f r : BagComm) : VGoes (StrictSort.verify E f r : Act (VSt F C B) Unit) := by
  unfold StrictSort.verify
  dsimp only
  vgoes
macro_rules | `(tactic| vgoes_call) => `(tactic| with_reducible exact VGoes.sort _ _ _)

theorem suppAdvice (b p : BagComm) (m : Nat) (r : BagComm) : VGoes (Supp.verifyWithAdvice E b p m r : Act (VSt F C B) Unit) :=
  bind (inclusionAdvice E _ _ _) fun _ => bind (noZeros E _) fun _ => sort E _ _
macro_rules | `(tactic| vgoes_call) => `(tactic| with_reducible exact VGoes.suppAdvice _ _ _ _ _)

theorem supp (b p r : BagComm) : VGoes (Supp.verify E b p r : Act (VSt F C B) Unit) := by
  unfold Supp.verify
  vgoes
macro_rules | `(tactic| vgoes_call) => `(tactic| with_reducible exact VGoes.supp _ _ _ _)

theorem disjoint (a b r : BagComm) : VGoes (Disjoint.verify E a b r : Act (VSt F C B) Unit) := by
  unfold Disjoint.verify Disjoint.verifyWithAdvice
  dsimp only
  vgoes
macro_rules | `(tactic| vgoes_call) => `(tactic| with_reducible exact VGoes.disjoint _ _ _ _)

theorem setDisjoint (a b r : BagComm) : VGoes (SetDisjoint.verify E a b r : Act (VSt F C B) Unit) := by
  unfold SetDisjoint.verify
  dsimp only
  vgoes
macro_rules | `(tactic| vgoes_call) => `(tactic| with_reducible exact VGoes.setDisjoint _ _ _ _)

theorem setUnion (a b u r : BagComm) : VGoes (SetUnion.verify E a b u r : Act (VSt F C B) Unit) := by
  unfold SetUnion.verify
  dsimp only
  vgoes
macro_rules | `(tactic| vgoes_call) => `(tactic| with_reducible exact VGoes.setUnion _ _ _ _ _)

theorem setDiff (a b l m : BagComm) (bm : Nat) (r : BagComm) : VGoes (SetDiff.verify E a b l m bm r : Act (VSt F C B) Unit) :=
  bind (setDisjoint E _ _ _) fun _ => bind (bagSum E _ _ _) fun _ => inclusionAdvice E _ _ _
macro_rules | `(tactic| vgoes_call) => `(tactic| with_reducible exact VGoes.setDiff _ _ _ _ _ _ _)

theorem setIntersect (a b l m r range : BagComm) : VGoes (SetIntersect.verify E a b l m r range : Act (VSt F C B) Unit) :=
  bind (bagSum E _ _ _) fun _ => bind (bagSum E _ _ _) fun _ => setDisjoint E _ _ _
macro_rules | `(tactic| vgoes_call) => `(tactic| with_reducible exact VGoes.setIntersect _ _ _ _ _ _ _)

theorem joinReduction (a b : BagComm) (l r : Nat) (range : BagComm) : VGoes (JoinReduction.verify E a b l r range : Act (VSt F C B) Unit) := by
  unfold JoinReduction.verify
  vgoes
macro_rules | `(tactic| vgoes_call) => `(tactic| with_reducible exact VGoes.joinReduction _ _ _ _ _ _)

theorem vIncFronts (k : Nat) : ∀ l : List Nat, VGoes (CrossProduct.vIncFronts k l : Act (VSt F C B) (List Nat))
  | [] => pure _
  | _ :: r => bind (incFront _ _) fun _ => bind (vIncFronts k r) fun _ => pure _
macro_rules | `(tactic| vgoes_call) => `(tactic| with_reducible exact VGoes.vIncFronts _ _)

theorem vIncBacks (k : Nat) : ∀ l : List Nat, VGoes (CrossProduct.vIncBacks k l : Act (VSt F C B) (List Nat))
  | [] => pure _
  | _ :: r => bind (incBack _ _) fun _ => bind (vIncBacks k r) fun _ => pure _
macro_rules | `(tactic| vgoes_call) => `(tactic| with_reducible exact VGoes.vIncBacks _ _)

theorem crossProduct (a b : TableComm) : VGoes (CrossProduct.verifier a b : Act (VSt F C B) TableComm) := by
  unfold CrossProduct.verifier
  vgoes
macro_rules | `(tactic| vgoes_call) => `(tactic| with_reducible exact VGoes.crossProduct _ _)

theorem rands : ∀ n : Nat, VGoes (IndexTransform.verifierRands E n : Act (VSt F C B) (List F))
  | 0 => pure _
  | n + 1 => bind (challenge _ _) fun _ => bind (rands n) fun _ => pure _
macro_rules | `(tactic| vgoes_call) => `(tactic| with_reducible exact VGoes.rands _ _)

theorem aggLoop : ∀ (acc : Nat) (cs : List Nat) (rs : List F), VGoes (IndexTransform.verifierAggLoop acc cs rs : Act (VSt F C B) Nat)
  | _, [], _ => pure _
  | _, _ :: _, [] => lift _
  | _, _ :: cs, _ :: rs => bind (mulScalar _ _) fun _ => bind (mul _ _) fun _ => aggLoop _ cs rs
macro_rules | `(tactic| vgoes_call) => `(tactic| with_reducible exact VGoes.aggLoop _ _ _)

theorem indexTransform (a b : TableComm) : VGoes (IndexTransform.verify E a b : Act (VSt F C B) Unit) := by
  unfold IndexTransform.verify IndexTransform.verifierPowers IndexTransform.verifierAgg
  vgoes
macro_rules | `(tactic| vgoes_call) => `(tactic| with_reducible exact VGoes.indexTransform _ _ _)

theorem joinAdvice (a b : TableComm) (ai bi : Nat) (ta : List Nat) : VGoes (FinalJoin.verifyWithAdvice E a b ai bi ta : Act (VSt F C B) TableComm) := by
  unfold FinalJoin.verifyWithAdvice
  dsimp only
  vgoes
macro_rules | `(tactic| vgoes_call) => `(tactic| with_reducible exact VGoes.joinAdvice _ _ _ _ _ _)

theorem transferAll : ∀ n : Nat, VGoes (FinalJoin.transferAll E n : Act (VSt F C B) (List Nat))
  | 0 => pure _
  | n + 1 => bind nextId fun _ => bind (transfer _ _) fun _ => bind (transferAll n) fun _ => pure _
macro_rules | `(tactic| vgoes_call) => `(tactic| with_reducible exact VGoes.transferAll _ _)

theorem join (a b : TableComm) (ai bi : Nat) : VGoes (FinalJoin.verify E a b ai bi : Act (VSt F C B) TableComm) :=
  bind (transferAll E _) fun _ => joinAdvice E _ _ _ _ _
macro_rules | `(tactic| vgoes_call) => `(tactic| with_reducible exact VGoes.join _ _ _ _ _)

theorem aggs (inp : TableComm) (pre grp : BagComm) (mult : Nat) : ∀ (l : List (Nat × AggType × Nat)) (cols : List Nat),
    VGoes (GroupBy.verifyAggs E inp pre grp mult l cols : Act (VSt F C B) (List Nat))
  | [], _ => pure _
  | (_, .count, _) :: r, cols => by unfold GroupBy.verifyAggs; exact aggs inp pre grp mult r _
  | (_, .sum, _) :: r, cols => by
    unfold GroupBy.verifyAggs
    exact bind (lift _) fun _ => bind (multitool E _ _ _ _) fun _ => aggs inp pre grp mult r _
  | (_, .avg, _) :: _, _ => lift _
  | (_, .min, _) :: _, _ => lift _
  | (_, .max, _) :: _, _ => lift _
macro_rules | `(tactic| vgoes_call) => `(tactic| with_reducible exact VGoes.aggs _ _ _ _ _ _ _)

theorem groupBy (inp : TableComm) (i : GroupInstr Nat) (r : BagComm) : VGoes (GroupBy.verifyWithAdvice E inp i r : Act (VSt F C B) TableComm) := by
  unfold GroupBy.verifyWithAdvice
  refine bind (lift _) fun gs => ?_
  obtain ⟨g, sp⟩ := gs
  dsimp only
  vgoes
macro_rules | `(tactic| vgoes_call) => `(tactic| with_reducible exact VGoes.groupBy _ _ _ _)

theorem check : ∀ c : Check TPoly, VGoes (c.verify E : Act (VSt F C B) Unit)
  | .multiset _ _ => multitool E _ _ _ _
  | .bagEq _ _ => bagEq E _ _
  | .bagSum _ _ _ => bagSum E _ _ _
  | .inclusion _ _ => inclusion E _ _
  | .inclusionAdvice _ _ _ => inclusionAdvice E _ _ _
  | .noZeros _ => noZeros E _
  | .selector _ => selector _
  | .permutation _ _ _ => permutation E _ _ _
  | .sort _ _ => sort E _ _
  | .support _ _ _ => supp E _ _ _
  | .supportAdvice _ _ _ _ => suppAdvice E _ _ _ _
  | .disjoint _ _ _ => disjoint E _ _ _
  | .setDisjoint _ _ _ => setDisjoint E _ _ _
  | .union _ _ _ _ => setUnion E _ _ _ _
  | .diff _ _ _ _ _ _ => setDiff E _ _ _ _ _ _
  | .intersect _ _ _ _ _ _ => setIntersect E _ _ _ _ _ _
  | .joinReduction _ _ _ _ _ => joinReduction E _ _ _ _ _
  | .indexTransform _ _ => indexTransform E _ _
  | .joinAdvice _ _ _ _ _ => bind (joinAdvice E _ _ _ _ _) fun _ => pure _
  | .groupBy _ _ _ _ _ _ => bind (groupBy E _ _ _) fun _ => pure _

theorem op : ∀ o : VHandleOp F C, VGoes (o.run E : Act (VSt F C B) Nat)
  | .trackComm _ => trackMat _
  | .transfer _ => transfer _ _
  | .closure _ => virtual _
  | .add _ _ => add _ _
  | .sub _ _ => sub _ _
  | .mul _ _ => mul _ _
  | .addScalar _ _ => addScalar _ _
  | .mulScalar _ _ => mulScalar _ _
  | .incFront _ _ => incFront _ _
  | .incBack _ _ => incBack _ _

theorem call : ∀ c : VerifierCall F C, VGoes (c.run E : Act (VSt F C B) Unit)
  | .op _ => forget (op E _)
  | .challenge _ => forget (challenge _ _)
  | .append _ _ => append _ _
  | .claimedSum _ => forget (claimedSum _)
  | .sumClaim _ _ => sumClaim _ _
  | .zeroClaim _ => zeroClaim _
  | .check _ => check E _
  | .join _ _ _ _ => forget (join E _ _ _ _)
  | .cross _ _ => forget (crossProduct _ _)

end VGoes

theorem vnumbered_new : Numbered (VSt.new : VSt F C B) := ⟨fun _ _ h => (by cases h), fun _ _ h => (by cases h)⟩

theorem vcallsOn_onward (E : Env F C) : ∀ (cs : List (VerifierCall F C)) {s : VSt F C B}, Numbered s → Onward s (vcallsOn E cs s)
  | [], _, h => .refl h
  | c :: cs, s, h => (VGoes.call E c s h).trans (vcallsOn_onward E cs (VGoes.call E c s h).num)

end Zksql
