import Verif.Spec.Unread
import Verif.Lemmas.VerifierTracker
import Verif.Lemmas.VerifyRun
import Verif.Lemmas.HaltedV
import Verif.Lemmas.Crash
/-! A verifier's calls have the same results for proofs that agree on what is read. -/
set_option linter.unusedSectionVars false
namespace Zksql
open Spec
variable {F C B : Type} [Field F] [DecidableEq F] (E : Env F C)

/-- Two verifiers agree on all but the answers to queries and the unread parts of the proof. -/
structure ReadAlike (s s' : VSt F C B) : Prop where
  transcript : s.own.transcript = s'.own.transcript
  counter : s.own.idCounter = s'.own.idCounter
  sums : s.own.sumClaims = s'.own.sumClaims
  zeros : s.own.zeroClaims = s'.own.zeroClaims
  comms : s.own.matComms = s'.own.matComms
  closures : s.sh.comms = s'.sh.comms
  proof : SameRead s.own.proof s'.own.proof

/-- The call has the same result for such verifiers, and leaves such verifiers. -/
def VBlind {α : Type} (m : Act (VSt F C B) α) : Prop := ∀ s s', ReadAlike s s' → (m s).1 = (m s').1 ∧ ReadAlike (m s).2 (m s').2

namespace VBlind
variable {α β : Type}

theorem bind {m : Act (VSt F C B) α} {f : α → Act (VSt F C B) β} (h : VBlind m) (hf : ∀ a, VBlind (f a)) : VBlind (m >>= f) := by
  intro t t' ht
  obtain ⟨h1, h2⟩ := h t t' ht
  rw [Act.bind_run, Act.bind_run]
  rcases e : m t with ⟨_ | a, s⟩ <;> rcases e' : m t' with ⟨_ | b, s'⟩ <;> rw [e, e'] at h1 h2
  · exact ⟨by simpa using h1, h2⟩
  · cases h1
  · cases h1
  · cases h1
    exact hf a s s' h2

theorem pure (a : α) : VBlind (Pure.pure a : Act (VSt F C B) α) := fun _ _ h => ⟨rfl, h⟩
theorem lift (r : Res α) : VBlind (Act.lift r : Act (VSt F C B) α) := fun _ _ h => ⟨rfl, h⟩
theorem reads {f : VSt F C B → Res α} (h : ∀ t t', ReadAlike t t' → f t = f t') : VBlind (Act.reads f) := fun t t' ht => ⟨h t t' ht, ht⟩
theorem modify {f : VSt F C B → VSt F C B} (h : ∀ t t', ReadAlike t t' → ReadAlike (f t) (f t')) : VBlind (Act.modify f) :=
  fun t t' ht => ⟨rfl, h t t' ht⟩
theorem assert (p : Prop) [Decidable p] : VBlind (Act.assert p : Act (VSt F C B) Unit) := by
  intro t t' ht
  unfold Act.assert
  split_ifs
  · exact ⟨rfl, ht⟩
  · exact ⟨rfl, ht⟩
theorem expect {m : Act (VSt F C B) α} (h : VBlind m) : VBlind (Act.expect m) := by
  intro t t' ht
  obtain ⟨h1, h2⟩ := h t t' ht
  unfold Act.expect
  rcases e : m t with ⟨_ | a, s⟩ <;> rcases e' : m t' with ⟨_ | b, s'⟩ <;> rw [e, e'] at h1 h2
  · exact ⟨rfl, h2⟩
  · cases h1
  · cases h1
  · exact ⟨h1, h2⟩
theorem ite {p : Prop} [Decidable p] {m m' : Act (VSt F C B) α} (h1 : VBlind m) (h2 : VBlind m') : VBlind (if p then m else m') := by
  split
  · exact h1
  · exact h2
theorem nextId : VBlind (VSt.getNextId : Act (VSt F C B) Nat) := fun _ _ h => ⟨congrArg Except.ok h.counter, h⟩

theorem genId : VBlind (VSt.genId : Act (VSt F C B) Nat) := by
  intro t t' h
  refine ⟨congrArg Except.ok h.counter, ⟨h.transcript, ?_, h.sums, h.zeros, h.comms, h.closures, h.proof⟩⟩
  change t.own.idCounter + 1 = t'.own.idCounter + 1
  rw [h.counter]

theorem insertComm (id : Nat) (c : VComm F) : VBlind (VSt.insertComm id c : Act (VSt F C B) Unit) :=
  modify fun t t' h => ⟨h.transcript, h.counter, h.sums, h.zeros, h.comms, by
    change amInsert id c t.sh.comms = amInsert id c t'.sh.comms
    rw [h.closures], h.proof⟩

theorem tr_same {s s' : VSt F C B} (h : ReadAlike s s') (tr : Transcript F C) :
    ReadAlike { s with own := { s.own with transcript := tr } } { s' with own := { s'.own with transcript := tr } } :=
  ⟨rfl, h.counter, h.sums, h.zeros, h.comms, h.closures, h.proof⟩

theorem append (label : String) (d : TItem F C) : VBlind (VSt.append label d : Act (VSt F C B) Unit) :=
  modify fun t t' h => by
    rw [h.transcript]
    exact tr_same h _

theorem trackMatComm (c : C) : VBlind (VSt.trackMatComm c : Act (VSt F C B) Nat) := by
  unfold VSt.trackMatComm
  refine genId.bind fun id => ?_
  refine (insertComm id _).bind fun _ => ?_
  refine (append "comm" (.comm c)).bind fun _ => ?_
  refine bind (modify fun t t' h => ?_) fun _ => pure id
  refine ⟨h.transcript, h.counter, h.sums, h.zeros, ?_, h.closures, h.proof⟩
  change amInsert id c t.own.matComms = amInsert id c t'.own.matComms
  rw [h.comms]

theorem virtual (c : VComm F) : VBlind (VSt.trackVirtual c : Act (VSt F C B) Nat) := genId.bind fun id => (insertComm id c).bind fun _ => pure id
theorem add (i j : Nat) : VBlind (VSt.addComms i j : Act (VSt F C B) Nat) := virtual _
theorem sub (i j : Nat) : VBlind (VSt.subComms i j : Act (VSt F C B) Nat) := virtual _
theorem mul (i j : Nat) : VBlind (VSt.mulComms i j : Act (VSt F C B) Nat) := virtual _
theorem mulScalar (i : Nat) (c : F) : VBlind (VSt.mulScalar i c : Act (VSt F C B) Nat) := virtual _
theorem incFront (i k : Nat) : VBlind (VSt.incFront i k : Act (VSt F C B) Nat) := virtual _
theorem incBack (i k : Nat) : VBlind (VSt.incBack i k : Act (VSt F C B) Nat) := virtual _
theorem addScalar (i : Nat) (c : F) : VBlind (VSt.addScalar i c : Act (VSt F C B) Nat) := genId.bind fun _ => virtual _

theorem transfer (debug : Bool) (id : Nat) : VBlind (VSt.transferComm debug id : Act (VSt F C B) Nat) := by
  unfold VSt.transferComm
  refine (reads fun t t' h => by rw [h.proof.comms]).bind fun c => ?_
  refine (trackMatComm c).expect.bind fun newId => ?_
  exact (assert _).bind fun _ => pure newId

theorem challenge (H : Oracle F C) (label : String) : VBlind (VSt.challenge H label : Act (VSt F C B) F) := by
  intro t t' h
  unfold VSt.challenge
  rw [← h.transcript]
  rcases t.own.transcript.challenge H label with e | ⟨c, tr⟩
  · exact ⟨rfl, h⟩
  · exact ⟨rfl, tr_same h tr⟩

theorem challengesU (H : Oracle F C) (label : String) (n : Nat) : VBlind (VSt.challengesU H label n : Act (VSt F C B) (List F)) := by
  intro t t' h
  unfold VSt.challengesU
  rw [← h.transcript]
  rcases t.own.transcript.challenges H label n with e | ⟨c, tr⟩
  · exact ⟨rfl, h⟩
  · exact ⟨rfl, tr_same h tr⟩

theorem sumClaim (id : Nat) (v : F) : VBlind (VSt.addSumClaim id v : Act (VSt F C B) Unit) :=
  modify fun t t' h => ⟨h.transcript, h.counter, by
    change t.own.sumClaims ++ _ = t'.own.sumClaims ++ _
    rw [h.sums], h.zeros, h.comms, h.closures, h.proof⟩

theorem zeroClaim (id : Nat) : VBlind (VSt.addZeroClaim id : Act (VSt F C B) Unit) :=
  modify fun t t' h => ⟨h.transcript, h.counter, h.sums, by
    change t.own.zeroClaims ++ _ = t'.own.zeroClaims ++ _
    rw [h.zeros], h.comms, h.closures, h.proof⟩

theorem claimedSum (id : Nat) : VBlind (VSt.claimedSum id : Act (VSt F C B) F) := reads fun t t' h => by rw [h.proof.claims id]

theorem transferEvals : VBlind (VSt.transferEvals : Act (VSt F C B) Unit) :=
  modify fun _ _ h => ⟨h.transcript, h.counter, h.sums, h.zeros, h.comms, h.closures, h.proof⟩

syntax "vblind_call" : tactic
macro_rules | `(tactic| vblind_call) => `(tactic| fail "no rule")

/-- All steps of a call. -/
macro "vblind" : tactic => `(tactic| repeat (first
  | with_reducible exact pure _ | with_reducible exact lift _ | with_reducible exact nextId | with_reducible exact claimedSum _
  | with_reducible exact zeroClaim _ | with_reducible exact sumClaim _ _ | with_reducible exact challenge _ _ | with_reducible exact virtual _
  | with_reducible exact add _ _ | with_reducible exact sub _ _ | with_reducible exact mul _ _ | with_reducible exact mulScalar _ _
  | with_reducible exact addScalar _ _ | with_reducible exact transfer _ _ | with_reducible exact incFront _ _ | with_reducible exact incBack _ _
  | vblind_call
  | (with_reducible refine bind ?_ fun _ => ?_)
  | (with_reducible refine ite ?_ ?_)))

theorem verifySub (b : BagComm) (m : Nat) (γ : F) : VBlind (Multitool.verifySub E b m γ : Act (VSt F C B) F) := by
  unfold Multitool.verifySub
  vblind
macro_rules | `(tactic| vblind_call) => `(tactic| with_reducible exact VBlind.verifySub _ _ _ _)

theorem verifySubs (γ : F) (t : Nat) : ∀ (l : List (BagComm × Nat)) (acc : F), VBlind (Multitool.verifySubs E γ t l acc : Act (VSt F C B) F)
  | [], _ => pure _
  | (b, m) :: r, acc => by
    unfold Multitool.verifySubs
    vblind
    exact verifySubs γ t r _
macro_rules | `(tactic| vblind_call) => `(tactic| with_reducible exact VBlind.verifySubs _ _ _ _ _)

theorem multitool (fxs gxs : List BagComm) (mf mg : List Nat) : VBlind (Multitool.verify E fxs gxs mf mg : Act (VSt F C B) Unit) := by
  unfold Multitool.verify
  vblind
macro_rules | `(tactic| vblind_call) => `(tactic| with_reducible exact VBlind.multitool _ _ _ _ _)

theorem bagEq (f g : BagComm) : VBlind (BagEq.verify E f g : Act (VSt F C B) Unit) := by
  unfold BagEq.verify
  vblind
macro_rules | `(tactic| vblind_call) => `(tactic| with_reducible exact VBlind.bagEq _ _ _)

theorem bagSum (f g h : BagComm) : VBlind (BagSum.verify E f g h : Act (VSt F C B) Unit) := by
  unfold BagSum.verify
  vblind
macro_rules | `(tactic| vblind_call) => `(tactic| with_reducible exact VBlind.bagSum _ _ _ _)

theorem noZeros (b : BagComm) : VBlind (NoZeros.verify E b : Act (VSt F C B) Unit) := by
  unfold NoZeros.verify
  vblind
macro_rules | `(tactic| vblind_call) => `(tactic| with_reducible exact VBlind.noZeros _ _)

theorem selector (i : Nat) : VBlind (SelectorValid.verify i : Act (VSt F C B) Unit) := by
  unfold SelectorValid.verify
  vblind
macro_rules | `(tactic| vblind_call) => `(tactic| with_reducible exact VBlind.selector _)

theorem inclusionAdvice (f g : BagComm) (m : Nat) : VBlind (Inclusion.verifyWithAdvice E f g m : Act (VSt F C B) Unit) := by
  unfold Inclusion.verifyWithAdvice
  vblind
macro_rules | `(tactic| vblind_call) => `(tactic| with_reducible exact VBlind.inclusionAdvice _ _ _ _)

theorem inclusion (f g : BagComm) : VBlind (Inclusion.verify E f g : Act (VSt F C B) Unit) := by
  unfold Inclusion.verify
  vblind
macro_rules | `(tactic| vblind_call) => `(tactic| with_reducible exact VBlind.inclusion _ _ _)

theorem permutation (f g : BagComm) (p : Nat) : VBlind (PrescPerm.verify E f g p : Act (VSt F C B) Unit) := by
  unfold PrescPerm.verify
  vblind
macro_rules | `(tactic| vblind_call) => `(tactic| with_reducible exact VBlind.permutation _ _ _ _)

theorem sort (f r : BagComm) : VBlind (StrictSort.verify E f r : Act (VSt F C B) Unit) := by
  unfold StrictSort.verify
  dsimp only
  vblind
macro_rules | `(tactic| vblind_call) => `(tactic| with_reducible exact VBlind.sort _ _ _)

theorem suppAdvice (b p : BagComm) (m : Nat) (r : BagComm) : VBlind (Supp.verifyWithAdvice E b p m r : Act (VSt F C B) Unit) :=
  bind (inclusionAdvice E _ _ _) fun _ => bind (noZeros E _) fun _ => sort E _ _
macro_rules | `(tactic| vblind_call) => `(tactic| with_reducible exact VBlind.suppAdvice _ _ _ _ _)

theorem supp (b p r : BagComm) : VBlind (Supp.verify E b p r : Act (VSt F C B) Unit) := by
  unfold Supp.verify
  vblind
macro_rules | `(tactic| vblind_call) => `(tactic| with_reducible exact VBlind.supp _ _ _ _)

theorem disjoint (a b r : BagComm) : VBlind (Disjoint.verify E a b r : Act (VSt F C B) Unit) := by
  unfold Disjoint.verify Disjoint.verifyWithAdvice
  dsimp only
  vblind
macro_rules | `(tactic| vblind_call) => `(tactic| with_reducible exact VBlind.disjoint _ _ _ _)

theorem setDisjoint (a b r : BagComm) : VBlind (SetDisjoint.verify E a b r : Act (VSt F C B) Unit) := by
  unfold SetDisjoint.verify
  dsimp only
  vblind
macro_rules | `(tactic| vblind_call) => `(tactic| with_reducible exact VBlind.setDisjoint _ _ _ _)

theorem setUnion (a b u r : BagComm) : VBlind (SetUnion.verify E a b u r : Act (VSt F C B) Unit) := by
  unfold SetUnion.verify
  dsimp only
  vblind
macro_rules | `(tactic| vblind_call) => `(tactic| with_reducible exact VBlind.setUnion _ _ _ _ _)

theorem setDiff (a b l m : BagComm) (bm : Nat) (r : BagComm) : VBlind (SetDiff.verify E a b l m bm r : Act (VSt F C B) Unit) :=
  bind (setDisjoint E _ _ _) fun _ => bind (bagSum E _ _ _) fun _ => inclusionAdvice E _ _ _
macro_rules | `(tactic| vblind_call) => `(tactic| with_reducible exact VBlind.setDiff _ _ _ _ _ _ _)

theorem setIntersect (a b l m r range : BagComm) : VBlind (SetIntersect.verify E a b l m r range : Act (VSt F C B) Unit) :=
  bind (bagSum E _ _ _) fun _ => bind (bagSum E _ _ _) fun _ => setDisjoint E _ _ _
macro_rules | `(tactic| vblind_call) => `(tactic| with_reducible exact VBlind.setIntersect _ _ _ _ _ _ _)

theorem joinReduction (a b : BagComm) (l r : Nat) (range : BagComm) : VBlind (JoinReduction.verify E a b l r range : Act (VSt F C B) Unit) := by
  unfold JoinReduction.verify
  vblind
macro_rules | `(tactic| vblind_call) => `(tactic| with_reducible exact VBlind.joinReduction _ _ _ _ _ _)

theorem vIncFronts (k : Nat) : ∀ l : List Nat, VBlind (CrossProduct.vIncFronts k l : Act (VSt F C B) (List Nat))
  | [] => pure _
  | _ :: r => bind (incFront _ _) fun _ => bind (vIncFronts k r) fun _ => pure _
macro_rules | `(tactic| vblind_call) => `(tactic| with_reducible exact VBlind.vIncFronts _ _)

theorem vIncBacks (k : Nat) : ∀ l : List Nat, VBlind (CrossProduct.vIncBacks k l : Act (VSt F C B) (List Nat))
  | [] => pure _
  | _ :: r => bind (incBack _ _) fun _ => bind (vIncBacks k r) fun _ => pure _
macro_rules | `(tactic| vblind_call) => `(tactic| with_reducible exact VBlind.vIncBacks _ _)

theorem crossProduct (a b : TableComm) : VBlind (CrossProduct.verifier a b : Act (VSt F C B) TableComm) := by
  unfold CrossProduct.verifier
  vblind
macro_rules | `(tactic| vblind_call) => `(tactic| with_reducible exact VBlind.crossProduct _ _)

theorem rands : ∀ n : Nat, VBlind (IndexTransform.verifierRands E n : Act (VSt F C B) (List F))
  | 0 => pure _
  | n + 1 => bind (challenge _ _) fun _ => bind (rands n) fun _ => pure _
macro_rules | `(tactic| vblind_call) => `(tactic| with_reducible exact VBlind.rands _ _)

theorem aggLoop : ∀ (acc : Nat) (cs : List Nat) (rs : List F), VBlind (IndexTransform.verifierAggLoop acc cs rs : Act (VSt F C B) Nat)
  | _, [], _ => pure _
  | _, _ :: _, [] => lift _
  | _, _ :: cs, _ :: rs => bind (mulScalar _ _) fun _ => bind (mul _ _) fun _ => aggLoop _ cs rs
macro_rules | `(tactic| vblind_call) => `(tactic| with_reducible exact VBlind.aggLoop _ _ _)

theorem indexTransform (a b : TableComm) : VBlind (IndexTransform.verify E a b : Act (VSt F C B) Unit) := by
  unfold IndexTransform.verify IndexTransform.verifierPowers IndexTransform.verifierAgg
  vblind
macro_rules | `(tactic| vblind_call) => `(tactic| with_reducible exact VBlind.indexTransform _ _ _)

theorem joinAdvice (a b : TableComm) (ai bi : Nat) (ta : List Nat) : VBlind (FinalJoin.verifyWithAdvice E a b ai bi ta : Act (VSt F C B) TableComm) := by
  unfold FinalJoin.verifyWithAdvice
  dsimp only
  vblind
macro_rules | `(tactic| vblind_call) => `(tactic| with_reducible exact VBlind.joinAdvice _ _ _ _ _ _)

theorem transferAll : ∀ n : Nat, VBlind (FinalJoin.transferAll E n : Act (VSt F C B) (List Nat))
  | 0 => pure _
  | n + 1 => bind nextId fun _ => bind (transfer _ _) fun _ => bind (transferAll n) fun _ => pure _
macro_rules | `(tactic| vblind_call) => `(tactic| with_reducible exact VBlind.transferAll _ _)

theorem join (a b : TableComm) (ai bi : Nat) : VBlind (FinalJoin.verify E a b ai bi : Act (VSt F C B) TableComm) :=
  bind (transferAll E _) fun _ => joinAdvice E _ _ _ _ _
macro_rules | `(tactic| vblind_call) => `(tactic| with_reducible exact VBlind.join _ _ _ _ _)

theorem aggs (inp : TableComm) (pre grp : BagComm) (mult : Nat) : ∀ (l : List (Nat × AggType × Nat)) (cols : List Nat),
    VBlind (GroupBy.verifyAggs E inp pre grp mult l cols : Act (VSt F C B) (List Nat))
  | [], _ => pure _
  | (_, .count, _) :: r, cols => by unfold GroupBy.verifyAggs; exact aggs inp pre grp mult r _
  | (_, .sum, _) :: r, cols => by
    unfold GroupBy.verifyAggs
    exact bind (lift _) fun _ => bind (multitool E _ _ _ _) fun _ => aggs inp pre grp mult r _
  | (_, .avg, _) :: _, _ => lift _
  | (_, .min, _) :: _, _ => lift _
  | (_, .max, _) :: _, _ => lift _
macro_rules | `(tactic| vblind_call) => `(tactic| with_reducible exact VBlind.aggs _ _ _ _ _ _ _)

theorem groupBy (inp : TableComm) (i : GroupInstr Nat) (r : BagComm) : VBlind (GroupBy.verifyWithAdvice E inp i r : Act (VSt F C B) TableComm) := by
  unfold GroupBy.verifyWithAdvice
  refine bind (lift _) fun gs => ?_
  obtain ⟨g, sp⟩ := gs
  dsimp only
  vblind
macro_rules | `(tactic| vblind_call) => `(tactic| with_reducible exact VBlind.groupBy _ _ _ _)

theorem check : ∀ c : Check TPoly, VBlind (c.verify E : Act (VSt F C B) Unit)
  | .multiset _ _ => multitool E _ _ _ _
  | .bagEq _ _ => bagEq E _ _
  | .bagSum _ _ _ => bagSum E _ _ _
  | .inclusion _ _ => inclusion E _ _
  | .inclusionAdvice _ _ _ => inclusionAdvice E _ _ _
  | .noZeros _ => noZeros E _
  | .selector _ => selector _
  | .permutation _ _ _ => permutation E _ _ _
  | .sort _ _ => sort E _ _
  | .support _ _ _ => supp E _ _ _
  | .supportAdvice _ _ _ _ => suppAdvice E _ _ _ _
  | .disjoint _ _ _ => disjoint E _ _ _
  | .setDisjoint _ _ _ => setDisjoint E _ _ _
  | .union _ _ _ _ => setUnion E _ _ _ _
  | .diff _ _ _ _ _ _ => setDiff E _ _ _ _ _ _
  | .intersect _ _ _ _ _ _ => setIntersect E _ _ _ _ _ _
  | .joinReduction _ _ _ _ _ => joinReduction E _ _ _ _ _
  | .indexTransform _ _ => indexTransform E _ _
  | .joinAdvice _ _ _ _ _ => bind (joinAdvice E _ _ _ _ _) fun _ => pure _
  | .groupBy _ _ _ _ _ _ => bind (groupBy E _ _ _) fun _ => pure _


/-! ### Calls and programs -/

theorem forget {m : Act (VSt F C B) α} (h : VBlind m) : VBlind (Spec.forget m) := bind h fun _ => pure _

theorem handleOp : ∀ o : VHandleOp F C, VBlind (o.run E : Act (VSt F C B) Nat)
  | .trackComm c => trackMatComm c
  | .transfer id => transfer _ id
  | .closure _ => virtual _
  | .add i j => add i j
  | .sub i j => sub i j
  | .mul i j => mul i j
  | .addScalar i c => addScalar i c
  | .mulScalar i c => mulScalar i c
  | .incFront i k => incFront i k
  | .incBack i k => incBack i k

theorem call : ∀ c : VerifierCall F C, VBlind (c.run E : Act (VSt F C B) Unit)
  | .op o => (handleOp E o).forget
  | .challenge l => (challenge _ l).forget
  | .append l d => append l d
  | .claimedSum i => (claimedSum i).forget
  | .sumClaim i v => sumClaim i v
  | .zeroClaim i => zeroClaim i
  | .check c => check E c
  | .join a b ai bi => (join E a b ai bi).forget
  | .cross a b => (crossProduct a b).forget

theorem outcomes : ∀ (cs : List (VerifierCall F C)) (s s' : VSt F C B), ReadAlike s s' →
    voutcomes E cs s = voutcomes E cs s' ∧ ReadAlike (vcallsOn E cs s) (vcallsOn E cs s')
  | [], _, _, h => ⟨rfl, h⟩
  | c :: cs, s, s', h => by
    obtain ⟨h1, h2⟩ := call E c s s' h
    obtain ⟨h3, h4⟩ := outcomes cs _ _ h2
    exact ⟨by unfold voutcomes; rw [h1, h3], h4⟩

theorem program : ∀ (prog : List (Step F)) (hs : List TPoly), VBlind (Step.verifyAll E prog hs : Act (VSt F C B) (List TPoly))
  | [], _ => pure _
  | .commit _ :: r, _ => bind nextId fun _ => bind (transfer _ _) fun _ => program r _
  | .add _ _ :: r, _ => bind (add _ _) fun _ => program r _
  | .sub _ _ :: r, _ => bind (sub _ _) fun _ => program r _
  | .mul _ _ :: r, _ => bind (mul _ _) fun _ => program r _
  | .addScalar _ _ :: r, _ => bind (addScalar _ _) fun _ => program r _
  | .mulScalar _ _ :: r, _ => bind (mulScalar _ _) fun _ => program r _
  | .check _ :: r, _ => bind (check E _) fun _ => program r _
  | .join _ _ _ _ :: r, _ => bind (join E _ _ _ _) fun _ => program r _

/-! ### Verifying the claims -/

theorem foldZeroClaims (H : Oracle F C) : ∀ (cs : List Nat) (agg : Nat), VBlind (VSt.foldZeroClaims H cs agg : Act (VSt F C B) Nat)
  | [], _ => pure _
  | c :: cs, agg => by
    unfold VSt.foldZeroClaims
    exact bind (challenge H _).expect fun _ => bind (mulScalar _ _) fun _ => bind (add _ _) fun _ => foldZeroClaims H cs _

theorem foldSumClaims (H : Oracle F C) : ∀ (cs : List (Nat × F)) (agg : Nat) (s : F), VBlind (VSt.foldSumClaims H cs agg s : Act (VSt F C B) (Nat × F))
  | [], _, _ => pure _
  | c :: cs, agg, s => by
    unfold VSt.foldSumClaims
    exact bind (challenge H _).expect fun _ => bind (mulScalar _ _) fun _ => bind (add _ _) fun _ => foldSumClaims H cs _ _

theorem convertZero (H : Oracle F C) (nv : Nat) : VBlind (VSt.convertZero H nv : Act (VSt F C B) Unit) :=
  bind (virtual _) fun _ => bind (reads fun _ _ h => by rw [h.zeros]) fun _ => bind (foldZeroClaims H _ _) fun _ =>
    bind (challengesU H _ nv) fun _ => bind (virtual _) fun _ => bind (mul _ _) fun _ => sumClaim _ _

theorem aggregate (H : Oracle F C) : VBlind (VSt.aggregate H : Act (VSt F C B) (Nat × F)) :=
  bind (reads fun _ _ h => by rw [h.proof.size]) fun _ => bind (convertZero H _) fun _ => bind (virtual _) fun _ =>
    bind (reads fun _ _ h => by rw [h.sums]) fun _ => foldSumClaims H _ _ _

theorem _root_.Zksql.verifyLoop_take (H : Oracle F C) {pf pf' : IOPProof F} {m : Nat} (h : pf.proofs.take m = pf'.proofs.take m) :
    ∀ (n i : Nat) (st : VerifierState F) (tr : Transcript F C), i + n ≤ m → verifyLoop H pf n i st tr = verifyLoop H pf' n i st tr
  | 0, _, _, _, _ => rfl
  | n + 1, i, st, tr, hi => by
    have e : pf.proofs[i]? = pf'.proofs[i]? := by
      have := congrArg (fun l => l[i]?) h
      simpa [List.getElem?_take, show i < m by omega] using this
    have e' : idx pf.proofs i = idx pf'.proofs i := by
      unfold idx
      rw [e]
    unfold verifyLoop
    rw [e']
    rcases idx pf'.proofs i with _ | msg
    · rfl
    · simp only [ok_bind]
      rcases verifyRound H st msg (tr.append "prover msg" (.elems msg)) with _ | ⟨_, st', tr'⟩
      · rfl
      · simp only [ok_bind]
        exact verifyLoop_take H h n (i + 1) st' tr' (by omega)

theorem _root_.Zksql.verifyTrail_take (H : Oracle F C) {pf pf' : IOPProof F} {m : Nat} (h : pf.proofs.take m = pf'.proofs.take m) :
    ∀ (n i : Nat) (st : VerifierState F) (tr : Transcript F C), i + n ≤ m → verifyTrail H pf n i st tr = verifyTrail H pf' n i st tr
  | 0, _, _, _, _ => rfl
  | n + 1, i, st, tr, hi => by
    have e : pf.proofs[i]? = pf'.proofs[i]? := by
      have := congrArg (fun l => l[i]?) h
      simpa [List.getElem?_take, show i < m by omega] using this
    have e' : idx pf.proofs i = idx pf'.proofs i := by
      unfold idx
      rw [e]
    unfold verifyTrail
    rw [e']
    rcases idx pf'.proofs i with _ | msg
    · rfl
    · dsimp only
      rcases verifyRound H st msg (tr.append "prover msg" (.elems msg)) with _ | ⟨_, st', tr'⟩
      · rfl
      · exact verifyTrail_take H h n (i + 1) st' tr' (by omega)

theorem checkSumcheck (H : Oracle F C) (v : F) : VBlind (VSt.checkSumcheck H v : Act (VSt F C B) (SubClaim F)) := by
  intro t t' h
  unfold VSt.checkSumcheck
  have e : sumcheckVerify H v t.own.proof.scProof t.own.proof.scMaxDegree t.own.proof.scNumVars t.own.transcript =
      sumcheckVerify H v t'.own.proof.scProof t'.own.proof.scMaxDegree t'.own.proof.scNumVars t'.own.transcript := by
    unfold sumcheckVerify
    rw [← h.transcript, ← h.proof.degree, ← h.proof.size]
    dsimp only
    rw [verifyLoop_take H h.proof.rounds _ _ _ _ (by omega)]
  have e' : sumcheckVerifyTrail H t.own.proof.scProof t.own.proof.scMaxDegree t.own.proof.scNumVars t.own.transcript =
      sumcheckVerifyTrail H t'.own.proof.scProof t'.own.proof.scMaxDegree t'.own.proof.scNumVars t'.own.transcript := by
    unfold sumcheckVerifyTrail
    rw [← h.transcript, ← h.proof.degree, ← h.proof.size]
    exact verifyTrail_take H h.proof.rounds _ _ _ _ (by omega)
  rw [← e]
  rcases sumcheckVerify H v t.own.proof.scProof t.own.proof.scMaxDegree t.own.proof.scNumVars t.own.transcript with (_ | _) | ⟨sub, tr⟩
  · exact ⟨rfl, by rw [e']; exact tr_same h _⟩
  · exact ⟨rfl, by rw [e']; exact tr_same h _⟩
  · exact ⟨rfl, tr_same h tr⟩

theorem checkBatch (pcs : Pcs F C B) (comms : List C) (points : List (List F)) (bp : B) : VBlind (VSt.checkBatch pcs comms points bp) := by
  intro t t' h
  unfold VSt.checkBatch
  rw [← h.transcript]
  rcases pcs.batchVerify comms points bp t.own.transcript with _ | ⟨b, tr⟩
  · exact ⟨rfl, tr_same h _⟩
  · exact ⟨rfl, tr_same h tr⟩

theorem verifyClaims (pcs : Pcs F C B) (H : Oracle F C) : VBlind (VSt.verifyClaims pcs H) :=
  bind (aggregate H) fun _ => bind (checkSumcheck H _) fun _ => bind (reads fun _ _ h => by rw [h.proof.comms]) fun _ =>
    bind (reads fun _ _ h => by rw [h.comms]) fun _ => bind (reads fun t t' h => by
      have := h.proof.opening
      unfold idx
      rw [List.head?_eq_getElem?, List.head?_eq_getElem?] at this
      rw [this]) fun _ => bind (checkBatch pcs _ _ _) fun _ => pure _

end VBlind

theorem loadProof_alike {p p' : CompiledProof F C B} (h : SameRead p p') (s : VSt F C B) : ReadAlike (loadProof p s) (loadProof p' s) :=
  ⟨rfl, rfl, rfl, rfl, rfl, rfl, h⟩

/-! ### What an accepted proof has -/

/-- The call keeps the proof and the commitments taken. -/
def KeepsTaken {α : Type} (m : Act (VSt F C B) α) : Prop := ∀ s, (m s).2.own.proof = s.own.proof ∧ (m s).2.own.matComms = s.own.matComms

namespace KeepsTaken
variable {α β : Type}

theorem bind {m : Act (VSt F C B) α} {f : α → Act (VSt F C B) β} (h : KeepsTaken m) (hf : ∀ a, KeepsTaken (f a)) : KeepsTaken (m >>= f) := by
  intro s
  have h1 := h s
  rcases e : m s with ⟨e | a, s1⟩
  · rw [Act.bind_error e]
    rw [e] at h1
    exact h1
  · rw [Act.bind_ok e]
    rw [e] at h1
    exact ⟨(hf a s1).1.trans h1.1, (hf a s1).2.trans h1.2⟩
theorem pure (a : α) : KeepsTaken (Pure.pure a : Act (VSt F C B) α) := fun _ => ⟨rfl, rfl⟩
theorem reads (f : VSt F C B → Res α) : KeepsTaken (Act.reads f) := fun _ => ⟨rfl, rfl⟩
theorem virtual (c : VComm F) : KeepsTaken (VSt.trackVirtual c : Act (VSt F C B) Nat) := fun _ => ⟨rfl, rfl⟩
theorem sumClaim (i : Nat) (v : F) : KeepsTaken (VSt.addSumClaim i v : Act (VSt F C B) Unit) := fun _ => ⟨rfl, rfl⟩
theorem challengeU (H : Oracle F C) (l : String) : KeepsTaken (VSt.challengeU H l : Act (VSt F C B) F) := by
  intro s
  unfold VSt.challengeU Act.expect VSt.challenge
  rcases s.own.transcript.challenge H l with e | ⟨c, tr⟩ <;> exact ⟨rfl, rfl⟩
theorem challengesU (H : Oracle F C) (l : String) (n : Nat) : KeepsTaken (VSt.challengesU H l n : Act (VSt F C B) (List F)) := by
  intro s
  unfold VSt.challengesU
  rcases s.own.transcript.challenges H l n with e | ⟨c, tr⟩ <;> exact ⟨rfl, rfl⟩
theorem foldZeroClaims (H : Oracle F C) : ∀ (cs : List Nat) (agg : Nat), KeepsTaken (VSt.foldZeroClaims H cs agg : Act (VSt F C B) Nat)
  | [], _ => pure _
  | c :: cs, agg => by
    unfold VSt.foldZeroClaims
    exact bind (challengeU H _) fun _ => bind (virtual _) fun _ => bind (virtual _) fun _ => foldZeroClaims H cs _
theorem foldSumClaims (H : Oracle F C) : ∀ (cs : List (Nat × F)) (agg : Nat) (s : F), KeepsTaken (VSt.foldSumClaims H cs agg s : Act (VSt F C B) (Nat × F))
  | [], _, _ => pure _
  | c :: cs, agg, s => by
    unfold VSt.foldSumClaims
    exact bind (challengeU H _) fun _ => bind (virtual _) fun _ => bind (virtual _) fun _ => foldSumClaims H cs _ _
theorem aggregate (H : Oracle F C) : KeepsTaken (VSt.aggregate H : Act (VSt F C B) (Nat × F)) :=
  bind (reads _) fun _ => bind (bind (virtual _) fun _ => bind (reads _) fun _ => bind (foldZeroClaims H _ _) fun _ =>
    bind (challengesU H _ _) fun _ => bind (virtual _) fun _ => bind (virtual _) fun _ => sumClaim _ _) fun _ => bind (virtual _) fun _ =>
    bind (reads _) fun _ => foldSumClaims H _ _ _

end KeepsTaken

/-- What an accepted proof has. -/
theorem verifyClaims_complete (pcs : Pcs F C B) (H : Oracle F C) {s : VSt F C B} (h : (VSt.verifyClaims pcs H s).1 = .ok ()) :
    0 < s.own.proof.scNumVars ∧ s.own.proof.scNumVars ≤ s.own.proof.scProof.proofs.length ∧
    (∀ m ∈ s.own.proof.scProof.proofs.take s.own.proof.scNumVars, m.length = s.own.proof.scMaxDegree + 1) ∧ s.own.proof.pcsProof ≠ [] ∧
    ∀ e ∈ s.own.proof.comms, ∃ c, s.own.matComms.lookup e.1 = some c := by
  rcases ha : VSt.aggregate H s with ⟨e | ⟨agg, sm⟩, s1⟩
  · rw [VSt.verifyClaims, Act.bind_error ha] at h
    cases h
  · obtain ⟨k1, k2⟩ := KeepsTaken.aggregate H s
    rw [ha] at k1 k2
    obtain ⟨sub, tr1, comms, bp, b, tr2, e1, e2, e3, _⟩ := (verifyClaims_iff pcs H ha).1 ⟨(VSt.verifyClaims pcs H s).2, Prod.ext h rfl⟩
    rw [k1] at e1 e2 e3
    rw [k2] at e2
    obtain ⟨f1, f2, f3⟩ := sumcheckVerify_shape H _ _ _ _ _ _ _ e1
    refine ⟨f1, f2, f3, fun h0 => (by rw [h0] at e3; cases e3), fun e he => ?_⟩
    obtain ⟨c, hc⟩ := mapM_ok_all _ _ _ e2 e.1 ((PTracker.mem_sortedIds _ _).2 (List.mem_map_of_mem he))
    exact ⟨c, by
      rcases hl : s.own.matComms.lookup e.1 with _ | c'
      · rw [hl] at hc; cases hc
      · rw [hl] at hc; cases hc; rfl⟩

theorem VGoes.program : ∀ (prog : List (Step F)) (hs : List TPoly), VGoes (Step.verifyAll E prog hs : Act (VSt F C B) (List TPoly))
  | [], _ => pure _
  | .commit _ :: r, _ => bind nextId fun _ => bind (transfer _ _) fun _ => program r _
  | .add _ _ :: r, _ => bind (add _ _) fun _ => program r _
  | .sub _ _ :: r, _ => bind (sub _ _) fun _ => program r _
  | .mul _ _ :: r, _ => bind (mul _ _) fun _ => program r _
  | .addScalar _ _ :: r, _ => bind (addScalar _ _) fun _ => program r _
  | .mulScalar _ _ :: r, _ => bind (mulScalar _ _) fun _ => program r _
  | .check _ :: r, _ => bind (check E _) fun _ => program r _
  | .join _ _ _ _ :: r, _ => bind (join E _ _ _ _) fun _ => program r _

/-- What a proof has that is accepted for a program. -/
theorem checkProof_complete (pcs : Pcs F C B) {prog : List (Step F)} {p : CompiledProof F C B} {hs : List TPoly}
    (h : (checkProof E pcs prog p VSt.new).1 = .ok hs) :
    0 < p.scNumVars ∧ p.scNumVars ≤ p.scProof.proofs.length ∧ (∀ m ∈ p.scProof.proofs.take p.scNumVars, m.length = p.scMaxDegree + 1) ∧ p.pcsProof ≠ [] := by
  have h' : ((Step.verifyAll E prog [] >>= fun hs => VSt.verifyClaims pcs E.H >>= fun _ => (pure hs : Act (VSt F C B) (List TPoly))) (loadProof p VSt.new)).1 = .ok hs := h
  have g := VGoes.program E prog [] (loadProof p VSt.new) ⟨fun _ _ h => (by cases h), fun _ _ h => (by cases h)⟩
  rcases e : Step.verifyAll E prog [] (loadProof p VSt.new) with ⟨e | a, s1⟩
  · rw [Act.bind_error e] at h'
    cases h'
  · rw [Act.bind_ok e] at h'
    rw [e] at g
    have gp : s1.own.proof = p := g.proof
    rcases e2 : VSt.verifyClaims pcs E.H s1 with ⟨e | u, s2⟩
    · rw [Act.bind_error e2] at h'
      cases h'
    · obtain ⟨f1, f2, f3, f4, _⟩ := verifyClaims_complete pcs E.H (s := s1) (by rw [e2])
      rw [gp] at f1 f2 f3 f4
      exact ⟨f1, f2, f3, f4⟩

end Zksql
