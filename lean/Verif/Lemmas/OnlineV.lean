import Verif.Lemmas.OwnChance
/-!
The verifier's side of a program depends on the oracle only through the challenges drawn.
-/
set_option linter.unusedSectionVars false
namespace Zksql
open Spec
variable {F C B : Type} [Field F] [DecidableEq F]

/-- For the verifier. -/
abbrev VLoc {α : Type} (m : Oracle F C → Act (VSt F C B) α) : Prop := LocT (fun s : VSt F C B => s.own.transcript) m

namespace VLoc
variable {α β : Type}

theorem bind {m : Oracle F C → Act (VSt F C B) α} {f : Oracle F C → α → Act (VSt F C B) β} (h : VLoc m) (hf : ∀ a, VLoc fun H => f H a) : VLoc fun H => m H >>= f H := LocT.bind h hf
theorem pure (a : α) : VLoc (F := F) (C := C) (B := B) fun _ => (Pure.pure a : Act (VSt F C B) α) := LocT.pure _
theorem lift (r : Res α) : VLoc (F := F) (C := C) (B := B) fun _ => (Act.lift r : Act (VSt F C B) α) := LocT.lift _
theorem ite {p : Prop} [Decidable p] {m m' : Oracle F C → Act (VSt F C B) α} (h1 : VLoc m) (h2 : VLoc m') : VLoc fun H => if p then m H else m' H := LocT.ite h1 h2
theorem nextId : VLoc (F := F) (C := C) (B := B) fun _ => VSt.getNextId := .same fun _ => rfl
theorem genId : VLoc (F := F) (C := C) (B := B) fun _ => VSt.genId := .same fun _ => rfl
theorem virtual (c : VComm F) : VLoc (F := F) (C := C) (B := B) fun _ => VSt.trackVirtual c := .same fun _ => rfl
theorem trackMat (c : C) : VLoc (F := F) (C := C) (B := B) fun _ => VSt.trackMatComm c := .on fun _ => ⟨⟨_, rfl⟩, rfl⟩
theorem add (i j : Nat) : VLoc (F := F) (C := C) (B := B) fun _ => VSt.addComms i j := virtual _
theorem sub (i j : Nat) : VLoc (F := F) (C := C) (B := B) fun _ => VSt.subComms i j := virtual _
theorem mul (i j : Nat) : VLoc (F := F) (C := C) (B := B) fun _ => VSt.mulComms i j := virtual _
theorem mulScalar (i : Nat) (c : F) : VLoc (F := F) (C := C) (B := B) fun _ => VSt.mulScalar i c := virtual _
theorem incFront (i k : Nat) : VLoc (F := F) (C := C) (B := B) fun _ => VSt.incFront i k := virtual _
theorem incBack (i k : Nat) : VLoc (F := F) (C := C) (B := B) fun _ => VSt.incBack i k := virtual _
theorem addScalar (i : Nat) (c : F) : VLoc (F := F) (C := C) (B := B) fun _ => VSt.addScalar i c := bind genId fun _ => virtual _
theorem transfer (d : Bool) (i : Nat) : VLoc (F := F) (C := C) (B := B) fun _ => VSt.transferComm d i :=
  bind (LocT.reads _) fun _ => bind (LocT.expect (trackMat _)) fun _ => bind (LocT.assert _) fun _ => pure _
theorem challenge (l : String) : VLoc (F := F) (C := C) (B := B) fun H => VSt.challenge H l :=
  .chal (l := l) (fun s x => { s with own := { s.own with transcript := x } }) (fun _ _ => rfl) fun H s => by
    unfold VSt.challenge
    rcases s.own.transcript.challenge H l with e | ⟨c, x⟩ <;> rfl
theorem sumClaim (i : Nat) (v : F) : VLoc (F := F) (C := C) (B := B) fun _ => VSt.addSumClaim i v := .same fun _ => rfl
theorem zeroClaim (i : Nat) : VLoc (F := F) (C := C) (B := B) fun _ => VSt.addZeroClaim i := .same fun _ => rfl
theorem claimedSum (i : Nat) : VLoc (F := F) (C := C) (B := B) fun _ => VSt.claimedSum i := LocT.reads _

variable (E : Env F C)

syntax "vlocs_call" : tactic
macro_rules | `(tactic| vlocs_call) => `(tactic| fail "no rule")

/-- All steps of a call. -/
macro "vlocs" : tactic => `(tactic| (
  try simp only [withH_commit, withH_debug, withH_H]
  repeat (first
  | with_reducible exact pure _ | with_reducible exact lift _ | with_reducible exact nextId | with_reducible exact claimedSum _
  | with_reducible exact zeroClaim _ | with_reducible exact sumClaim _ _ | with_reducible exact challenge _ | with_reducible exact virtual _
  | with_reducible exact add _ _ | with_reducible exact sub _ _ | with_reducible exact mul _ _ | with_reducible exact mulScalar _ _
  | with_reducible exact addScalar _ _ | with_reducible exact transfer _ _ | with_reducible exact incFront _ _ | with_reducible exact incBack _ _
  | vlocs_call
  | (with_reducible refine bind ?_ fun _ => ?_)
  | (with_reducible refine ite ?_ ?_))))

theorem verifySub (b : BagComm) (m : Nat) (γ : F) : VLoc (F := F) (C := C) (B := B) fun H => Multitool.verifySub (E.withH H) b m γ := by
  unfold Multitool.verifySub
  vlocs
macro_rules | `(tactic| vlocs_call) => `(tactic| with_reducible exact VLoc.verifySub _ _ _ _)

theorem verifySubs (γ : F) (t : Nat) : ∀ (l : List (BagComm × Nat)) (acc : F), VLoc (F := F) (C := C) (B := B) fun H => Multitool.verifySubs (E.withH H) γ t l acc
  | [], _ => pure _
  | (b, m) :: r, acc => by
    unfold Multitool.verifySubs
    vlocs
    exact verifySubs γ t r _
macro_rules | `(tactic| vlocs_call) => `(tactic| with_reducible exact VLoc.verifySubs _ _ _ _ _)

theorem multitool (fxs gxs : List BagComm) (mf mg : List Nat) : VLoc (F := F) (C := C) (B := B) fun H => Multitool.verify (E.withH H) fxs gxs mf mg := by
  unfold Multitool.verify
  vlocs
macro_rules | `(tactic| vlocs_call) => `(tactic| with_reducible exact VLoc.multitool _ _ _ _ _)

theorem bagEq (f g : BagComm) : VLoc (F := F) (C := C) (B := B) fun H => BagEq.verify (E.withH H) f g := by
  unfold BagEq.verify
  vlocs
macro_rules | `(tactic| vlocs_call) => `(tactic| with_reducible exact VLoc.bagEq _ _ _)

theorem bagSum (f g h : BagComm) : VLoc (F := F) (C := C) (B := B) fun H => BagSum.verify (E.withH H) f g h := by
  unfold BagSum.verify
  vlocs
macro_rules | `(tactic| vlocs_call) => `(tactic| with_reducible exact VLoc.bagSum _ _ _ _)

theorem noZeros (b : BagComm) : VLoc (F := F) (C := C) (B := B) fun H => NoZeros.verify (E.withH H) b := by
  unfold NoZeros.verify
  vlocs
macro_rules | `(tactic| vlocs_call) => `(tactic| with_reducible exact VLoc.noZeros _ _)

theorem selector (i : Nat) : VLoc (F := F) (C := C) (B := B) fun _ => SelectorValid.verify i := by
  unfold SelectorValid.verify
  vlocs
macro_rules | `(tactic| vlocs_call) => `(tactic| with_reducible exact VLoc.selector _)

theorem inclusionAdvice (f g : BagComm) (m : Nat) : VLoc (F := F) (C := C) (B := B) fun H => Inclusion.verifyWithAdvice (E.withH H) f g m := by
  unfold Inclusion.verifyWithAdvice
  vlocs
macro_rules | `(tactic| vlocs_call) => `(tactic| with_reducible exact VLoc.inclusionAdvice _ _ _ _)

theorem inclusion (f g : BagComm) : VLoc (F := F) (C := C) (B := B) fun H => Inclusion.verify (E.withH H) f g := by
  unfold Inclusion.verify
  vlocs
macro_rules | `(tactic| vlocs_call) => `(tactic| with_reducible exact VLoc.inclusion _ _ _)

theorem permutation (f g : BagComm) (p : Nat) : VLoc (F := F) (C := C) (B := B) fun H => PrescPerm.verify (E.withH H) f g p := by
  unfold PrescPerm.verify
  vlocs
macro_rules | `(tactic| vlocs_call) => `(tactic| with_reducible exact VLoc.permutation _ _ _ _)

theorem sort (f r : BagComm) : VLoc (F := F) (C := C) (B := B) fun H => StrictSort.verify (E.withH H) f r := by
  unfold StrictSort.verify
  dsimp only
  vlocs
macro_rules | `(tactic| vlocs_call) => `(tactic| with_reducible exact VLoc.sort _ _ _)

theorem suppAdvice (b p : BagComm) (m : Nat) (r : BagComm) : VLoc (F := F) (C := C) (B := B) fun H => Supp.verifyWithAdvice (E.withH H) b p m r :=
  bind (inclusionAdvice E _ _ _) fun _ => bind (noZeros E _) fun _ => sort E _ _
macro_rules | `(tactic| vlocs_call) => `(tactic| with_reducible first | exact VLoc.suppAdvice _ _ _ _ _)

theorem supp (b p r : BagComm) : VLoc (F := F) (C := C) (B := B) fun H => Supp.verify (E.withH H) b p r := by
  unfold Supp.verify
  vlocs
macro_rules | `(tactic| vlocs_call) => `(tactic| with_reducible exact VLoc.supp _ _ _ _)

theorem disjoint (a b r : BagComm) : VLoc (F := F) (C := C) (B := B) fun H => Disjoint.verify (E.withH H) a b r := by
  unfold Disjoint.verify Disjoint.verifyWithAdvice
  dsimp only
  vlocs
macro_rules | `(tactic| vlocs_call) => `(tactic| with_reducible exact VLoc.disjoint _ _ _ _)

theorem setDisjoint (a b r : BagComm) : VLoc (F := F) (C := C) (B := B) fun H => SetDisjoint.verify (E.withH H) a b r := by
  unfold SetDisjoint.verify
  dsimp only
  vlocs
macro_rules | `(tactic| vlocs_call) => `(tactic| with_reducible exact VLoc.setDisjoint _ _ _ _)

theorem setUnion (a b u r : BagComm) : VLoc (F := F) (C := C) (B := B) fun H => SetUnion.verify (E.withH H) a b u r := by
  unfold SetUnion.verify
  dsimp only
  vlocs
macro_rules | `(tactic| vlocs_call) => `(tactic| with_reducible exact VLoc.setUnion _ _ _ _ _)

theorem setDiff (a b l m : BagComm) (bm : Nat) (r : BagComm) : VLoc (F := F) (C := C) (B := B) fun H => SetDiff.verify (E.withH H) a b l m bm r :=
  bind (setDisjoint E _ _ _) fun _ => bind (bagSum E _ _ _) fun _ => inclusionAdvice E _ _ _
macro_rules | `(tactic| vlocs_call) => `(tactic| with_reducible exact VLoc.setDiff _ _ _ _ _ _ _)

theorem setIntersect (a b l m r range : BagComm) : VLoc (F := F) (C := C) (B := B) fun H => SetIntersect.verify (E.withH H) a b l m r range :=
  bind (bagSum E _ _ _) fun _ => bind (bagSum E _ _ _) fun _ => setDisjoint E _ _ _
macro_rules | `(tactic| vlocs_call) => `(tactic| with_reducible exact VLoc.setIntersect _ _ _ _ _ _ _)

theorem joinReduction (a b : BagComm) (l r : Nat) (range : BagComm) : VLoc (F := F) (C := C) (B := B) fun H => JoinReduction.verify (E.withH H) a b l r range := by
  unfold JoinReduction.verify
  vlocs
macro_rules | `(tactic| vlocs_call) => `(tactic| with_reducible exact VLoc.joinReduction _ _ _ _ _ _)

theorem vIncFronts (k : Nat) : ∀ l : List Nat, VLoc (F := F) (C := C) (B := B) fun _ => CrossProduct.vIncFronts k l
  | [] => pure _
  | _ :: r => bind (incFront _ _) fun _ => bind (vIncFronts k r) fun _ => pure _
macro_rules | `(tactic| vlocs_call) => `(tactic| with_reducible exact VLoc.vIncFronts _ _)

theorem vIncBacks (k : Nat) : ∀ l : List Nat, VLoc (F := F) (C := C) (B := B) fun _ => CrossProduct.vIncBacks k l
  | [] => pure _
  | _ :: r => bind (incBack _ _) fun _ => bind (vIncBacks k r) fun _ => pure _
macro_rules | `(tactic| vlocs_call) => `(tactic| with_reducible exact VLoc.vIncBacks _ _)

theorem crossProduct (a b : TableComm) : VLoc (F := F) (C := C) (B := B) fun _ => CrossProduct.verifier a b := by
  unfold CrossProduct.verifier
  vlocs
macro_rules | `(tactic| vlocs_call) => `(tactic| with_reducible exact VLoc.crossProduct _ _)

theorem rands : ∀ n : Nat, VLoc (F := F) (C := C) (B := B) fun H => IndexTransform.verifierRands (E.withH H) n
  | 0 => pure _
  | n + 1 => bind (challenge _) fun _ => bind (rands n) fun _ => pure _
macro_rules | `(tactic| vlocs_call) => `(tactic| with_reducible exact VLoc.rands _ _)

theorem aggLoop : ∀ (acc : Nat) (cs : List Nat) (rs : List F), VLoc (F := F) (C := C) (B := B) fun _ => IndexTransform.verifierAggLoop acc cs rs
  | _, [], _ => pure _
  | _, _ :: _, [] => lift _
  | _, _ :: cs, _ :: rs => bind (mulScalar _ _) fun _ => bind (mul _ _) fun _ => aggLoop _ cs rs
macro_rules | `(tactic| vlocs_call) => `(tactic| with_reducible exact VLoc.aggLoop _ _ _)

theorem indexTransform (a b : TableComm) : VLoc (F := F) (C := C) (B := B) fun H => IndexTransform.verify (E.withH H) a b := by
  unfold IndexTransform.verify IndexTransform.verifierPowers IndexTransform.verifierAgg
  vlocs
macro_rules | `(tactic| vlocs_call) => `(tactic| with_reducible exact VLoc.indexTransform _ _ _)

theorem joinAdvice (a b : TableComm) (ai bi : Nat) (ta : List Nat) : VLoc (F := F) (C := C) (B := B) fun H => FinalJoin.verifyWithAdvice (E.withH H) a b ai bi ta := by
  unfold FinalJoin.verifyWithAdvice
  dsimp only
  vlocs
macro_rules | `(tactic| vlocs_call) => `(tactic| with_reducible exact VLoc.joinAdvice _ _ _ _ _ _)

theorem transferAll : ∀ n : Nat, VLoc (F := F) (C := C) (B := B) fun H => FinalJoin.transferAll (E.withH H) n
  | 0 => pure _
  | n + 1 => bind nextId fun _ => bind (transfer _ _) fun _ => bind (transferAll n) fun _ => pure _
macro_rules | `(tactic| vlocs_call) => `(tactic| with_reducible exact VLoc.transferAll _ _)

theorem join (a b : TableComm) (ai bi : Nat) : VLoc (F := F) (C := C) (B := B) fun H => FinalJoin.verify (E.withH H) a b ai bi :=
  bind (transferAll E _) fun _ => joinAdvice E _ _ _ _ _
macro_rules | `(tactic| vlocs_call) => `(tactic| with_reducible exact VLoc.join _ _ _ _ _)

theorem aggs (inp : TableComm) (pre grp : BagComm) (mult : Nat) : ∀ (l : List (Nat × AggType × Nat)) (cols : List Nat),
    VLoc (F := F) (C := C) (B := B) fun H => GroupBy.verifyAggs (E.withH H) inp pre grp mult l cols
  | [], _ => pure _
  | (_, .count, _) :: r, cols => by unfold GroupBy.verifyAggs; exact aggs inp pre grp mult r _
  | (_, .sum, _) :: r, cols => by
    unfold GroupBy.verifyAggs
    exact bind (lift _) fun _ => bind (multitool E _ _ _ _) fun _ => aggs inp pre grp mult r _
  | (_, .avg, _) :: _, _ => lift _
  | (_, .min, _) :: _, _ => lift _
  | (_, .max, _) :: _, _ => lift _
macro_rules | `(tactic| vlocs_call) => `(tactic| with_reducible exact VLoc.aggs _ _ _ _ _ _ _)

theorem groupBy (inp : TableComm) (i : GroupInstr Nat) (r : BagComm) : VLoc (F := F) (C := C) (B := B) fun H => GroupBy.verifyWithAdvice (E.withH H) inp i r := by
  unfold GroupBy.verifyWithAdvice
  refine bind (lift _) fun gs => ?_
  obtain ⟨g, sp⟩ := gs
  dsimp only
  vlocs
macro_rules | `(tactic| vlocs_call) => `(tactic| with_reducible exact VLoc.groupBy _ _ _ _)

theorem check : ∀ c : Check TPoly, VLoc (F := F) (C := C) (B := B) fun H => c.verify (E.withH H)
  | .multiset _ _ => multitool E _ _ _ _
  | .bagEq _ _ => bagEq E _ _
  | .bagSum _ _ _ => bagSum E _ _ _
  | .inclusion _ _ => inclusion E _ _
  | .inclusionAdvice _ _ _ => inclusionAdvice E _ _ _
  | .noZeros _ => noZeros E _
  | .selector _ => selector _
  | .permutation _ _ _ => permutation E _ _ _
  | .sort _ _ => sort E _ _
  | .support _ _ _ => supp E _ _ _
  | .supportAdvice _ _ _ _ => suppAdvice E _ _ _ _
  | .disjoint _ _ _ => disjoint E _ _ _
  | .setDisjoint _ _ _ => setDisjoint E _ _ _
  | .union _ _ _ _ => setUnion E _ _ _ _
  | .diff _ _ _ _ _ _ => setDiff E _ _ _ _ _ _
  | .intersect _ _ _ _ _ _ => setIntersect E _ _ _ _ _ _
  | .joinReduction _ _ _ _ _ => joinReduction E _ _ _ _ _
  | .indexTransform _ _ => indexTransform E _ _
  | .joinAdvice _ _ _ _ _ => bind (joinAdvice E _ _ _ _ _) fun _ => pure _
  | .groupBy _ _ _ _ _ _ => bind (groupBy E _ _ _) fun _ => pure _

theorem verifyAll : ∀ (prog : List (Step F)) (hs : List TPoly), VLoc (F := F) (C := C) (B := B) fun H => Step.verifyAll (E.withH H) prog hs
  | [], _ => pure _
  | .commit _ :: r, _ => bind nextId fun _ => bind (transfer _ _) fun _ => verifyAll r _
  | .add _ _ :: r, _ => bind (add _ _) fun _ => verifyAll r _
  | .sub _ _ :: r, _ => bind (sub _ _) fun _ => verifyAll r _
  | .mul _ _ :: r, _ => bind (mul _ _) fun _ => verifyAll r _
  | .addScalar _ _ :: r, _ => bind (addScalar _ _) fun _ => verifyAll r _
  | .mulScalar _ _ :: r, _ => bind (mulScalar _ _) fun _ => verifyAll r _
  | .check c :: r, _ => bind (check E _) fun _ => verifyAll r _
  | .join _ _ _ _ :: r, _ => bind (join E _ _ _ _) fun _ => verifyAll r _

end VLoc

/-- A proof prepared in advance is one that answers the challenges as they come. -/
theorem VLoc.online {α : Type} {m : Oracle F C → Act (VSt F C B) α} (h : VLoc m) (s : VSt F C B) (hs : draws s.own.transcript.events = 0) (pf : CompiledProof F C B) {M : Nat} (Ok : (Fin M → F) → Prop) :
    Online Ok fun c => newChallenges s (m (dealt c) (withProof s pf)).2 := by
  intro c c' _ _ k e
  obtain ⟨h1, -⟩ := h.dealt (withProof s pf) c c' k e
  have e0 : draws (withProof s pf).own.transcript.events = 0 := hs
  rw [e0] at h1
  exact h1

end Zksql
