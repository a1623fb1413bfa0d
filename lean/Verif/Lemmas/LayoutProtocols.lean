import Verif.Lemmas.LayoutVerify
import Verif.Spec.LayoutProgram
/-!
Protocols and programs have the same results whatever the arrangement of memory.
-/
set_option linter.unusedSectionVars false
namespace Zksql
open Spec PTracker
variable {F C B : Type} [Field F]

/-! ### Handles -/

/-- The call has the same result whatever the arrangement of memory. -/
abbrev Steady {α : Type} (m : Act (PTracker F C) α) : Prop := Alike (· = ·) m m

namespace Steady
variable {α β : Type}

theorem bind {m : Act (PTracker F C) α} {f : α → Act (PTracker F C) β} (h : Steady m) (hf : ∀ a, Steady (f a)) : Steady (m >>= f) := Alike.bindE h hf
theorem pure (a : α) : Steady (Pure.pure a : Act (PTracker F C) α) := Alike.pure rfl
theorem lift (r : Res α) : Steady (Act.lift r : Act (PTracker F C) α) := Alike.lift r
theorem assert (p : Prop) [Decidable p] : Steady (Act.assert p : Act (PTracker F C) Unit) := Alike.assert p
theorem ite {p : Prop} [Decidable p] {m m' : Act (PTracker F C) α} (h1 : Steady m) (h2 : Steady m') : Steady (if p then m else m') := by
  split
  · exact h1
  · exact h2

end Steady

syntax "steady_call" : tactic
macro_rules | `(tactic| steady_call) => `(tactic| fail "no rule")

/-- All steps of a call. -/
macro "steady" : tactic => `(tactic| repeat (first
  | with_reducible exact Steady.pure _ | with_reducible exact Steady.lift _ | with_reducible exact Steady.assert _
  | steady_call
  | with_reducible refine Steady.bind ?_ fun _ => ?_
  | with_reducible refine Steady.ite ?_ ?_))

section
theorem trackMat_steady (p : Mle F) : Steady (C := C) (TPoly.trackMat p) := wrap_alike (trackMat_alike p) _
theorem trackAndCommit_steady (commit : Mle F → Res C) (p : Mle F) : Steady (TPoly.trackAndCommit commit p) := wrap_alike (trackAndCommit_alike commit p) _
theorem add_steady (a b : TPoly) : Steady (F := F) (C := C) (a.add b) :=
  Steady.bind (.assert _) fun _ => wrap_alike (addSubPolys_alike _ _ _) _
theorem sub_steady (a b : TPoly) : Steady (F := F) (C := C) (a.sub b) :=
  Steady.bind (.assert _) fun _ => wrap_alike (addSubPolys_alike _ _ _) _
theorem mul_steady (a b : TPoly) : Steady (F := F) (C := C) (a.mul b) :=
  Steady.bind (.assert _) fun _ => wrap_alike (mulPolys_alike _ _) _
theorem addScalar_steady (a : TPoly) (c : F) : Steady (C := C) (a.addScalar c) := wrap_alike (addScalar_alike _ _) _
theorem mulScalar_steady (a : TPoly) (c : F) : Steady (C := C) (a.mulScalar c) := wrap_alike (mulScalar_alike _ _) _
theorem incFront_steady (a : TPoly) (k : Nat) : Steady (F := F) (C := C) (a.incFront k) := wrap_alike (increaseNv_alike _ _ _) _
theorem incBack_steady (a : TPoly) (k : Nat) : Steady (F := F) (C := C) (a.incBack k) := wrap_alike (increaseNv_alike _ _ _) _
theorem evaluations_steady (a : TPoly) : Steady (F := F) (C := C) a.evaluations := evaluations_alike _
theorem sumClaim_steady (i : Nat) (v : F) : Steady (C := C) (PTracker.addSumClaim i v) := addSumClaim_alike i v
theorem zeroClaim_steady (i : Nat) : Steady (F := F) (C := C) (PTracker.addZeroClaim i) := addZeroClaim_alike i
theorem challenge_steady (H : Oracle F C) (l : String) : Steady (PTracker.challenge H l) := challenge_alike H l
end

macro_rules | `(tactic| steady_call) => `(tactic| with_reducible first
  | exact trackMat_steady _ | exact trackAndCommit_steady _ _ | exact add_steady _ _ | exact sub_steady _ _ | exact mul_steady _ _
  | exact addScalar_steady _ _ | exact mulScalar_steady _ _ | exact incFront_steady _ _ | exact incBack_steady _ _
  | exact evaluations_steady _ | exact sumClaim_steady _ _ | exact zeroClaim_steady _ | exact challenge_steady _ _)

theorem bagNew_steady (d : Bool) (a b : TPoly) : Steady (F := F) (C := C) (Bag.new d a b) := by
  unfold Bag.new
  steady
theorem tableNew_steady (d : Bool) (a : List TPoly) (b : TPoly) : Steady (F := F) (C := C) (Table.new d a b) := by
  unfold Table.new
  steady
macro_rules | `(tactic| steady_call) => `(tactic| with_reducible first | exact bagNew_steady _ _ _ | exact tableNew_steady _ _ _)

/-! ### Provers -/
variable (E : Env F C)

theorem proveSub_steady (b : Bag) (m : TPoly) (γ : F) : Steady (Multitool.proveSub E b m γ) := by
  unfold Multitool.proveSub
  steady
theorem proveSubs_steady (γ : F) : ∀ l : List (Bag × TPoly), Steady (Multitool.proveSubs E γ l)
  | [] => .pure _
  | (b, m) :: r => Steady.bind (proveSub_steady E b m γ) fun _ => proveSubs_steady γ r
macro_rules | `(tactic| steady_call) => `(tactic| with_reducible exact proveSubs_steady _ _ _)

theorem multitool_steady (fxs gxs : List Bag) (mf mg : List TPoly) : Steady (Multitool.prove E fxs gxs mf mg) := by
  unfold Multitool.prove
  steady
macro_rules | `(tactic| steady_call) => `(tactic| with_reducible exact multitool_steady _ _ _ _ _)

theorem bagEq_steady (f g : Bag) : Steady (BagEq.prove E f g) := by unfold BagEq.prove; steady
theorem bagSum_steady (f g h : Bag) : Steady (BagSum.prove E f g h) := by unfold BagSum.prove; steady
theorem noZeros_steady (b : Bag) : Steady (NoZeros.prove E b) := by unfold NoZeros.prove; steady
theorem selector_steady (s : TPoly) : Steady (F := F) (C := C) (SelectorValid.prove s) := by unfold SelectorValid.prove; steady
macro_rules | `(tactic| steady_call) => `(tactic| with_reducible first
  | exact bagEq_steady _ _ _ | exact bagSum_steady _ _ _ _ | exact noZeros_steady _ _ | exact selector_steady _)

variable [DecidableEq F]

theorem incAdvice_steady (a b : Bag) : Steady (F := F) (C := C) (Inclusion.advice a b) := by unfold Inclusion.advice; steady
theorem inclusionWith_steady (a b : Bag) (m : TPoly) : Steady (Inclusion.proveWithAdvice E a b m) := by unfold Inclusion.proveWithAdvice; steady
macro_rules | `(tactic| steady_call) => `(tactic| with_reducible first | exact incAdvice_steady _ _ | exact inclusionWith_steady _ _ _ _)
theorem inclusion_steady (a b : Bag) : Steady (Inclusion.prove E a b) := by unfold Inclusion.prove; steady
theorem permutation_steady (a b : Bag) (p : TPoly) : Steady (PrescPerm.prove E a b p) := by unfold PrescPerm.prove; steady
theorem debugDiff_steady (d : Bool) (a : TPoly) (l : List F) : Steady (C := C) (StrictSort.debugDiff d a l) := by unfold StrictSort.debugDiff; steady
macro_rules | `(tactic| steady_call) => `(tactic| with_reducible first
  | exact inclusion_steady _ _ _ | exact permutation_steady _ _ _ _ | exact debugDiff_steady _ _ _)
theorem sort_steady (a r : Bag) : Steady (StrictSort.prove E a r) := by unfold StrictSort.prove; steady
macro_rules | `(tactic| steady_call) => `(tactic| with_reducible exact sort_steady _ _ _)
theorem suppWith_steady (a b : Bag) (m : TPoly) (r : Bag) : Steady (Supp.proveWithAdvice E a b m r) := by unfold Supp.proveWithAdvice; steady
macro_rules | `(tactic| steady_call) => `(tactic| with_reducible exact suppWith_steady _ _ _ _ _)
theorem supp_steady (a b r : Bag) : Steady (Supp.prove E a b r) := by unfold Supp.prove; steady
theorem suppAdvice_steady (a : Bag) : Steady (Supp.advice E a) := by unfold Supp.advice; dsimp only; steady
theorem bagCount_steady (a : Bag) : Steady (F := F) (C := C) (Disjoint.bagCount a) := by unfold Disjoint.bagCount; steady
macro_rules | `(tactic| steady_call) => `(tactic| with_reducible first | exact supp_steady _ _ _ _ | exact bagCount_steady _)
theorem disjointAdvice_steady (a b : Bag) : Steady (Disjoint.advice E a b) := by unfold Disjoint.advice; dsimp only; steady
theorem disjointWith_steady (a b c : Bag) (m n : TPoly) (r : Bag) : Steady (Disjoint.proveWithAdvice E a b c m n r) := by unfold Disjoint.proveWithAdvice; steady
macro_rules | `(tactic| steady_call) => `(tactic| with_reducible first | exact disjointAdvice_steady _ _ _ | exact disjointWith_steady _ _ _ _ _ _ _)
theorem disjoint_steady (a b r : Bag) : Steady (Disjoint.prove E a b r) := by unfold Disjoint.prove; steady
theorem setDisjoint_steady (a b r : Bag) : Steady (SetDisjoint.prove E a b r) := by unfold SetDisjoint.prove; dsimp only; steady
macro_rules | `(tactic| steady_call) => `(tactic| with_reducible first | exact disjoint_steady _ _ _ _ | exact setDisjoint_steady _ _ _ _)
theorem setDiff_steady (a b l m : Bag) (bm : TPoly) (r : Bag) : Steady (SetDiff.prove E a b l m bm r) := by unfold SetDiff.prove; steady
theorem setUnion_steady (a b u r : Bag) : Steady (SetUnion.prove E a b u r) := by unfold SetUnion.prove; dsimp only; steady
theorem setIntersect_steady (a b l m r x : Bag) : Steady (SetIntersect.prove E a b l m r x) := by unfold SetIntersect.prove; steady
theorem joinReduction_steady (a b : Bag) (l r : TPoly) (x : Bag) : Steady (JoinReduction.prove E a b l r x) := by unfold JoinReduction.prove; steady

theorem incFronts_steady (k : Nat) : ∀ l : List TPoly, Steady (F := F) (C := C) (CrossProduct.incFronts k l)
  | [] => .pure _
  | _ :: r => Steady.bind (incFront_steady _ _) fun _ => Steady.bind (incFronts_steady k r) fun _ => .pure _
theorem incBacks_steady (k : Nat) : ∀ l : List TPoly, Steady (F := F) (C := C) (CrossProduct.incBacks k l)
  | [] => .pure _
  | _ :: r => Steady.bind (incBack_steady _ _) fun _ => Steady.bind (incBacks_steady k r) fun _ => .pure _
macro_rules | `(tactic| steady_call) => `(tactic| with_reducible first | exact incFronts_steady _ _ | exact incBacks_steady _ _)
theorem crossProduct_steady (a b : Table) : Steady (CrossProduct.prover E a b) := by unfold CrossProduct.prover; steady
theorem frontAlias_steady (a : TPoly) (k : Nat) : Steady (F := F) (C := C) (CrossProduct.frontAlias a k) := by unfold CrossProduct.frontAlias; steady
theorem backAlias_steady (a : TPoly) (k : Nat) : Steady (F := F) (C := C) (CrossProduct.backAlias a k) := by unfold CrossProduct.backAlias; steady

theorem powers_steady (n : Nat) : Steady (IndexTransform.proverPowers E n) := by unfold IndexTransform.proverPowers; steady
theorem rands_steady : ∀ n : Nat, Steady (IndexTransform.proverRands E n)
  | 0 => .pure _
  | n + 1 => Steady.bind (challenge_steady _ _) fun _ => Steady.bind (rands_steady n) fun _ => .pure _
theorem aggLoop_steady : ∀ (acc : TPoly) (cs : List TPoly) (rs : List F), Steady (C := C) (IndexTransform.proverAggLoop acc cs rs)
  | _, [], _ => .pure _
  | _, _ :: _, [] => .lift _
  | _, _ :: cs, _ :: rs => Steady.bind (mulScalar_steady _ _) fun _ => Steady.bind (mul_steady _ _) fun _ => aggLoop_steady _ cs rs
macro_rules | `(tactic| steady_call) => `(tactic| with_reducible first | exact powers_steady _ _ | exact aggLoop_steady _ _ _)
theorem agg_steady (t : Table) (l : List F) : Steady (IndexTransform.proverAgg E t l) := by unfold IndexTransform.proverAgg; steady
macro_rules | `(tactic| steady_call) => `(tactic| with_reducible exact agg_steady _ _ _)
theorem indexTransform_steady (a b : Table) : Steady (IndexTransform.prove E a b) := by unfold IndexTransform.prove; steady

theorem transform_steady (a b : Table) (i j : Nat) : Steady (F := F) (C := C) (FinalJoin.transform a b i j) := by unfold FinalJoin.transform; steady
theorem applyTransform_steady (ks : List Nat) (o a : TPoly) : Steady (FinalJoin.applyTransform E ks o a) := by unfold FinalJoin.applyTransform; steady
theorem applyAll_steady (ks : List Nat) (a : TPoly) : ∀ l : List TPoly, Steady (FinalJoin.applyAll E ks a l)
  | [] => .pure _
  | _ :: r => Steady.bind (applyTransform_steady E _ _ _) fun _ => Steady.bind (applyAll_steady ks a r) fun _ => .pure _
theorem commitAll_steady : ∀ l : List (Mle F), Steady (FinalJoin.commitAll E l)
  | [] => .pure _
  | _ :: r => Steady.bind (trackAndCommit_steady _ _) fun _ => Steady.bind (commitAll_steady r) fun _ => .pure _
theorem debugKeys_steady (a : Table) (i : Nat) : Steady (FinalJoin.debugKeys E a i) := by unfold FinalJoin.debugKeys; steady
macro_rules | `(tactic| steady_call) => `(tactic| with_reducible first
  | exact indexTransform_steady _ _ _ | exact transform_steady _ _ _ _ | exact applyAll_steady _ _ _ _ | exact commitAll_steady _ _ | exact debugKeys_steady _ _ _)
theorem joinWith_steady (a b : Table) (i j : Nat) (l : List TPoly) : Steady (FinalJoin.proveWithAdvice E a b i j l) := by unfold FinalJoin.proveWithAdvice; steady
macro_rules | `(tactic| steady_call) => `(tactic| with_reducible exact joinWith_steady _ _ _ _ _ _)
theorem join_steady (a b : Table) (i j : Nat) : Steady (FinalJoin.prove E a b i j) := by unfold FinalJoin.prove; steady

theorem aggs_steady (inp : Table) (pre grp : Bag) (m : TPoly) : ∀ (l : List (Nat × AggType × TPoly)) (cols : List TPoly),
    Steady (GroupBy.proveAggs E inp pre grp m l cols)
  | [], _ => .pure _
  | (_, .count, _) :: r, cols => by unfold GroupBy.proveAggs; exact aggs_steady inp pre grp m r _
  | (_, .sum, _) :: r, cols => by
    unfold GroupBy.proveAggs
    exact Steady.bind (.lift _) fun _ => Steady.bind (multitool_steady E _ _ _ _) fun _ => aggs_steady inp pre grp m r _
  | (_, .avg, _) :: _, _ => .lift _
  | (_, .min, _) :: _, _ => .lift _
  | (_, .max, _) :: _, _ => .lift _
macro_rules | `(tactic| steady_call) => `(tactic| with_reducible exact aggs_steady _ _ _ _ _ _ _)
theorem groupBy_steady (inp : Table) (i : GroupInstr TPoly) (r : Bag) : Steady (GroupBy.proveWithAdvice E inp i r) := by
  unfold GroupBy.proveWithAdvice
  refine Steady.bind (.lift _) fun gs => ?_
  obtain ⟨g, sp⟩ := gs
  dsimp only
  steady

theorem commitBag_steady (q : Mle F × Mle F) : Steady (LmrSplit.commitBag E q) := by unfold LmrSplit.commitBag; steady
macro_rules | `(tactic| steady_call) => `(tactic| with_reducible exact commitBag_steady _ _)
theorem split_steady (a b : Bag) : Steady (LmrSplit.bag E a b) := by unfold LmrSplit.bag; dsimp only; steady
theorem setSplit_steady (a b : Bag) : Steady (LmrSplit.set E a b) := Steady.bind (split_steady E a b) fun _ => .pure _
theorem multSplit_steady (a b : Bag) : Steady (LmrSplit.multBag E a b) := by unfold LmrSplit.multBag; dsimp only; steady

theorem check_steady : ∀ c : Check TPoly, Steady (c.prove E)
  | .multiset _ _ => multitool_steady E _ _ _ _
  | .bagEq _ _ => bagEq_steady E _ _
  | .bagSum _ _ _ => bagSum_steady E _ _ _
  | .inclusion _ _ => inclusion_steady E _ _
  | .inclusionAdvice _ _ _ => inclusionWith_steady E _ _ _
  | .noZeros _ => noZeros_steady E _
  | .selector _ => selector_steady _
  | .permutation _ _ _ => permutation_steady E _ _ _
  | .sort _ _ => sort_steady E _ _
  | .support _ _ _ => supp_steady E _ _ _
  | .supportAdvice _ _ _ _ => suppWith_steady E _ _ _ _
  | .disjoint _ _ _ => disjoint_steady E _ _ _
  | .setDisjoint _ _ _ => setDisjoint_steady E _ _ _
  | .union _ _ _ _ => setUnion_steady E _ _ _ _
  | .diff _ _ _ _ _ _ => setDiff_steady E _ _ _ _ _ _
  | .intersect _ _ _ _ _ _ => setIntersect_steady E _ _ _ _ _ _
  | .joinReduction _ _ _ _ _ => joinReduction_steady E _ _ _ _ _
  | .indexTransform _ _ => indexTransform_steady E _ _
  | .joinAdvice _ _ _ _ _ => Steady.bind (joinWith_steady E _ _ _ _ _) fun _ => .pure _
  | .groupBy _ _ _ _ _ _ => Steady.bind (groupBy_steady E _ _ _) fun _ => .pure _

/-! ### Verifiers -/

/-- The verifier's call has the same result whatever the arrangement of memory. -/
abbrev VSteady {α : Type} (m : Act (VSt F C B) α) : Prop := VAlike m m

namespace VSteady
variable {α β : Type}

theorem bind {m : Act (VSt F C B) α} {f : α → Act (VSt F C B) β} (h : VSteady m) (hf : ∀ a, VSteady (f a)) : VSteady (m >>= f) := VAlike.bind h hf
theorem pure (a : α) : VSteady (Pure.pure a : Act (VSt F C B) α) := VAlike.pure a
theorem lift (r : Res α) : VSteady (Act.lift r : Act (VSt F C B) α) := fun _ _ h => ⟨rfl, h⟩
theorem nextId : VSteady (VSt.getNextId : Act (VSt F C B) Nat) := fun _ _ h => ⟨congrArg Except.ok h.counter, h⟩
theorem ite {p : Prop} [Decidable p] {m m' : Act (VSt F C B) α} (h1 : VSteady m) (h2 : VSteady m') : VSteady (if p then m else m') := by
  split
  · exact h1
  · exact h2

theorem virtual (c : VComm F) : VSteady (VSt.trackVirtual c : Act (VSt F C B) Nat) := trackVirtual_alike c
theorem add (i j : Nat) : VSteady (VSt.addComms i j : Act (VSt F C B) Nat) := trackVirtual_alike _
theorem sub (i j : Nat) : VSteady (VSt.subComms i j : Act (VSt F C B) Nat) := trackVirtual_alike _
theorem mul (i j : Nat) : VSteady (VSt.mulComms i j : Act (VSt F C B) Nat) := trackVirtual_alike _
theorem mulScalar (i : Nat) (c : F) : VSteady (VSt.mulScalar i c : Act (VSt F C B) Nat) := trackVirtual_alike _
theorem incFront (i k : Nat) : VSteady (VSt.incFront i k : Act (VSt F C B) Nat) := trackVirtual_alike _
theorem incBack (i k : Nat) : VSteady (VSt.incBack i k : Act (VSt F C B) Nat) := trackVirtual_alike _
theorem addScalar (i : Nat) (c : F) : VSteady (VSt.addScalar i c : Act (VSt F C B) Nat) := vaddScalar_alike i c
theorem transfer (d : Bool) (i : Nat) : VSteady (VSt.transferComm d i : Act (VSt F C B) Nat) := transferComm_alike d i
theorem challenge (H : Oracle F C) (l : String) : VSteady (VSt.challenge H l : Act (VSt F C B) F) := vchallenge_alike H l
theorem sumClaim (i : Nat) (v : F) : VSteady (VSt.addSumClaim i v : Act (VSt F C B) Unit) := vaddSumClaim_alike i v
theorem zeroClaim (i : Nat) : VSteady (VSt.addZeroClaim i : Act (VSt F C B) Unit) := vaddZeroClaim_alike i
theorem claimedSum (i : Nat) : VSteady (VSt.claimedSum i : Act (VSt F C B) F) := claimedSum_alike i

syntax "vsteady_call" : tactic
macro_rules | `(tactic| vsteady_call) => `(tactic| fail "no rule")

/-- All steps of a call. -/
macro "vsteady" : tactic => `(tactic| repeat (first
  | with_reducible exact pure _ | with_reducible exact lift _ | with_reducible exact nextId | with_reducible exact claimedSum _
  | with_reducible exact zeroClaim _ | with_reducible exact sumClaim _ _ | with_reducible exact challenge _ _ | with_reducible exact virtual _
  | with_reducible exact add _ _ | with_reducible exact sub _ _ | with_reducible exact mul _ _ | with_reducible exact mulScalar _ _
  | with_reducible exact addScalar _ _ | with_reducible exact transfer _ _ | with_reducible exact incFront _ _ | with_reducible exact incBack _ _
  | vsteady_call
  | (with_reducible refine bind ?_ fun _ => ?_)
  | (with_reducible refine ite ?_ ?_)))

theorem verifySub (b : BagComm) (m : Nat) (γ : F) : VSteady (Multitool.verifySub E b m γ : Act (VSt F C B) F) := by
  unfold Multitool.verifySub
  vsteady
macro_rules | `(tactic| vsteady_call) => `(tactic| with_reducible exact VSteady.verifySub _ _ _ _)

theorem verifySubs (γ : F) (t : Nat) : ∀ (l : List (BagComm × Nat)) (acc : F), VSteady (Multitool.verifySubs E γ t l acc : Act (VSt F C B) F)
  | [], _ => pure _
  | (b, m) :: r, acc => by
    unfold Multitool.verifySubs
    vsteady
    exact verifySubs γ t r _
macro_rules | `(tactic| vsteady_call) => `(tactic| with_reducible exact VSteady.verifySubs _ _ _ _ _)

theorem multitool (fxs gxs : List BagComm) (mf mg : List Nat) : VSteady (Multitool.verify E fxs gxs mf mg : Act (VSt F C B) Unit) := by
  unfold Multitool.verify
  vsteady
macro_rules | `(tactic| vsteady_call) => `(tactic| with_reducible exact VSteady.multitool _ _ _ _ _)

theorem bagEq (f g : BagComm) : VSteady (BagEq.verify E f g : Act (VSt F C B) Unit) := by
  unfold BagEq.verify
  vsteady
macro_rules | `(tactic| vsteady_call) => `(tactic| with_reducible exact VSteady.bagEq _ _ _)

theorem bagSum (f g h : BagComm) : VSteady (BagSum.verify E f g h : Act (VSt F C B) Unit) := by
  unfold BagSum.verify
  vsteady
macro_rules | `(tactic| vsteady_call) => `(tactic| with_reducible exact VSteady.bagSum _ _ _ _)

theorem noZeros (b : BagComm) : VSteady (NoZeros.verify E b : Act (VSt F C B) Unit) := by
  unfold NoZeros.verify
  vsteady
macro_rules | `(tactic| vsteady_call) => `(tactic| with_reducible exact VSteady.noZeros _ _)

theorem selector (i : Nat) : VSteady (SelectorValid.verify i : Act (VSt F C B) Unit) := by
  unfold SelectorValid.verify
  vsteady
macro_rules | `(tactic| vsteady_call) => `(tactic| with_reducible exact VSteady.selector _)

theorem inclusionAdvice (f g : BagComm) (m : Nat) : VSteady (Inclusion.verifyWithAdvice E f g m : Act (VSt F C B) Unit) := by
  unfold Inclusion.verifyWithAdvice
  vsteady
macro_rules | `(tactic| vsteady_call) => `(tactic| with_reducible exact VSteady.inclusionAdvice _ _ _ _)

theorem inclusion (f g : BagComm) : VSteady (Inclusion.verify E f g : Act (VSt F C B) Unit) := by
  unfold Inclusion.verify
  vsteady
macro_rules | `(tactic| vsteady_call) => `(tactic| with_reducible exact VSteady.inclusion _ _ _)

theorem permutation (f g : BagComm) (p : Nat) : VSteady (PrescPerm.verify E f g p : Act (VSt F C B) Unit) := by
  unfold PrescPerm.verify
  vsteady
macro_rules | `(tactic| vsteady_call) => `(tactic| with_reducible exact VSteady.permutation _ _ _ _)

theorem sort (f r : BagComm) : VSteady (StrictSort.verify E f r : Act (VSt F C B) Unit) := by
  unfold StrictSort.verify
  dsimp only
  vsteady
macro_rules | `(tactic| vsteady_call) => `(tactic| with_reducible exact VSteady.sort _ _ _)

theorem suppAdvice (b p : BagComm) (m : Nat) (r : BagComm) : VSteady (Supp.verifyWithAdvice E b p m r : Act (VSt F C B) Unit) :=
  bind (inclusionAdvice E _ _ _) fun _ => bind (noZeros E _) fun _ => sort E _ _
macro_rules | `(tactic| vsteady_call) => `(tactic| with_reducible exact VSteady.suppAdvice _ _ _ _ _)

theorem supp (b p r : BagComm) : VSteady (Supp.verify E b p r : Act (VSt F C B) Unit) := by
  unfold Supp.verify
  vsteady
macro_rules | `(tactic| vsteady_call) => `(tactic| with_reducible exact VSteady.supp _ _ _ _)

theorem disjoint (a b r : BagComm) : VSteady (Disjoint.verify E a b r : Act (VSt F C B) Unit) := by
  unfold Disjoint.verify Disjoint.verifyWithAdvice
  dsimp only
  vsteady
macro_rules | `(tactic| vsteady_call) => `(tactic| with_reducible exact VSteady.disjoint _ _ _ _)

theorem setDisjoint (a b r : BagComm) : VSteady (SetDisjoint.verify E a b r : Act (VSt F C B) Unit) := by
  unfold SetDisjoint.verify
  dsimp only
  vsteady
macro_rules | `(tactic| vsteady_call) => `(tactic| with_reducible exact VSteady.setDisjoint _ _ _ _)

theorem setUnion (a b u r : BagComm) : VSteady (SetUnion.verify E a b u r : Act (VSt F C B) Unit) := by
  unfold SetUnion.verify
  dsimp only
  vsteady
macro_rules | `(tactic| vsteady_call) => `(tactic| with_reducible exact VSteady.setUnion _ _ _ _ _)

theorem setDiff (a b l m : BagComm) (bm : Nat) (r : BagComm) : VSteady (SetDiff.verify E a b l m bm r : Act (VSt F C B) Unit) :=
  bind (setDisjoint E _ _ _) fun _ => bind (bagSum E _ _ _) fun _ => inclusionAdvice E _ _ _
macro_rules | `(tactic| vsteady_call) => `(tactic| with_reducible exact VSteady.setDiff _ _ _ _ _ _ _)

theorem setIntersect (a b l m r range : BagComm) : VSteady (SetIntersect.verify E a b l m r range : Act (VSt F C B) Unit) :=
  bind (bagSum E _ _ _) fun _ => bind (bagSum E _ _ _) fun _ => setDisjoint E _ _ _
macro_rules | `(tactic| vsteady_call) => `(tactic| with_reducible exact VSteady.setIntersect _ _ _ _ _ _ _)

theorem joinReduction (a b : BagComm) (l r : Nat) (range : BagComm) : VSteady (JoinReduction.verify E a b l r range : Act (VSt F C B) Unit) := by
  unfold JoinReduction.verify
  vsteady
macro_rules | `(tactic| vsteady_call) => `(tactic| with_reducible exact VSteady.joinReduction _ _ _ _ _ _)

theorem vIncFronts (k : Nat) : ∀ l : List Nat, VSteady (CrossProduct.vIncFronts k l : Act (VSt F C B) (List Nat))
  | [] => pure _
  | _ :: r => bind (incFront _ _) fun _ => bind (vIncFronts k r) fun _ => pure _
macro_rules | `(tactic| vsteady_call) => `(tactic| with_reducible exact VSteady.vIncFronts _ _)

theorem vIncBacks (k : Nat) : ∀ l : List Nat, VSteady (CrossProduct.vIncBacks k l : Act (VSt F C B) (List Nat))
  | [] => pure _
  | _ :: r => bind (incBack _ _) fun _ => bind (vIncBacks k r) fun _ => pure _
macro_rules | `(tactic| vsteady_call) => `(tactic| with_reducible exact VSteady.vIncBacks _ _)

theorem crossProduct (a b : TableComm) : VSteady (CrossProduct.verifier a b : Act (VSt F C B) TableComm) := by
  unfold CrossProduct.verifier
  vsteady
macro_rules | `(tactic| vsteady_call) => `(tactic| with_reducible exact VSteady.crossProduct _ _)

theorem rands : ∀ n : Nat, VSteady (IndexTransform.verifierRands E n : Act (VSt F C B) (List F))
  | 0 => pure _
  | n + 1 => bind (challenge _ _) fun _ => bind (rands n) fun _ => pure _
macro_rules | `(tactic| vsteady_call) => `(tactic| with_reducible exact VSteady.rands _ _)

theorem aggLoop : ∀ (acc : Nat) (cs : List Nat) (rs : List F), VSteady (IndexTransform.verifierAggLoop acc cs rs : Act (VSt F C B) Nat)
  | _, [], _ => pure _
  | _, _ :: _, [] => lift _
  | _, _ :: cs, _ :: rs => bind (mulScalar _ _) fun _ => bind (mul _ _) fun _ => aggLoop _ cs rs
macro_rules | `(tactic| vsteady_call) => `(tactic| with_reducible exact VSteady.aggLoop _ _ _)

theorem indexTransform (a b : TableComm) : VSteady (IndexTransform.verify E a b : Act (VSt F C B) Unit) := by
  unfold IndexTransform.verify IndexTransform.verifierPowers IndexTransform.verifierAgg
  vsteady
macro_rules | `(tactic| vsteady_call) => `(tactic| with_reducible exact VSteady.indexTransform _ _ _)

theorem joinAdvice (a b : TableComm) (ai bi : Nat) (ta : List Nat) : VSteady (FinalJoin.verifyWithAdvice E a b ai bi ta : Act (VSt F C B) TableComm) := by
  unfold FinalJoin.verifyWithAdvice
  dsimp only
  vsteady
macro_rules | `(tactic| vsteady_call) => `(tactic| with_reducible exact VSteady.joinAdvice _ _ _ _ _ _)

theorem transferAll : ∀ n : Nat, VSteady (FinalJoin.transferAll E n : Act (VSt F C B) (List Nat))
  | 0 => pure _
  | n + 1 => bind nextId fun _ => bind (transfer _ _) fun _ => bind (transferAll n) fun _ => pure _
macro_rules | `(tactic| vsteady_call) => `(tactic| with_reducible exact VSteady.transferAll _ _)

theorem join (a b : TableComm) (ai bi : Nat) : VSteady (FinalJoin.verify E a b ai bi : Act (VSt F C B) TableComm) :=
  bind (transferAll E _) fun _ => joinAdvice E _ _ _ _ _
macro_rules | `(tactic| vsteady_call) => `(tactic| with_reducible exact VSteady.join _ _ _ _ _)

theorem aggs (inp : TableComm) (pre grp : BagComm) (mult : Nat) : ∀ (l : List (Nat × AggType × Nat)) (cols : List Nat),
    VSteady (GroupBy.verifyAggs E inp pre grp mult l cols : Act (VSt F C B) (List Nat))
  | [], _ => pure _
  | (_, .count, _) :: r, cols => by unfold GroupBy.verifyAggs; exact aggs inp pre grp mult r _
  | (_, .sum, _) :: r, cols => by
    unfold GroupBy.verifyAggs
    exact bind (lift _) fun _ => bind (multitool E _ _ _ _) fun _ => aggs inp pre grp mult r _
  | (_, .avg, _) :: _, _ => lift _
  | (_, .min, _) :: _, _ => lift _
  | (_, .max, _) :: _, _ => lift _
macro_rules | `(tactic| vsteady_call) => `(tactic| with_reducible exact VSteady.aggs _ _ _ _ _ _ _)

theorem groupBy (inp : TableComm) (i : GroupInstr Nat) (r : BagComm) : VSteady (GroupBy.verifyWithAdvice E inp i r : Act (VSt F C B) TableComm) := by
  unfold GroupBy.verifyWithAdvice
  refine bind (lift _) fun gs => ?_
  obtain ⟨g, sp⟩ := gs
  dsimp only
  vsteady
macro_rules | `(tactic| vsteady_call) => `(tactic| with_reducible exact VSteady.groupBy _ _ _ _)

theorem check : ∀ c : Check TPoly, VSteady (c.verify E : Act (VSt F C B) Unit)
  | .multiset _ _ => multitool E _ _ _ _
  | .bagEq _ _ => bagEq E _ _
  | .bagSum _ _ _ => bagSum E _ _ _
  | .inclusion _ _ => inclusion E _ _
  | .inclusionAdvice _ _ _ => inclusionAdvice E _ _ _
  | .noZeros _ => noZeros E _
  | .selector _ => selector _
  | .permutation _ _ _ => permutation E _ _ _
  | .sort _ _ => sort E _ _
  | .support _ _ _ => supp E _ _ _
  | .supportAdvice _ _ _ _ => suppAdvice E _ _ _ _
  | .disjoint _ _ _ => disjoint E _ _ _
  | .setDisjoint _ _ _ => setDisjoint E _ _ _
  | .union _ _ _ _ => setUnion E _ _ _ _
  | .diff _ _ _ _ _ _ => setDiff E _ _ _ _ _ _
  | .intersect _ _ _ _ _ _ => setIntersect E _ _ _ _ _ _
  | .joinReduction _ _ _ _ _ => joinReduction E _ _ _ _ _
  | .indexTransform _ _ => indexTransform E _ _
  | .joinAdvice _ _ _ _ _ => bind (joinAdvice E _ _ _ _ _) fun _ => pure _
  | .groupBy _ _ _ _ _ _ => bind (groupBy E _ _ _) fun _ => pure _

end VSteady

/-! ### Programs -/

theorem act_pure_bind {S α β : Type} (a : α) (f : α → Act S β) : ((Pure.pure a : Act S α) >>= f) = f a := rfl

theorem proveAll_cons (s : Step F) (r : List (Step F)) (hs : List TPoly) :
    Step.proveAll E (s :: r) hs = Step.proveAll E [s] hs >>= fun hs' => Step.proveAll E r hs' := by
  cases s <;> simp only [Step.proveAll, Act.bind_assoc, act_pure_bind]

theorem verifyAll_cons (s : Step F) (r : List (Step F)) (hs : List TPoly) :
    (Step.verifyAll E (s :: r) hs : Act (VSt F C B) _) = Step.verifyAll E [s] hs >>= fun hs' => Step.verifyAll E r hs' := by
  cases s <;> simp only [Step.verifyAll, Act.bind_assoc, act_pure_bind]

theorem step_steady (hs : List TPoly) : ∀ s : Step F, Steady (Step.proveAll E [s] hs)
  | .commit _ => Steady.bind (trackAndCommit_steady _ _) fun _ => .pure _
  | .add _ _ => Steady.bind (add_steady _ _) fun _ => .pure _
  | .sub _ _ => Steady.bind (sub_steady _ _) fun _ => .pure _
  | .mul _ _ => Steady.bind (mul_steady _ _) fun _ => .pure _
  | .addScalar _ _ => Steady.bind (addScalar_steady _ _) fun _ => .pure _
  | .mulScalar _ _ => Steady.bind (mulScalar_steady _ _) fun _ => .pure _
  | .check _ => Steady.bind (check_steady E _) fun _ => .pure _
  | .join _ _ _ _ => Steady.bind (join_steady E _ _ _ _) fun _ => .pure _

theorem vstep_steady (hs : List TPoly) : ∀ s : Step F, VSteady (Step.verifyAll E [s] hs : Act (VSt F C B) _)
  | .commit _ => VSteady.bind .nextId fun _ => VSteady.bind (.transfer _ _) fun _ => .pure _
  | .add _ _ => VSteady.bind (.add _ _) fun _ => .pure _
  | .sub _ _ => VSteady.bind (.sub _ _) fun _ => .pure _
  | .mul _ _ => VSteady.bind (.mul _ _) fun _ => .pure _
  | .addScalar _ _ => VSteady.bind (.addScalar _ _) fun _ => .pure _
  | .mulScalar _ _ => VSteady.bind (.mulScalar _ _) fun _ => .pure _
  | .check _ => VSteady.bind (VSteady.check E _) fun _ => .pure _
  | .join _ _ _ _ => VSteady.bind (VSteady.join E _ _ _ _) fun _ => .pure _

theorem program_alike {d : Nat → PTracker F C → PTracker F C} (hd : Rearranges d) : ∀ (prog : List (Step F)) (k : Nat) (hs : List TPoly),
    Alike (· = ·) (Step.proveAll E prog hs) (proveRearranged d E k prog hs)
  | [], _, _ => Alike.pure rfl
  | s :: r, k, hs => by
    rw [proveAll_cons, proveRearranged]
    exact Alike.moved hd k (Alike.bindE (step_steady E hs s) fun hs' => program_alike hd r (k + 1) hs')

theorem vprogram_alike {d : Nat → VSt F C B → VSt F C B} (hd : VRearranges d) : ∀ (prog : List (Step F)) (k : Nat) (hs : List TPoly),
    VAlike (Step.verifyAll E prog hs) (checkRearranged d E k prog hs)
  | [], _, _ => VAlike.pure _
  | s :: r, k, hs => by
    rw [verifyAll_cons, checkRearranged]
    exact VAlike.moved hd k (VAlike.bind (vstep_steady E hs s) fun hs' => vprogram_alike hd r (k + 1) hs')

/-! ### Maps inside advice computations -/

theorem lookups_same {m m' : List (F × Nat)} (h : SameMap m m') : ∀ vs ss : List F, FinalJoin.lookups m vs ss = FinalJoin.lookups m' vs ss
  | [], _ => rfl
  | _ :: _, [] => rfl
  | v :: vs, s :: ss => by unfold FinalJoin.lookups; rw [h.lookup v, lookups_same h vs ss]

theorem outside_same {m m' : List (F × Nat)} (h : SameMap m m') (vs : List F) : JoinReduction.outside m vs = JoinReduction.outside m' vs := by
  unfold JoinReduction.outside
  exact List.map_congr_left fun v _ => by rw [h.lookup v]

theorem adviceLoop_same : ∀ (vs ss : List F) {m m' : List (F × Nat)} (_ : SameMap m m'), Inclusion.adviceLoop vs ss m = Inclusion.adviceLoop vs ss m'
  | [], _, _, _, _ => rfl
  | _ :: _, [], _, _, _ => rfl
  | v :: vs, s :: ss, m, m', h => by
    unfold Inclusion.adviceLoop
    rw [h.lookup v, adviceLoop_same vs ss h, adviceLoop_same vs ss (h.insert v 0)]

theorem uniqueVals_same (hr : Function.Injective E.rep) {a a' b b' : List (F × Nat)} (ha : SameMap a a') (hb : SameMap b b') :
    Disjoint.uniqueVals E a b = Disjoint.uniqueVals E a' b' := by
  unfold Disjoint.uniqueVals
  have hp : (Disjoint.keys a ++ Disjoint.keys b).dedup.Perm (Disjoint.keys a' ++ Disjoint.keys b').dedup :=
    List.Perm.dedup (ha.keys.append hb.keys)
  have : IsTotal F (fun x y => E.rep x ≤ E.rep y) := ⟨fun x y => le_total _ _⟩
  have : IsTrans F (fun x y => E.rep x ≤ E.rep y) := ⟨fun _ _ _ => le_trans⟩
  refine List.Perm.eq_of_pairwise (fun x y _ _ h1 h2 => hr (le_antisymm h1 h2)) (List.pairwise_insertionSort _ _) (List.pairwise_insertionSort _ _) ?_
  exact (List.perm_insertionSort _ _).trans (hp.trans (List.perm_insertionSort _ _).symm)

theorem disjointVecs_same (hr : Function.Injective E.rep) (len : Nat) {a a' b b' : List (F × Nat)} (ha : SameMap a a') (hb : SameMap b b') :
    Disjoint.adviceVecs E len a b = Disjoint.adviceVecs E len a' b' := by
  have hm : ∀ {m m' : List (F × Nat)} (_ : SameMap m m') (l : List F), Disjoint.mults m l = Disjoint.mults m' l := fun h l => by
    unfold Disjoint.mults
    exact List.map_congr_left fun v _ => by rw [h.lookup v]
  unfold Disjoint.adviceVecs
  rw [uniqueVals_same E hr ha hb]
  dsimp only
  rw [hm ha, hm hb]

/-- Counting gives the same map whatever the order of the map so far. -/
theorem multCount_same : ∀ (vs ss : List F) {m m' : List (F × Nat)} (_ : SameMap m m'), AgreeBy SameMap (multCount vs ss m) (multCount vs ss m')
  | [], _, _, _, h => h
  | _ :: _, [], _, _, _ => rfl
  | v :: vs, s :: ss, m, m', h => by
    unfold multCount
    refine multCount_same vs ss ?_
    unfold multCountStep
    rw [h.lookup v]
    split
    · exact h
    · split <;> exact h.insert _ _

theorem keyMap_same : ∀ (vs ss : List F) (i : Nat) {m m' : List (F × Nat)} (_ : SameMap m m'), AgreeBy SameMap (FinalJoin.keyMap vs ss i m) (FinalJoin.keyMap vs ss i m')
  | [], _, _, _, _, h => h
  | _ :: _, [], _, _, _, _ => rfl
  | v :: vs, s :: ss, i, m, m', h => by
    unfold FinalJoin.keyMap
    refine keyMap_same vs ss (i + 1) ?_
    split
    · exact h.insert _ _
    · exact h

end Zksql
