import Verif.Lemmas.Online
/-!
The prover's side of a program depends on the oracle only through the challenges drawn.
-/
set_option linter.unusedSectionVars false
namespace Zksql
open Spec
open PTracker (addSumClaim addZeroClaim trackVirt trackMat trackMatArc allocArc materialize increaseNv addSubPolys mulPolys)
variable {F C B : Type} [Field F] [DecidableEq F]

theorem withH_commit (E : Env F C) (H : Oracle F C) : (E.withH H).commit = E.commit := rfl
theorem withH_suppLe (E : Env F C) (H : Oracle F C) : Supp.idxLe (E.withH H) = Supp.idxLe E := rfl
theorem withH_sorted (E : Env F C) (H : Oracle F C) : SetDisjoint.sortedPairs (E.withH H) = SetDisjoint.sortedPairs E := rfl
theorem withH_advice (E : Env F C) (H : Oracle F C) : Disjoint.adviceVecs (E.withH H) = Disjoint.adviceVecs E := rfl
theorem withH_debugKeys (E : Env F C) (H : Oracle F C) : FinalJoin.debugKeys (E.withH H) = FinalJoin.debugKeys E := rfl

/-- For the prover. -/
abbrev Loc {α : Type} (m : Oracle F C → Act (PTracker F C) α) : Prop := LocT (fun t : PTracker F C => t.transcript) m

namespace PTracker
theorem trackVirt_loc (v : VRep F) : Loc (F := F) (C := C) fun _ => trackVirt v := .same fun _ => rfl
theorem trackMatArc_loc (a : ArcMle F) : Loc (F := F) (C := C) fun _ => trackMatArc a := .same fun _ => rfl
theorem trackMat_loc (p : Mle F) : Loc (F := F) (C := C) fun _ => trackMat p := .same fun _ => rfl
theorem allocArc_loc (p : Mle F) : Loc (F := F) (C := C) fun _ => allocArc p := .same fun _ => rfl
theorem modify_loc (f : PTracker F C → PTracker F C) (h : ∀ t, (f t).transcript = t.transcript) : Loc (F := F) (C := C) fun _ => Act.modify f := .same h
theorem materialize_loc (i : Nat) : Loc (F := F) (C := C) fun _ => materialize i := .same fun t => by
  rcases hm : t.mats.lookup i with _ | a
  · rcases hv : t.virts.lookup i with _ | v
    · rw [PTracker.materialize_unknown hm hv]
    · rcases hr : t.materializeRep v with x | m
      · rw [PTracker.materialize_bad hm hv hr]
      · rw [PTracker.materialize_virt hm hv hr]
  · rw [PTracker.materialize_mat hm]
theorem evaluations_loc (i : Nat) : Loc (F := F) (C := C) fun _ => evaluations i :=
  .bind (materialize_loc i) fun _ => .bind (.reads _) fun _ => .pure _
theorem increaseNv_loc (inc : Mle F → Nat → Res (Mle F)) (i k : Nat) : Loc (F := F) (C := C) fun _ => increaseNv inc i k := by
  refine .bind (materialize_loc i) fun _ => .bind (.reads _) fun a => .bind ?_ fun b => trackMatArc_loc b
  unfold PTracker.incArc
  exact .ite (.pure _) (.bind (.lift _) fun _ => allocArc_loc _)
theorem append_loc (l : String) (d : TItem F C) : Loc (F := F) (C := C) fun _ => append l d := .on fun _ => ⟨⟨_, rfl⟩, rfl⟩
theorem trackAndCommit_loc (commit : Mle F → Res C) (p : Mle F) : Loc (F := F) (C := C) fun _ => trackAndCommit commit p :=
  .bind (.lift _) fun _ => .bind (trackMat_loc p) fun _ => .bind (modify_loc _ fun _ => rfl) fun _ => .bind (append_loc _ _) fun _ => .pure _
theorem challenge_loc (l : String) : Loc (F := F) (C := C) fun H => challenge H l :=
  .chal (l := l) (fun t x => { t with transcript := x }) (fun _ _ => rfl) fun H t => by
    unfold PTracker.challenge
    rcases t.transcript.challenge H l with e | ⟨c, x⟩ <;> rfl
theorem addSumClaim_loc (i : Nat) (v : F) : Loc (F := F) (C := C) fun _ => addSumClaim i v := .same fun _ => rfl
theorem addZeroClaim_loc (i : Nat) : Loc (F := F) (C := C) fun _ => addZeroClaim i := .same fun _ => rfl
theorem addSubPolys_loc (i j : Nat) (s : Bool) : Loc (F := F) (C := C) fun _ => addSubPolys i j s := .bind (.reads _) fun _ => trackVirt_loc _
theorem mulPolys_loc (i j : Nat) : Loc (F := F) (C := C) fun _ => mulPolys i j := .bind (.reads _) fun _ => trackVirt_loc _
theorem mulScalar_loc (i : Nat) (c : F) : Loc (F := F) (C := C) fun _ => PTracker.mulScalar i c := .bind (.reads _) fun _ => trackVirt_loc _
theorem addScalar_loc (i : Nat) (c : F) : Loc (F := F) (C := C) fun _ => PTracker.addScalar i c :=
  .bind (.reads _) fun _ => .bind (.lift _) fun _ => .bind (trackMat_loc _) fun _ => addSubPolys_loc _ _ _
end PTracker

syntax "locs_call" : tactic
macro_rules | `(tactic| locs_call) => `(tactic| fail "no rule")

/-- All steps of a call. -/
macro "locs" : tactic => `(tactic| (
  try simp only [withH_commit, withH_debug, withH_H, withH_suppLe, withH_sorted, withH_advice, withH_debugKeys]
  repeat (first
  | with_reducible exact LocT.pure _ | with_reducible exact LocT.lift _ | with_reducible exact LocT.assert _
  | locs_call
  | with_reducible refine LocT.bind ?_ fun _ => ?_
  | with_reducible refine LocT.ite ?_ ?_)))

namespace TPoly
theorem trackMat_loc (p : Mle F) : Loc (F := F) (C := C) fun _ => TPoly.trackMat p := .bind (PTracker.trackMat_loc p) fun _ => .pure _
theorem trackAndCommit_loc (commit : Mle F → Res C) (p : Mle F) : Loc (F := F) (C := C) fun _ => TPoly.trackAndCommit commit p := .bind (PTracker.trackAndCommit_loc commit p) fun _ => .pure _
theorem add_loc (a b : TPoly) : Loc (F := F) (C := C) fun _ => a.add b := .bind (.assert _) fun _ => .bind (PTracker.addSubPolys_loc _ _ _) fun _ => .pure _
theorem sub_loc (a b : TPoly) : Loc (F := F) (C := C) fun _ => a.sub b := .bind (.assert _) fun _ => .bind (PTracker.addSubPolys_loc _ _ _) fun _ => .pure _
theorem mul_loc (a b : TPoly) : Loc (F := F) (C := C) fun _ => a.mul b := .bind (.assert _) fun _ => .bind (PTracker.mulPolys_loc _ _) fun _ => .pure _
theorem addScalar_loc (a : TPoly) (c : F) : Loc (F := F) (C := C) fun _ => a.addScalar c := .bind (PTracker.addScalar_loc _ _) fun _ => .pure _
theorem mulScalar_loc (a : TPoly) (c : F) : Loc (F := F) (C := C) fun _ => a.mulScalar c := .bind (PTracker.mulScalar_loc _ _) fun _ => .pure _
theorem incFront_loc (a : TPoly) (k : Nat) : Loc (F := F) (C := C) fun _ => a.incFront k := .bind (PTracker.increaseNv_loc _ _ _) fun _ => .pure _
theorem incBack_loc (a : TPoly) (k : Nat) : Loc (F := F) (C := C) fun _ => a.incBack k := .bind (PTracker.increaseNv_loc _ _ _) fun _ => .pure _
theorem evaluations_loc (a : TPoly) : Loc (F := F) (C := C) fun _ => a.evaluations := PTracker.evaluations_loc _
end TPoly

macro_rules | `(tactic| locs_call) => `(tactic| with_reducible first
  | exact TPoly.trackMat_loc _ | exact TPoly.trackAndCommit_loc _ _ | exact TPoly.add_loc _ _ | exact TPoly.sub_loc _ _ | exact TPoly.mul_loc _ _
  | exact TPoly.addScalar_loc _ _ | exact TPoly.mulScalar_loc _ _ | exact TPoly.incFront_loc _ _ | exact TPoly.incBack_loc _ _
  | exact TPoly.evaluations_loc _ | exact PTracker.addSumClaim_loc _ _ | exact PTracker.addZeroClaim_loc _ | exact PTracker.challenge_loc _)

theorem bagNew_loc (d : Bool) (a b : TPoly) : Loc (F := F) (C := C) fun _ => Bag.new d a b := by
  unfold Bag.new
  locs
theorem tableNew_loc (d : Bool) (a : List TPoly) (b : TPoly) : Loc (F := F) (C := C) fun _ => Table.new d a b := by
  unfold Table.new
  locs
macro_rules | `(tactic| locs_call) => `(tactic| with_reducible first | exact bagNew_loc _ _ _ | exact tableNew_loc _ _ _)

/-! ### Provers -/
variable (E : Env F C)

theorem proveSub_loc (b : Bag) (m : TPoly) (γ : F) : Loc fun H => Multitool.proveSub (E.withH H) b m γ := by
  unfold Multitool.proveSub
  locs
theorem proveSubs_loc (γ : F) : ∀ l : List (Bag × TPoly), Loc fun H => Multitool.proveSubs (E.withH H) γ l
  | [] => .pure _
  | (b, m) :: r => .bind (proveSub_loc E b m γ) fun _ => proveSubs_loc γ r
macro_rules | `(tactic| locs_call) => `(tactic| with_reducible exact proveSubs_loc _ _ _)

theorem multitool_loc (fxs gxs : List Bag) (mf mg : List TPoly) : Loc fun H => Multitool.prove (E.withH H) fxs gxs mf mg := by
  unfold Multitool.prove
  locs
macro_rules | `(tactic| locs_call) => `(tactic| with_reducible exact multitool_loc _ _ _ _ _)

theorem bagEq_loc (f g : Bag) : Loc fun H => BagEq.prove (E.withH H) f g := by unfold BagEq.prove; locs
theorem bagSum_loc (f g h : Bag) : Loc fun H => BagSum.prove (E.withH H) f g h := by unfold BagSum.prove; locs
theorem noZeros_loc (b : Bag) : Loc fun H => NoZeros.prove (E.withH H) b := by unfold NoZeros.prove; locs
theorem selector_loc (s : TPoly) : Loc (F := F) (C := C) fun _ => SelectorValid.prove s := by unfold SelectorValid.prove; locs
macro_rules | `(tactic| locs_call) => `(tactic| with_reducible first
  | exact bagEq_loc _ _ _ | exact bagSum_loc _ _ _ _ | exact noZeros_loc _ _ | exact selector_loc _)

theorem incAdvice_loc (a b : Bag) : Loc (F := F) (C := C) fun _ => Inclusion.advice a b := by unfold Inclusion.advice; locs
theorem inclusionWith_loc (a b : Bag) (m : TPoly) : Loc fun H => Inclusion.proveWithAdvice (E.withH H) a b m := by unfold Inclusion.proveWithAdvice; locs
macro_rules | `(tactic| locs_call) => `(tactic| with_reducible first | exact incAdvice_loc _ _ | exact inclusionWith_loc _ _ _ _)
theorem inclusion_loc (a b : Bag) : Loc fun H => Inclusion.prove (E.withH H) a b := by unfold Inclusion.prove; locs
theorem permutation_loc (a b : Bag) (p : TPoly) : Loc fun H => PrescPerm.prove (E.withH H) a b p := by unfold PrescPerm.prove; locs
theorem debugDiff_loc (d : Bool) (a : TPoly) (l : List F) : Loc (F := F) (C := C) fun _ => StrictSort.debugDiff d a l := by unfold StrictSort.debugDiff; locs
macro_rules | `(tactic| locs_call) => `(tactic| with_reducible first
  | exact inclusion_loc _ _ _ | exact permutation_loc _ _ _ _ | exact debugDiff_loc _ _ _)
theorem sort_loc (a r : Bag) : Loc fun H => StrictSort.prove (E.withH H) a r := by unfold StrictSort.prove; locs
macro_rules | `(tactic| locs_call) => `(tactic| with_reducible exact sort_loc _ _ _)
theorem suppWith_loc (a b : Bag) (m : TPoly) (r : Bag) : Loc fun H => Supp.proveWithAdvice (E.withH H) a b m r := by unfold Supp.proveWithAdvice; locs
macro_rules | `(tactic| locs_call) => `(tactic| with_reducible exact suppWith_loc _ _ _ _ _)
theorem supp_loc (a b r : Bag) : Loc fun H => Supp.prove (E.withH H) a b r := by unfold Supp.prove; locs
theorem bagCount_loc (a : Bag) : Loc (F := F) (C := C) fun _ => Disjoint.bagCount a := by unfold Disjoint.bagCount; locs
macro_rules | `(tactic| locs_call) => `(tactic| with_reducible first | exact supp_loc _ _ _ _ | exact bagCount_loc _)
theorem disjointAdvice_loc (a b : Bag) : Loc fun H => Disjoint.advice (E.withH H) a b := by unfold Disjoint.advice; dsimp only; locs
theorem disjointWith_loc (a b c : Bag) (m n : TPoly) (r : Bag) : Loc fun H => Disjoint.proveWithAdvice (E.withH H) a b c m n r := by unfold Disjoint.proveWithAdvice; locs
macro_rules | `(tactic| locs_call) => `(tactic| with_reducible first | exact disjointAdvice_loc _ _ _ | exact disjointWith_loc _ _ _ _ _ _ _)
theorem disjoint_loc (a b r : Bag) : Loc fun H => Disjoint.prove (E.withH H) a b r := by unfold Disjoint.prove; locs
theorem setDisjoint_loc (a b r : Bag) : Loc fun H => SetDisjoint.prove (E.withH H) a b r := by unfold SetDisjoint.prove; dsimp only; locs
macro_rules | `(tactic| locs_call) => `(tactic| with_reducible first | exact disjoint_loc _ _ _ _ | exact setDisjoint_loc _ _ _ _)
theorem setDiff_loc (a b l m : Bag) (bm : TPoly) (r : Bag) : Loc fun H => SetDiff.prove (E.withH H) a b l m bm r := by unfold SetDiff.prove; locs
theorem setUnion_loc (a b u r : Bag) : Loc fun H => SetUnion.prove (E.withH H) a b u r := by unfold SetUnion.prove; dsimp only; locs
theorem setIntersect_loc (a b l m r x : Bag) : Loc fun H => SetIntersect.prove (E.withH H) a b l m r x := by unfold SetIntersect.prove; locs
theorem joinReduction_loc (a b : Bag) (l r : TPoly) (x : Bag) : Loc fun H => JoinReduction.prove (E.withH H) a b l r x := by unfold JoinReduction.prove; locs

theorem powers_loc (n : Nat) : Loc fun H => IndexTransform.proverPowers (E.withH H) n := by unfold IndexTransform.proverPowers; locs
theorem aggLoop_loc : ∀ (acc : TPoly) (cs : List TPoly) (rs : List F), Loc (F := F) (C := C) fun _ => IndexTransform.proverAggLoop acc cs rs
  | _, [], _ => .pure _
  | _, _ :: _, [] => .lift _
  | _, _ :: cs, _ :: rs => .bind (TPoly.mulScalar_loc _ _) fun _ => .bind (TPoly.mul_loc _ _) fun _ => aggLoop_loc _ cs rs
macro_rules | `(tactic| locs_call) => `(tactic| with_reducible first | exact powers_loc _ _ | exact aggLoop_loc _ _ _)
theorem agg_loc (t : Table) (l : List F) : Loc fun H => IndexTransform.proverAgg (E.withH H) t l := by unfold IndexTransform.proverAgg; locs
macro_rules | `(tactic| locs_call) => `(tactic| with_reducible exact agg_loc _ _ _)
theorem indexTransform_loc (a b : Table) : Loc fun H => IndexTransform.prove (E.withH H) a b := by unfold IndexTransform.prove; locs

theorem transform_loc (a b : Table) (i j : Nat) : Loc (F := F) (C := C) fun _ => FinalJoin.transform a b i j := by
  unfold FinalJoin.transform
  locs
theorem applyTransform_loc (ks : List Nat) (o a : TPoly) : Loc fun H => FinalJoin.applyTransform (E.withH H) ks o a := by
  change Loc fun _ => FinalJoin.applyTransform E ks o a
  unfold FinalJoin.applyTransform
  exact .bind (TPoly.evaluations_loc _) fun _ => .bind (TPoly.evaluations_loc _) fun _ => .bind (.assert _) fun _ => .bind (.lift _) fun _ => .lift _
theorem applyAll_loc (ks : List Nat) (a : TPoly) : ∀ l : List TPoly, Loc fun H => FinalJoin.applyAll (E.withH H) ks a l
  | [] => .pure _
  | _ :: r => .bind (applyTransform_loc E _ _ _) fun _ => .bind (applyAll_loc ks a r) fun _ => .pure _
theorem commitAll_loc : ∀ l : List (Mle F), Loc fun H => FinalJoin.commitAll (E.withH H) l
  | [] => .pure _
  | _ :: r => .bind (TPoly.trackAndCommit_loc _ _) fun _ => .bind (commitAll_loc r) fun _ => .pure _
theorem debugKeys_loc (a : Table) (i : Nat) : Loc fun _ => FinalJoin.debugKeys E a i := by unfold FinalJoin.debugKeys; locs
macro_rules | `(tactic| locs_call) => `(tactic| with_reducible first
  | exact indexTransform_loc _ _ _ | exact transform_loc _ _ _ _ | exact applyAll_loc _ _ _ _ | exact commitAll_loc _ _ | exact debugKeys_loc _ _ _)
theorem joinWith_loc (a b : Table) (i j : Nat) (l : List TPoly) : Loc fun H => FinalJoin.proveWithAdvice (E.withH H) a b i j l := by unfold FinalJoin.proveWithAdvice; locs
macro_rules | `(tactic| locs_call) => `(tactic| with_reducible exact joinWith_loc _ _ _ _ _ _)
theorem join_loc (a b : Table) (i j : Nat) : Loc fun H => FinalJoin.prove (E.withH H) a b i j := by unfold FinalJoin.prove; locs

theorem aggs_loc (inp : Table) (pre grp : Bag) (m : TPoly) : ∀ (l : List (Nat × AggType × TPoly)) (cols : List TPoly),
    Loc fun H => GroupBy.proveAggs (E.withH H) inp pre grp m l cols
  | [], _ => .pure _
  | (_, .count, _) :: r, cols => by unfold GroupBy.proveAggs; exact aggs_loc inp pre grp m r _
  | (_, .sum, _) :: r, cols => by
    unfold GroupBy.proveAggs
    exact .bind (.lift _) fun _ => .bind (multitool_loc E _ _ _ _) fun _ => aggs_loc inp pre grp m r _
  | (_, .avg, _) :: _, _ => .lift _
  | (_, .min, _) :: _, _ => .lift _
  | (_, .max, _) :: _, _ => .lift _
macro_rules | `(tactic| locs_call) => `(tactic| with_reducible exact aggs_loc _ _ _ _ _ _ _)
theorem groupBy_loc (inp : Table) (i : GroupInstr TPoly) (r : Bag) : Loc fun H => GroupBy.proveWithAdvice (E.withH H) inp i r := by
  unfold GroupBy.proveWithAdvice
  refine .bind (.lift _) fun gs => ?_
  obtain ⟨g, sp⟩ := gs
  dsimp only
  locs

theorem check_loc : ∀ c : Check TPoly, Loc fun H => c.prove (E.withH H)
  | .multiset _ _ => multitool_loc E _ _ _ _
  | .bagEq _ _ => bagEq_loc E _ _
  | .bagSum _ _ _ => bagSum_loc E _ _ _
  | .inclusion _ _ => inclusion_loc E _ _
  | .inclusionAdvice _ _ _ => inclusionWith_loc E _ _ _
  | .noZeros _ => noZeros_loc E _
  | .selector _ => selector_loc _
  | .permutation _ _ _ => permutation_loc E _ _ _
  | .sort _ _ => sort_loc E _ _
  | .support _ _ _ => supp_loc E _ _ _
  | .supportAdvice _ _ _ _ => suppWith_loc E _ _ _ _
  | .disjoint _ _ _ => disjoint_loc E _ _ _
  | .setDisjoint _ _ _ => setDisjoint_loc E _ _ _
  | .union _ _ _ _ => setUnion_loc E _ _ _ _
  | .diff _ _ _ _ _ _ => setDiff_loc E _ _ _ _ _ _
  | .intersect _ _ _ _ _ _ => setIntersect_loc E _ _ _ _ _ _
  | .joinReduction _ _ _ _ _ => joinReduction_loc E _ _ _ _ _
  | .indexTransform _ _ => indexTransform_loc E _ _
  | .joinAdvice _ _ _ _ _ => .bind (joinWith_loc E _ _ _ _ _) fun _ => .pure _
  | .groupBy _ _ _ _ _ _ => .bind (groupBy_loc E _ _ _) fun _ => .pure _

theorem proveAll_loc : ∀ (prog : List (Step F)) (hs : List TPoly), Loc fun H => Step.proveAll (E.withH H) prog hs
  | [], _ => .pure _
  | .commit _ :: r, _ => .bind (TPoly.trackAndCommit_loc _ _) fun _ => proveAll_loc r _
  | .add _ _ :: r, _ => .bind (TPoly.add_loc _ _) fun _ => proveAll_loc r _
  | .sub _ _ :: r, _ => .bind (TPoly.sub_loc _ _) fun _ => proveAll_loc r _
  | .mul _ _ :: r, _ => .bind (TPoly.mul_loc _ _) fun _ => proveAll_loc r _
  | .addScalar _ _ :: r, _ => .bind (TPoly.addScalar_loc _ _) fun _ => proveAll_loc r _
  | .mulScalar _ _ :: r, _ => .bind (TPoly.mulScalar_loc _ _) fun _ => proveAll_loc r _
  | .check c :: r, _ => .bind (check_loc E _) fun _ => proveAll_loc r _
  | .join _ _ _ _ :: r, _ => .bind (join_loc E _ _ _ _) fun _ => proveAll_loc r _

end Zksql
