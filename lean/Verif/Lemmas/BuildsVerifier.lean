import Verif.Lemmas.Lockstep
import Verif.Spec.Builds
/-! The verifier's side of the protocols is the same in the two builds. -/
set_option linter.unusedSectionVars false
namespace Zksql
open Spec
variable {F C B : Type} [Field F]

/-- Taking over the next commitment: the assertion on the identifier always holds. -/
theorem fetch_built {α : Type} (k : Nat → Act (VSt F C B) α) :
    (VSt.getNextId >>= fun i => VSt.transferComm true i >>= k) = (VSt.getNextId >>= fun i => VSt.transferComm false i >>= k) := by
  have h : ∀ s : VSt F C B, VSt.transferComm true s.own.idCounter s = VSt.transferComm false s.own.idCounter s := by
    intro s
    unfold VSt.transferComm
    rcases e : s.own.proof.comms.lookup s.own.idCounter with _ | c
    · simp [Act.bind_run, e, unwrap]
    · simp [Act.bind_run, e, unwrap, Act.expect, VSt.trackMatComm, VSt.genId, VSt.insertComm, Act.assert]
  funext s
  have := h s
  simp only [Act.bind_run, VSt.getNextId]
  rw [this]

variable (E : Env F C) [DecidableEq F]

theorem verifySub_built (b : BagComm) (m : Nat) (γ : F) : Multitool.verifySub (B := B) (built true E) b m γ = Multitool.verifySub (built false E) b m γ := by
  unfold Multitool.verifySub
  simp only [fetch_built]
theorem verifySubs_built (γ : F) (k : Nat) : ∀ (l : List (BagComm × Nat)) (acc : F),
    Multitool.verifySubs (B := B) (built true E) γ k l acc = Multitool.verifySubs (built false E) γ k l acc
  | [], _ => rfl
  | (b, m) :: r, acc => by
    unfold Multitool.verifySubs
    rw [verifySub_built]
    simp only [verifySubs_built γ k r]
theorem multitoolV_built (f g : List BagComm) (mf mg : List Nat) : Multitool.verify (B := B) (built true E) f g mf mg = Multitool.verify (built false E) f g mf mg := by
  unfold Multitool.verify
  simp only [fetch_built, verifySubs_built]
theorem bagEqV_built (f g : BagComm) : BagEq.verify (B := B) (built true E) f g = BagEq.verify (built false E) f g := by
  unfold BagEq.verify
  simp only [fetch_built, multitoolV_built]
theorem bagSumV_built (f g h : BagComm) : BagSum.verify (B := B) (built true E) f g h = BagSum.verify (built false E) f g h := by
  unfold BagSum.verify
  simp only [fetch_built, multitoolV_built]
theorem noZerosV_built (f : BagComm) : NoZeros.verify (B := B) (built true E) f = NoZeros.verify (built false E) f := by
  unfold NoZeros.verify
  simp only [fetch_built]
theorem inclusionWithV_built (f g : BagComm) (m : Nat) : Inclusion.verifyWithAdvice (B := B) (built true E) f g m = Inclusion.verifyWithAdvice (built false E) f g m := by
  unfold Inclusion.verifyWithAdvice
  simp only [fetch_built, multitoolV_built]
theorem inclusionV_built (f g : BagComm) : Inclusion.verify (B := B) (built true E) f g = Inclusion.verify (built false E) f g := by
  unfold Inclusion.verify
  simp only [fetch_built, inclusionWithV_built]
theorem permutationV_built (f g : BagComm) (p : Nat) : PrescPerm.verify (B := B) (built true E) f g p = PrescPerm.verify (built false E) f g p := by
  unfold PrescPerm.verify
  simp only [fetch_built, bagEqV_built]
theorem sortV_built (f r : BagComm) : StrictSort.verify (B := B) (built true E) f r = StrictSort.verify (built false E) f r := by
  unfold StrictSort.verify
  simp only [fetch_built, permutationV_built, inclusionV_built, noZerosV_built]
theorem suppWithV_built (f g : BagComm) (m : Nat) (r : BagComm) : Supp.verifyWithAdvice (B := B) (built true E) f g m r = Supp.verifyWithAdvice (built false E) f g m r := by
  unfold Supp.verifyWithAdvice
  simp only [fetch_built, inclusionWithV_built, noZerosV_built, sortV_built]
theorem suppV_built (f g r : BagComm) : Supp.verify (B := B) (built true E) f g r = Supp.verify (built false E) f g r := by
  unfold Supp.verify
  simp only [fetch_built, suppWithV_built]
theorem disjointWithV_built (f g c : BagComm) (m n : Nat) (r : BagComm) : Disjoint.verifyWithAdvice (B := B) (built true E) f g c m n r = Disjoint.verifyWithAdvice (built false E) f g c m n r := by
  unfold Disjoint.verifyWithAdvice
  simp only [fetch_built, inclusionWithV_built, sortV_built]
theorem disjointV_built (f g r : BagComm) : Disjoint.verify (B := B) (built true E) f g r = Disjoint.verify (built false E) f g r := by
  unfold Disjoint.verify
  simp only [fetch_built, disjointWithV_built]
theorem setDisjointV_built (f g r : BagComm) : SetDisjoint.verify (B := B) (built true E) f g r = SetDisjoint.verify (built false E) f g r := by
  unfold SetDisjoint.verify
  simp only [fetch_built, bagSumV_built, sortV_built]
theorem setDiffV_built (a b l m : BagComm) (bm : Nat) (r : BagComm) : SetDiff.verify (B := B) (built true E) a b l m bm r = SetDiff.verify (built false E) a b l m bm r := by
  unfold SetDiff.verify
  simp only [fetch_built, setDisjointV_built, bagSumV_built, inclusionWithV_built]
theorem setUnionV_built (a b u r : BagComm) : SetUnion.verify (B := B) (built true E) a b u r = SetUnion.verify (built false E) a b u r := by
  unfold SetUnion.verify
  simp only [fetch_built, bagSumV_built, suppV_built]
theorem setIntersectV_built (a b l m r x : BagComm) : SetIntersect.verify (B := B) (built true E) a b l m r x = SetIntersect.verify (built false E) a b l m r x := by
  unfold SetIntersect.verify
  simp only [fetch_built, bagSumV_built, setDisjointV_built]
theorem joinReductionV_built (a b : BagComm) (l r : Nat) (x : BagComm) : JoinReduction.verify (B := B) (built true E) a b l r x = JoinReduction.verify (built false E) a b l r x := by
  unfold JoinReduction.verify
  simp only [fetch_built, disjointV_built, inclusionV_built]
theorem powersV_built (n : Nat) : IndexTransform.verifierPowers (B := B) (built true E) n = IndexTransform.verifierPowers (built false E) n := by
  unfold IndexTransform.verifierPowers
  simp only [fetch_built]
theorem indexTransformV_built (a b : TableComm) : IndexTransform.verify (B := B) (built true E) a b = IndexTransform.verify (built false E) a b := by
  unfold IndexTransform.verify
  simp only [fetch_built, powersV_built, inclusionV_built]
theorem transferAll_built : ∀ n : Nat, FinalJoin.transferAll (B := B) (built true E) n = FinalJoin.transferAll (built false E) n
  | 0 => rfl
  | n + 1 => by
    unfold FinalJoin.transferAll
    simp only [fetch_built, transferAll_built n]
theorem joinWithV_built (a b : TableComm) (i j : Nat) (l : List Nat) : FinalJoin.verifyWithAdvice (B := B) (built true E) a b i j l = FinalJoin.verifyWithAdvice (built false E) a b i j l := by
  unfold FinalJoin.verifyWithAdvice
  simp only [fetch_built, indexTransformV_built]
theorem joinV_built (a b : TableComm) (i j : Nat) : FinalJoin.verify (B := B) (built true E) a b i j = FinalJoin.verify (built false E) a b i j := by
  unfold FinalJoin.verify
  simp only [fetch_built, transferAll_built, joinWithV_built]
theorem aggsV_built (inp : TableComm) (pre grp : BagComm) (m : Nat) : ∀ (l : List (Nat × AggType × Nat)) (cols : List Nat),
    GroupBy.verifyAggs (B := B) (built true E) inp pre grp m l cols = GroupBy.verifyAggs (built false E) inp pre grp m l cols
  | [], _ => rfl
  | (_, .count, _) :: r, cols => by unfold GroupBy.verifyAggs; exact aggsV_built inp pre grp m r _
  | (_, .sum, _) :: r, cols => by
    unfold GroupBy.verifyAggs
    simp only [multitoolV_built, aggsV_built inp pre grp m r]
  | (_, .avg, _) :: _, _ => rfl
  | (_, .min, _) :: _, _ => rfl
  | (_, .max, _) :: _, _ => rfl
theorem groupByV_built (inp : TableComm) (i : GroupInstr Nat) (r : BagComm) : GroupBy.verifyWithAdvice (B := B) (built true E) inp i r = GroupBy.verifyWithAdvice (built false E) inp i r := by
  unfold GroupBy.verifyWithAdvice
  simp only [fetch_built, suppWithV_built, aggsV_built]

/-- The verifier's side of a check. -/
theorem checkV_built : ∀ c : Check TPoly, c.verify (B := B) (built true E) = c.verify (built false E)
  | .multiset _ _ => multitoolV_built E _ _ _ _
  | .bagEq _ _ => bagEqV_built E _ _
  | .bagSum _ _ _ => bagSumV_built E _ _ _
  | .inclusion _ _ => inclusionV_built E _ _
  | .inclusionAdvice _ _ _ => inclusionWithV_built E _ _ _
  | .noZeros _ => noZerosV_built E _
  | .selector _ => rfl
  | .permutation _ _ _ => permutationV_built E _ _ _
  | .sort _ _ => sortV_built E _ _
  | .support _ _ _ => suppV_built E _ _ _
  | .supportAdvice _ _ _ _ => suppWithV_built E _ _ _ _
  | .disjoint _ _ _ => disjointV_built E _ _ _
  | .setDisjoint _ _ _ => setDisjointV_built E _ _ _
  | .union _ _ _ _ => setUnionV_built E _ _ _ _
  | .diff _ _ _ _ _ _ => setDiffV_built E _ _ _ _ _ _
  | .intersect _ _ _ _ _ _ => setIntersectV_built E _ _ _ _ _ _
  | .joinReduction _ _ _ _ _ => joinReductionV_built E _ _ _ _ _
  | .indexTransform _ _ => indexTransformV_built E _ _
  | .joinAdvice _ _ _ _ _ => congrArg (· >>= fun _ => pure ()) (joinWithV_built E _ _ _ _ _)
  | .groupBy _ _ _ _ _ _ => congrArg (· >>= fun _ => pure ()) (groupByV_built E _ _ _)

/-- The verifier's side of a program. -/
theorem verifyAll_built : ∀ (prog : List (Step F)) (hs : List TPoly), Step.verifyAll (B := B) (built true E) prog hs = Step.verifyAll (built false E) prog hs
  | [], _ => rfl
  | .commit p :: r, hs => by
    unfold Step.verifyAll
    rw [fetch_built]
    simp only [verifyAll_built r]
  | .add _ _ :: r, hs => by unfold Step.verifyAll; simp only [verifyAll_built r]
  | .sub _ _ :: r, hs => by unfold Step.verifyAll; simp only [verifyAll_built r]
  | .mul _ _ :: r, hs => by unfold Step.verifyAll; simp only [verifyAll_built r]
  | .addScalar _ _ :: r, hs => by unfold Step.verifyAll; simp only [verifyAll_built r]
  | .mulScalar _ _ :: r, hs => by unfold Step.verifyAll; simp only [verifyAll_built r]
  | .check c :: r, hs => by unfold Step.verifyAll; rw [checkV_built]; simp only [verifyAll_built r]
  | .join a b ai bi :: r, hs => by unfold Step.verifyAll; rw [joinV_built]; simp only [verifyAll_built r]

end Zksql
