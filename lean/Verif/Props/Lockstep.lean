import Verif.Lemmas.Lockstep
import Verif.Props.Honest
/-!
C73: the prover and the verifier of every protocol stay in step, for all inputs and from all states.
-/
set_option linter.unusedSectionVars false
namespace Zksql
open Spec
variable {F C B : Type} [Field F] [DecidableEq F] (E : Env F C)

/-- Every reachable prover tracker satisfies the assumption of `Lockstep`. -/
theorem C73_reachable {commit : Mle F → Res C} {H : Oracle F C} {st : PState F C} (h : Reachable commit H st) : FreshIds st.tracker := by
  intro id c hc
  have hi := h.inv.inv
  obtain ⟨a, ha, -⟩ := hi.commOk id c hc
  exact (hi.matOk id a ha).1

/-- New trackers are in step. -/
theorem C73_new : FreshIds (PTracker.new : PTracker F C) ∧ Together (PTracker.new : PTracker F C) (VSt.new : VSt F C B) :=
  ⟨fun id c h => by simp [PTracker.new] at h, rfl, rfl, rfl, rfl, rfl, fun _ h => by simp [VSt.new] at h⟩

/-- Lockstep calls can be made one after the other.  The prover's second call must keep the commitments, as every call does. -/
theorem C73_then {α β α' β' : Type} {m : Act (PTracker F C) α} {v : Act (VSt F C B) β} {m' : α → Act (PTracker F C) α'} {v' : β → Act (VSt F C B) β'}
    {Q : α → β → Prop} {R : α' → β' → Prop} (h1 : Lockstep m v Q) (h2 : ∀ a b, Q a b → Lockstep (m' a) (v' b) R)
    (hk : ∀ a t x t', m' a t = (.ok x, t') → ∀ id c, t.comms.lookup id = some c → t'.comms.lookup id = some c) : Lockstep (m >>= m') (v >>= v') R := by
  intro t s a b t' s' ht hts hc e1 e2
  obtain ⟨x, t1, k1, k2⟩ := Act.bind_eq_ok.1 e1
  obtain ⟨y, s1, l1, l2⟩ := Act.bind_eq_ok.1 e2
  obtain ⟨c1, c2, c3, c4⟩ := h1 t s x y t1 s1 ht hts (fun id c h => hc id c (hk x t1 a t' k2 id c h)) k1 l1
  obtain ⟨d1, d2, d3, d4⟩ := h2 x y c4 t1 s1 a b t' s' c1 c2 (fun id c h => by rw [c3]; exact hc id c h) k2 l2
  exact ⟨d1, d2, d3.trans c3, d4⟩

/-- The multiset check on any lists of bags and multiplicities. -/
theorem C73_multitool (fs gs : List Bag) (ms ns : List TPoly) : Lockstep (Multitool.prove E fs gs ms ns) (Multitool.verify E (fs.map sameBag) (gs.map sameBag) (ms.map (·.id)) (ns.map (·.id)) : Act (VSt F C B) Unit) fun _ _ => True :=
  (Lock.multitool E _ _ _ _ _ _ _ _ (by simp) (by simp) (by simp) (by simp)).lock

/-- Bag equality. -/
theorem C73_bag_eq (f g : Bag) : Lockstep (BagEq.prove E f g) (BagEq.verify E (sameBag f) (sameBag g) : Act (VSt F C B) Unit) fun _ _ => True :=
  (Lock.bagEq E _ _ _ _).lock

/-- Sum of bags. -/
theorem C73_bag_sum (f g h : Bag) : Lockstep (BagSum.prove E f g h) (BagSum.verify E (sameBag f) (sameBag g) (sameBag h) : Act (VSt F C B) Unit) fun _ _ => True :=
  (Lock.bagSum E _ _ _ _ _ _).lock

/-- No zeros. -/
theorem C73_no_zeros (f : Bag) : Lockstep (NoZeros.prove E f) (NoZeros.verify E (sameBag f) : Act (VSt F C B) Unit) fun _ _ => True :=
  (Lock.noZeros E _ _).lock

/-- Valid selectors. -/
theorem C73_selector_valid (x : TPoly) : Lockstep (SelectorValid.prove x) (SelectorValid.verify x.id : Act (VSt F C B) Unit) fun _ _ => True :=
  (Lock.selectorValid _ _).lock

/-- Inclusion of bags. -/
theorem C73_inclusion (f g : Bag) : Lockstep (Inclusion.prove E f g) (Inclusion.verify E (sameBag f) (sameBag g) : Act (VSt F C B) Unit) fun _ _ => True :=
  (Lock.inclusion E _ _ _ _).lock

/-- Inclusion with given multiplicities. -/
theorem C73_inclusion_with_advice (f g : Bag) (m : TPoly) : Lockstep (Inclusion.proveWithAdvice E f g m) (Inclusion.verifyWithAdvice E (sameBag f) (sameBag g) m.id : Act (VSt F C B) Unit) fun _ _ => True :=
  (Lock.inclusionAdvice E _ _ _ _ _ _).lock

/-- Prescribed permutation. -/
theorem C73_presc_perm (f g : Bag) (p : TPoly) : Lockstep (PrescPerm.prove E f g p) (PrescPerm.verify E (sameBag f) (sameBag g) p.id : Act (VSt F C B) Unit) fun _ _ => True :=
  (Lock.prescPerm E _ _ _ _ _ _).lock

/-- Strict sort. -/
theorem C73_strict_sort (f r : Bag) : Lockstep (StrictSort.prove E f r) (StrictSort.verify E (sameBag f) (sameBag r) : Act (VSt F C B) Unit) fun _ _ => True :=
  (Lock.strictSort E _ _ _ _).lock

/-- Support. -/
theorem C73_supp (f g r : Bag) : Lockstep (Supp.prove E f g r) (Supp.verify E (sameBag f) (sameBag g) (sameBag r) : Act (VSt F C B) Unit) fun _ _ => True :=
  (Lock.supp E _ _ _ _ _ _).lock

/-- Support with given multiplicities. -/
theorem C73_supp_with_advice (f g : Bag) (m : TPoly) (r : Bag) : Lockstep (Supp.proveWithAdvice E f g m r) (Supp.verifyWithAdvice E (sameBag f) (sameBag g) m.id (sameBag r) : Act (VSt F C B) Unit) fun _ _ => True :=
  (Lock.suppAdvice E _ _ _ _ _ _ _ _).lock

/-- Disjoint bags. -/
theorem C73_bag_disjoint (f g r : Bag) : Lockstep (Disjoint.prove E f g r) (Disjoint.verify E (sameBag f) (sameBag g) (sameBag r) : Act (VSt F C B) Unit) fun _ _ => True :=
  (Lock.disjoint E _ _ _ _ _ _).lock

/-- Disjoint bags with given advice. -/
theorem C73_bag_disjoint_with_advice (f g c : Bag) (m n : TPoly) (r : Bag) : Lockstep (Disjoint.proveWithAdvice E f g c m n r) (Disjoint.verifyWithAdvice E (sameBag f) (sameBag g) (sameBag c) m.id n.id (sameBag r) : Act (VSt F C B) Unit) fun _ _ => True :=
  (Lock.disjointAdvice E _ _ _ _ _ _ _ _ _ _ _ _).lock

/-- Disjoint sets. -/
theorem C73_set_disjoint (f g r : Bag) : Lockstep (SetDisjoint.prove E f g r) (SetDisjoint.verify E (sameBag f) (sameBag g) (sameBag r) : Act (VSt F C B) Unit) fun _ _ => True :=
  (Lock.setDisjoint E _ _ _ _ _ _).lock

/-- Set difference. -/
theorem C73_set_diff (f g l m : Bag) (x : TPoly) (r : Bag) : Lockstep (SetDiff.prove E f g l m x r) (SetDiff.verify E (sameBag f) (sameBag g) (sameBag l) (sameBag m) x.id (sameBag r) : Act (VSt F C B) Unit) fun _ _ => True :=
  (Lock.setDiff E _ _ _ _ _ _ _ _ _ _ _ _).lock

/-- Set union. -/
theorem C73_set_union (f g u r : Bag) : Lockstep (SetUnion.prove E f g u r) (SetUnion.verify E (sameBag f) (sameBag g) (sameBag u) (sameBag r) : Act (VSt F C B) Unit) fun _ _ => True :=
  (Lock.setUnion E _ _ _ _ _ _ _ _).lock

/-- Set intersection. -/
theorem C73_set_intersect (f g l m q r : Bag) : Lockstep (SetIntersect.prove E f g l m q r) (SetIntersect.verify E (sameBag f) (sameBag g) (sameBag l) (sameBag m) (sameBag q) (sameBag r) : Act (VSt F C B) Unit) fun _ _ => True :=
  (Lock.setIntersect E _ _ _ _ _ _ _ _ _ _ _ _).lock

/-- Join reduction. -/
theorem C73_join_reduction (f g : Bag) (x y : TPoly) (r : Bag) : Lockstep (JoinReduction.prove E f g x y r) (JoinReduction.verify E (sameBag f) (sameBag g) x.id y.id (sameBag r) : Act (VSt F C B) Unit) fun _ _ => True :=
  (Lock.joinReduction E _ _ _ _ _ _ _ _ _ _).lock

/-- The unused variant of the column coefficients, one challenge per column: both sides get the same list. -/
theorem C73_sampled_rands (n : Nat) : Lockstep (IndexTransform.proverRands E n) (IndexTransform.verifierRands E n : Act (VSt F C B) (List F)) fun x y => x = y :=
  (Lock.rands E n).lock

/-- Index transform. -/
theorem C73_index_transform (a b : Table) : Lockstep (IndexTransform.prove E a b) (IndexTransform.verify E (sameTab a) (sameTab b) : Act (VSt F C B) Unit) fun _ _ => True :=
  (Lock.indexTransform E _ _ _ _ (by simp [sameTab]) (by simp [sameTab])).lock

/-- Cross product: also the returned tables correspond. -/
theorem C73_cross_product (a b : Table) : Lockstep (CrossProduct.prover E a b) (CrossProduct.verifier (sameTab a) (sameTab b) : Act (VSt F C B) TableComm) fun x y => sameTab x = y :=
  (Lock.crossProduct E _ _).lock

/-- One-to-many join: also the returned tables correspond. -/
theorem C73_final_join (a b : Table) (i j : Nat) : Lockstep (FinalJoin.prove E a b i j) (FinalJoin.verify E (sameTab a) (sameTab b) i j : Act (VSt F C B) TableComm) fun x y => sameTab x = y :=
  (Lock.finalJoin E _ _ _ _).lock

/-- One-to-many join with given columns. -/
theorem C73_final_join_with_advice (a b : Table) (i j : Nat) (ta : List TPoly) : Lockstep (FinalJoin.proveWithAdvice E a b i j ta) (FinalJoin.verifyWithAdvice E (sameTab a) (sameTab b) i j (ta.map (·.id)) : Act (VSt F C B) TableComm) fun x y => sameTab x = y :=
  (Lock.finalJoinAdvice E _ _ _ _ _).lock

/-- Group by: the returned tables correspond; the verifier always notes the size of the input table. -/
theorem C73_group_by (a : Table) (i : GroupInstr TPoly) (r : Bag) :
    Lockstep (GroupBy.proveWithAdvice E a i r) (GroupBy.verifyWithAdvice E (sameTab a) (sameInstr i) (sameBag r) : Act (VSt F C B) TableComm)
      fun x y => x.colVals.map (·.id) = y.colVals ∧ x.selector.id = y.selector ∧ y.numVars = a.numVars :=
  (Lock.groupBy E _ _ _ _).lock

namespace REx

/-- Both calls of the support protocol succeed from trackers in step, with the prover's commitments in the proof. -/
example : ∃ (H : Oracle G (Mle G)) (t t' : PTracker G (Mle G)) (s s' : VSt G (Mle G) Unit), FreshIds t ∧ Together t s ∧
    (∀ id c, t'.comms.lookup id = some c → s.own.proof.comms.lookup id = some c) ∧
    Supp.prove (env.withH H) (bag 0 1 1) (bag 2 3 1) (bag 3 1 1) t = (.ok (), t') ∧ Supp.verify (env.withH H) (sameBag (bag 0 1 1)) (sameBag (bag 2 3 1)) (sameBag (bag 3 1 1)) s = (.ok (), s') :=
  both (N := 1) [⟨1, [3, 3]⟩, ⟨1, [1, 1]⟩, ⟨1, [2, 3]⟩, ⟨1, [0, 1]⟩] (by decide) (by decide)
    (fun hr hp => C63_support_complete (f := bag 0 1 1) (Tf := tab ⟨1, [3, 3]⟩ ⟨1, [1, 1]⟩) (g := bag 2 3 1) (Tg := tab ⟨1, [2, 3]⟩ ⟨1, [0, 1]⟩) (range := bag 3 1 1) two_ne (canCommit 1) hr ⟨rfl, rfl, hp 0 _ rfl, hp 1 _ rfl⟩ ⟨rfl, rfl, hp 2 _ rfl, hp 3 _ rfl⟩ (hp 3 _ rfl) rfl (by decide) (by decide) (by decide))
    (by decide)
    ⟨by decide +kernel, by decide +kernel, natsNonzero_mono natsNonzero (by decide), by decide +kernel, by decide +kernel, sortedIn_of (by decide +kernel)⟩
    (fun s k => ⟨⟨k 0 _ rfl, k 1 _ rfl⟩, ⟨k 2 _ rfl, k 3 _ rfl⟩, k 3 _ rfl⟩) (fun s h => ⟨⟨rfl, h 0 _ rfl, h 1 _ rfl⟩, ⟨rfl, h 2 _ rfl, h 3 _ rfl⟩, h 3 _ rfl⟩)

/-- The same for the join reduction. -/
example : ∃ (H : Oracle G (Mle G)) (t t' : PTracker G (Mle G)) (s s' : VSt G (Mle G) Unit), FreshIds t ∧ Together t s ∧
    (∀ id c, t'.comms.lookup id = some c → s.own.proof.comms.lookup id = some c) ∧
    JoinReduction.prove (env.withH H) (bag 0 1 1) (bag 2 1 1) ⟨3, 1⟩ ⟨4, 1⟩ (bag 5 5 2) t = (.ok (), t') ∧ JoinReduction.verify (env.withH H) (sameBag (bag 0 1 1)) (sameBag (bag 2 1 1)) 3 4 (sameBag (bag 5 5 2)) s = (.ok (), s') :=
  both (N := 2) [⟨1, [1, 2]⟩, ⟨1, [1, 1]⟩, ⟨1, [2, 2]⟩, ⟨1, [1, 0]⟩, ⟨1, [0, 0]⟩, ⟨2, [0, 1, 2, 3]⟩] (by decide) (by decide)
    (fun hr hp => C69_join_reduction_complete (f := bag 0 1 1) (Tf := tab ⟨1, [1, 2]⟩ ⟨1, [1, 1]⟩) (g := bag 2 1 1) (Tg := tab ⟨1, [2, 2]⟩ ⟨1, [1, 1]⟩) (lSel := ⟨3, 1⟩) (rSel := ⟨4, 1⟩) (range := bag 5 5 2) (M := 4) two_ne (canCommit 2) hr ⟨rfl, rfl, hp 0 _ rfl, hp 1 _ rfl⟩ ⟨rfl, rfl, hp 2 _ rfl, hp 1 _ rfl⟩ rfl (hp 3 _ rfl) rfl (hp 4 _ rfl) (hp 5 _ rfl) rfl (by decide) (by decide))
    (by decide)
    ⟨canonical, by decide, by decide +kernel, by decide +kernel, by decide +kernel, by decide +kernel, by decide +kernel, by decide +kernel, by decide +kernel, by decide +kernel, by decide +kernel⟩
    (fun s k => ⟨⟨k 0 _ rfl, k 1 _ rfl⟩, ⟨k 2 _ rfl, k 1 _ rfl⟩, k 3 _ rfl, k 4 _ rfl, k 5 _ rfl⟩) (fun s h => ⟨⟨rfl, h 0 _ rfl, h 1 _ rfl⟩, ⟨rfl, h 2 _ rfl, h 1 _ rfl⟩, h 3 _ rfl, h 4 _ rfl, h 5 _ rfl⟩)

end REx
end Zksql
