import Verif.Lemmas.Cost
/-!
Counting on the prover's side.
-/
set_option linter.unusedSectionVars false
namespace Zksql
open Spec
open PTracker (addSumClaim addZeroClaim trackVirt trackMat trackMatArc allocArc materialize increaseNv addSubPolys mulPolys)
variable {F C B : Type} [Field F] [DecidableEq F] {α β : Type}

/-- Commitments have identifiers that have been given out. -/
def GivenP (t : PTracker F C) : Prop := ∀ e ∈ t.comms, e.1 < t.idCounter

/-- Counting on the prover's side. -/
def RP (k : Cost) (s s' : PTracker F C) : Prop := GivenP s → GivenP s' ∧ spent s' = spent s + k

theorem countP : Counting (RP (F := F) (C := C)) where
  refl s h := ⟨h, rfl⟩
  trans h1 h2 h := ⟨(h2 (h1 h).1).1, by rw [(h2 (h1 h).1).2, (h1 h).2, cost_add_assoc]⟩

/-- Successful runs of the prover cost `k`. -/
abbrev CostP (m : Act (PTracker F C) α) (k : Cost) : Prop := CostTo RP m k fun _ => True

namespace CostP
variable {k k' : Cost}
theorem bind {m : Act (PTracker F C) α} {f : α → Act (PTracker F C) β} (h : CostP m k) (hf : ∀ a, CostP (f a) k') : CostP (m >>= f) (k + k') := CostTo.bind' countP h fun a _ => hf a
theorem pure (a : α) : CostP (F := F) (C := C) (Pure.pure a) 0 := CostTo.pure' countP trivial
theorem lift (r : Res α) : CostP (F := F) (C := C) (Act.lift r) 0 := CostTo.lift' countP fun _ _ => trivial
theorem reads (f : PTracker F C → Res α) : CostP (Act.reads f) 0 := CostTo.reads' countP fun _ _ _ => trivial
theorem assert (p : Prop) [Decidable p] : CostP (F := F) (C := C) (Act.assert p) 0 := (CostTo.assert' countP p).weaken fun _ _ => trivial
theorem ite {p : Prop} [Decidable p] {m m' : Act (PTracker F C) α} (h1 : CostP m k) (h2 : CostP m' k) : CostP (if p then m else m') k := CostTo.ite (fun _ => h1) fun _ => h2

theorem ite' {p : Prop} [Decidable p] {m m' : Act (PTracker F C) α} (h2 : CostP m' k) (h1 : CostP m k) : CostP (if p then m else m') k := ite h1 h2

theorem trackVirt (v : VRep F) : CostP (F := F) (C := C) (PTracker.trackVirt v) 0 := .one fun _ h => ⟨fun e he => Nat.lt_succ_of_lt (h e he), rfl⟩
theorem trackMatArc (a : ArcMle F) : CostP (F := F) (C := C) (PTracker.trackMatArc a) 0 := .one fun _ h => ⟨fun e he => Nat.lt_succ_of_lt (h e he), rfl⟩
theorem trackMat (p : Mle F) : CostP (F := F) (C := C) (PTracker.trackMat p) 0 := .one fun _ h => ⟨fun e he => Nat.lt_succ_of_lt (h e he), rfl⟩
theorem allocArc (p : Mle F) : CostP (F := F) (C := C) (PTracker.allocArc p) 0 := .one fun _ h => ⟨h, rfl⟩
theorem materialize (i : Nat) : CostP (F := F) (C := C) (PTracker.materialize i) 0 := .one fun t h => by
  rcases hm : t.mats.lookup i with _ | a
  · rcases hv : t.virts.lookup i with _ | v
    · rw [PTracker.materialize_unknown hm hv]
      exact ⟨h, rfl⟩
    · rcases hr : t.materializeRep v with x | m
      · rw [PTracker.materialize_bad hm hv hr]
        exact ⟨h, rfl⟩
      · rw [PTracker.materialize_virt hm hv hr]
        exact ⟨h, rfl⟩
  · rw [PTracker.materialize_mat hm]
    exact ⟨h, rfl⟩
theorem evaluations' (i : Nat) : CostP (F := F) (C := C) (PTracker.evaluations i) 0 := bind (materialize i) fun _ => bind (reads _) fun _ => pure _
theorem increaseNv (inc : Mle F → Nat → Res (Mle F)) (i k : Nat) : CostP (F := F) (C := C) (PTracker.increaseNv inc i k) 0 := by
  refine bind (materialize i) fun _ => bind (reads _) fun a => bind (k := 0) ?_ fun b => trackMatArc b
  unfold PTracker.incArc
  exact ite (pure _) (bind (lift _) fun _ => allocArc _)
theorem trackAndCommit' (commit : Mle F → Res C) (p : Mle F) : CostP (F := F) (C := C) (PTracker.trackAndCommit commit p) ⟨1, 0, 0, 0⟩ := by
  intro s a s' e
  unfold PTracker.trackAndCommit at e
  obtain ⟨c, s1, e1, e⟩ := Act.bind_eq_ok.1 e
  obtain ⟨-, rfl⟩ := Prod.mk.inj e1
  cases e
  refine ⟨fun h => ?_, trivial⟩
  have e0 : amInsert s.idCounter c s.comms = (s.idCounter, c) :: s.comms := amInsert_fresh _ _ _ fun e he => (h e he).ne
  refine ⟨?_, ?_⟩
  · change ∀ e ∈ amInsert s.idCounter c s.comms, e.1 < s.idCounter + 1
    rw [e0]
    intro e he
    rcases List.mem_cons.1 he with rfl | he
    · exact Nat.lt_succ_self _
    · exact Nat.lt_succ_of_lt (h e he)
  · change (⟨(amInsert s.idCounter c s.comms).length, draws (s.transcript.events ++ [.absorb "comm" (.comm c)]), _, _⟩ : Cost) = _
    rw [e0, draws_absorb]
    rfl
theorem challenge (H : Oracle F C) (l : String) : CostP (F := F) (C := C) (PTracker.challenge H l) ⟨0, 1, 0, 0⟩ := by
  intro s a s' e
  unfold PTracker.challenge at e
  rcases hc : s.transcript.challenge H l with x | ⟨c, tr⟩ <;> rw [hc] at e <;> cases e
  refine ⟨fun h => ⟨h, ?_⟩, trivial⟩
  change (⟨_, draws tr.events, _, _⟩ : Cost) = _
  rw [draws_challenge hc]
  rfl
theorem sumClaim (i : Nat) (v : F) : CostP (F := F) (C := C) (PTracker.addSumClaim i v) ⟨0, 0, 0, 1⟩ := .one fun s h => ⟨h, by
  change (⟨_, _, _, (s.sumClaims ++ [(i, v)]).length⟩ : Cost) = _
  rw [List.length_append]
  rfl⟩
theorem zeroClaim (i : Nat) : CostP (F := F) (C := C) (PTracker.addZeroClaim i) ⟨0, 0, 1, 0⟩ := .one fun s h => ⟨h, by
  change (⟨_, _, (s.zeroClaims ++ [i]).length, _⟩ : Cost) = _
  rw [List.length_append]
  rfl⟩
theorem addSubPolys (i j : Nat) (s : Bool) : CostP (F := F) (C := C) (PTracker.addSubPolys i j s) 0 := bind (reads _) fun _ => trackVirt _
theorem mulPolys (i j : Nat) : CostP (F := F) (C := C) (PTracker.mulPolys i j) 0 := bind (reads _) fun _ => trackVirt _
theorem mulScalar' (i : Nat) (c : F) : CostP (F := F) (C := C) (PTracker.mulScalar i c) 0 := bind (reads _) fun _ => trackVirt _
theorem addScalar' (i : Nat) (c : F) : CostP (F := F) (C := C) (PTracker.addScalar i c) 0 :=
  bind (reads _) fun _ => bind (lift _) fun _ => bind (trackMat _) fun _ => addSubPolys _ _ _

theorem track (p : Mle F) : CostP (F := F) (C := C) (TPoly.trackMat p) 0 := bind (trackMat p) fun _ => pure _
theorem commit (cm : Mle F → Res C) (p : Mle F) : CostP (F := F) (C := C) (TPoly.trackAndCommit cm p) ⟨1, 0, 0, 0⟩ := bind (trackAndCommit' cm p) fun _ => pure _
theorem add (a b : TPoly) : CostP (F := F) (C := C) (a.add b) 0 := bind (assert _) fun _ => bind (addSubPolys _ _ _) fun _ => pure _
theorem sub (a b : TPoly) : CostP (F := F) (C := C) (a.sub b) 0 := bind (assert _) fun _ => bind (addSubPolys _ _ _) fun _ => pure _
theorem mul (a b : TPoly) : CostP (F := F) (C := C) (a.mul b) 0 := bind (assert _) fun _ => bind (mulPolys _ _) fun _ => pure _
theorem addScalar (a : TPoly) (c : F) : CostP (F := F) (C := C) (a.addScalar c) 0 := bind (addScalar' _ _) fun _ => pure _
theorem mulScalar (a : TPoly) (c : F) : CostP (F := F) (C := C) (a.mulScalar c) 0 := bind (mulScalar' _ _) fun _ => pure _
theorem incFront (a : TPoly) (k : Nat) : CostP (F := F) (C := C) (a.incFront k) 0 := bind (increaseNv _ _ _) fun _ => pure _
theorem incBack (a : TPoly) (k : Nat) : CostP (F := F) (C := C) (a.incBack k) 0 := bind (increaseNv _ _ _) fun _ => pure _
theorem evaluations (a : TPoly) : CostP (F := F) (C := C) a.evaluations 0 := evaluations' _

variable (E : Env F C)

syntax "pcosts_call" : tactic
macro_rules | `(tactic| pcosts_call) => `(tactic| fail "no rule")

/-- All steps of a call. -/
macro "pcosts" : tactic => `(tactic| (
  apply CostTo.eq
  on_goal 1 => (
    repeat (first
    | with_reducible exact CostTo.fail _ | with_reducible exact pure _ | with_reducible exact lift _ | with_reducible exact assert _
    | with_reducible exact zeroClaim _ | with_reducible exact sumClaim _ _ | with_reducible exact challenge _ _
    | with_reducible exact track _ | with_reducible exact commit _ _ | with_reducible exact evaluations _
    | with_reducible exact add _ _ | with_reducible exact sub _ _ | with_reducible exact mul _ _ | with_reducible exact mulScalar _ _
    | with_reducible exact addScalar _ _ | with_reducible exact incFront _ _ | with_reducible exact incBack _ _
    | pcosts_call
    | (with_reducible apply bind)
    | (with_reducible apply ite')
    | intro _))))

theorem bagNew (d : Bool) (a b : TPoly) : CostP (F := F) (C := C) (Bag.new d a b) 0 := by
  unfold Bag.new
  pcosts
  rfl
macro_rules | `(tactic| pcosts_call) => `(tactic| with_reducible exact CostP.bagNew _ _ _)

theorem tableNew (d : Bool) (a : List TPoly) (b : TPoly) : CostP (F := F) (C := C) (Table.new d a b) 0 := by
  unfold Table.new
  pcosts
  rfl
macro_rules | `(tactic| pcosts_call) => `(tactic| with_reducible exact CostP.tableNew _ _ _)

theorem proveSub (b : Bag) (m : TPoly) (γ : F) : CostP (F := F) (C := C) (Multitool.proveSub E b m γ) ⟨1, 0, 1, 1⟩ := by
  unfold Multitool.proveSub
  pcosts
  rfl

theorem proveSubs (γ : F) : ∀ l : List (Bag × TPoly), CostP (F := F) (C := C) (Multitool.proveSubs E γ l) ⟨l.length, 0, l.length, l.length⟩
  | [] => pure _
  | (b, m) :: r => by
    refine (bind (proveSub E b m γ) fun _ => proveSubs γ r).eq ?_
    simp only [cost_add, List.length_cons]
    ext <;> dsimp only <;> omega

theorem multitool (fxs gxs : List Bag) (mf mg : List TPoly) :
    CostP (F := F) (C := C) (Multitool.prove E fxs gxs mf mg) ⟨fxs.length + gxs.length, 1, fxs.length + gxs.length, fxs.length + gxs.length⟩ := by
  unfold Multitool.prove
  refine CostTo.ite (fun _ => CostTo.fail _) fun h1 => CostTo.ite (fun _ => CostTo.fail _) fun h2 => ?_
  have e1 : fxs.length = mf.length := by
    by_contra h
    exact h1 (by simp [Multitool.shapeOk, h])
  have e2 : gxs.length = mg.length := by
    by_contra h
    exact h2 (by simp [Multitool.shapeOk, h])
  refine (bind (challenge _ _) fun γ => bind (proveSubs E _ _) fun _ => proveSubs E _ _).eq ?_
  simp only [cost_add, List.length_zip, ← e1, ← e2, Nat.min_self]
  ext <;> dsimp only <;> omega
macro_rules | `(tactic| pcosts_call) => `(tactic| with_reducible exact CostP.multitool _ _ _ _ _)

theorem bagEq (a b : Bag) : CostP (F := F) (C := C) (BagEq.prove E a b) ⟨2, 1, 2, 2⟩ := by
  unfold BagEq.prove
  pcosts
  rfl
macro_rules | `(tactic| pcosts_call) => `(tactic| with_reducible exact CostP.bagEq _ _ _)

theorem bagSum (a b c : Bag) : CostP (F := F) (C := C) (BagSum.prove E a b c) ⟨3, 1, 3, 3⟩ := by
  unfold BagSum.prove
  pcosts
  rfl
macro_rules | `(tactic| pcosts_call) => `(tactic| with_reducible exact CostP.bagSum _ _ _ _)

theorem noZeros (b : Bag) : CostP (F := F) (C := C) (NoZeros.prove E b) ⟨1, 0, 1, 0⟩ := by
  unfold NoZeros.prove
  pcosts
  rfl
macro_rules | `(tactic| pcosts_call) => `(tactic| with_reducible exact CostP.noZeros _ _)

theorem selector (s : TPoly) : CostP (F := F) (C := C) (SelectorValid.prove s) ⟨0, 0, 1, 0⟩ := by
  unfold SelectorValid.prove
  pcosts
  rfl
macro_rules | `(tactic| pcosts_call) => `(tactic| with_reducible exact CostP.selector _)

theorem incAdvice (a b : Bag) : CostP (F := F) (C := C) (Inclusion.advice a b) 0 := by
  unfold Inclusion.advice
  pcosts
  rfl
macro_rules | `(tactic| pcosts_call) => `(tactic| with_reducible exact CostP.incAdvice _ _)

theorem inclusionAdvice (a b : Bag) (m : TPoly) : CostP (F := F) (C := C) (Inclusion.proveWithAdvice E a b m) ⟨2, 1, 2, 2⟩ := by
  unfold Inclusion.proveWithAdvice
  pcosts
  rfl
macro_rules | `(tactic| pcosts_call) => `(tactic| with_reducible exact CostP.inclusionAdvice _ _ _ _)

theorem inclusion (a b : Bag) : CostP (F := F) (C := C) (Inclusion.prove E a b) ⟨3, 1, 2, 2⟩ := by
  unfold Inclusion.prove
  pcosts
  rfl
macro_rules | `(tactic| pcosts_call) => `(tactic| with_reducible exact CostP.inclusion _ _ _)

theorem permutation (a b : Bag) (p : TPoly) : CostP (F := F) (C := C) (PrescPerm.prove E a b p) ⟨4, 2, 4, 2⟩ := by
  unfold PrescPerm.prove
  pcosts
  rfl
macro_rules | `(tactic| pcosts_call) => `(tactic| with_reducible exact CostP.permutation _ _ _ _)

theorem debugDiff (d : Bool) (a : TPoly) (l : List F) : CostP (F := F) (C := C) (StrictSort.debugDiff d a l) 0 := by
  unfold StrictSort.debugDiff
  exact ite (bind (evaluations _) fun _ => assert _) (pure _)
macro_rules | `(tactic| pcosts_call) => `(tactic| with_reducible exact CostP.debugDiff _ _ _)

theorem sort (a r : Bag) : CostP (F := F) (C := C) (StrictSort.prove E a r) ⟨9, 3, 7, 4⟩ := by
  unfold StrictSort.prove
  pcosts
  rfl
macro_rules | `(tactic| pcosts_call) => `(tactic| with_reducible exact CostP.sort _ _ _)

theorem suppAdvice (a b : Bag) (m : TPoly) (r : Bag) : CostP (F := F) (C := C) (Supp.proveWithAdvice E a b m r) ⟨12, 4, 10, 6⟩ := by
  unfold Supp.proveWithAdvice
  pcosts
  rfl
macro_rules | `(tactic| pcosts_call) => `(tactic| with_reducible exact CostP.suppAdvice _ _ _ _ _)

theorem supp (a b r : Bag) : CostP (F := F) (C := C) (Supp.prove E a b r) ⟨13, 4, 10, 6⟩ := by
  unfold Supp.prove
  pcosts
  rfl
macro_rules | `(tactic| pcosts_call) => `(tactic| with_reducible exact CostP.supp _ _ _ _)

theorem bagCount (a : Bag) : CostP (F := F) (C := C) (Disjoint.bagCount a) 0 := by
  unfold Disjoint.bagCount
  pcosts
  rfl
macro_rules | `(tactic| pcosts_call) => `(tactic| with_reducible exact CostP.bagCount _)

theorem disjointAdvice (a b : Bag) : CostP (F := F) (C := C) (Disjoint.advice E a b) 0 := by
  unfold Disjoint.advice
  dsimp only
  pcosts
  rfl
macro_rules | `(tactic| pcosts_call) => `(tactic| with_reducible exact CostP.disjointAdvice _ _ _)

theorem disjointWith (a b c : Bag) (m n : TPoly) (r : Bag) : CostP (F := F) (C := C) (Disjoint.proveWithAdvice E a b c m n r) ⟨13, 5, 12, 8⟩ := by
  unfold Disjoint.proveWithAdvice
  pcosts
  rfl
macro_rules | `(tactic| pcosts_call) => `(tactic| with_reducible exact CostP.disjointWith _ _ _ _ _ _ _)

theorem disjoint (a b r : Bag) : CostP (F := F) (C := C) (Disjoint.prove E a b r) ⟨17, 5, 12, 8⟩ := by
  unfold Disjoint.prove
  pcosts
  rfl
macro_rules | `(tactic| pcosts_call) => `(tactic| with_reducible exact CostP.disjoint _ _ _ _)

theorem setDisjoint (a b r : Bag) : CostP (F := F) (C := C) (SetDisjoint.prove E a b r) ⟨14, 4, 10, 7⟩ := by
  unfold SetDisjoint.prove
  dsimp only
  pcosts
  rfl
macro_rules | `(tactic| pcosts_call) => `(tactic| with_reducible exact CostP.setDisjoint _ _ _ _)

theorem setDiff (a b l m : Bag) (bm : TPoly) (r : Bag) : CostP (F := F) (C := C) (SetDiff.prove E a b l m bm r) ⟨19, 6, 15, 12⟩ := by
  unfold SetDiff.prove
  pcosts
  rfl

theorem setUnion (a b u r : Bag) : CostP (F := F) (C := C) (SetUnion.prove E a b u r) ⟨18, 5, 13, 9⟩ := by
  unfold SetUnion.prove
  dsimp only
  pcosts
  rfl

theorem setIntersect (a b l m r x : Bag) : CostP (F := F) (C := C) (SetIntersect.prove E a b l m r x) ⟨20, 6, 16, 13⟩ := by
  unfold SetIntersect.prove
  pcosts
  rfl

theorem joinReduction (a b : Bag) (l r : TPoly) (x : Bag) : CostP (F := F) (C := C) (JoinReduction.prove E a b l r x) ⟨57, 17, 42, 28⟩ := by
  unfold JoinReduction.prove
  pcosts
  rfl

theorem powers (n : Nat) : CostP (F := F) (C := C) (IndexTransform.proverPowers E n) ⟨0, 1, 0, 0⟩ := by
  unfold IndexTransform.proverPowers
  pcosts
  rfl
macro_rules | `(tactic| pcosts_call) => `(tactic| with_reducible exact CostP.powers _ _)

theorem aggLoop : ∀ (acc : TPoly) (cs : List TPoly) (rs : List F), CostP (F := F) (C := C) (IndexTransform.proverAggLoop acc cs rs) 0
  | _, [], _ => pure _
  | _, _ :: _, [] => lift _
  | _, _ :: cs, _ :: rs => bind (mulScalar _ _) fun _ => bind (mul _ _) fun _ => aggLoop _ cs rs
macro_rules | `(tactic| pcosts_call) => `(tactic| with_reducible exact CostP.aggLoop _ _ _)

theorem agg (t : Table) (l : List F) : CostP (F := F) (C := C) (IndexTransform.proverAgg E t l) 0 := by
  unfold IndexTransform.proverAgg
  pcosts
  rfl
macro_rules | `(tactic| pcosts_call) => `(tactic| with_reducible exact CostP.agg _ _ _)

theorem indexTransform (a b : Table) : CostP (F := F) (C := C) (IndexTransform.prove E a b) ⟨3, 2, 2, 2⟩ := by
  unfold IndexTransform.prove
  pcosts
  rfl
macro_rules | `(tactic| pcosts_call) => `(tactic| with_reducible exact CostP.indexTransform _ _ _)

theorem transform (a b : Table) (i j : Nat) : CostP (F := F) (C := C) (FinalJoin.transform a b i j) 0 := by
  unfold FinalJoin.transform
  pcosts
  rfl

theorem applyTransform (ks : List Nat) (o a : TPoly) : CostP (F := F) (C := C) (FinalJoin.applyTransform E ks o a) 0 :=
  bind (evaluations _) fun _ => bind (evaluations _) fun _ => bind (assert _) fun _ => bind (lift _) fun _ => lift _
theorem applyAll (ks : List Nat) (a : TPoly) : ∀ l : List TPoly, CostTo RP (FinalJoin.applyAll (F := F) (C := C) E ks a l) 0 fun r => r.length = l.length
  | [] => CostTo.pure' countP rfl
  | _ :: r => CostTo.bind' countP (applyTransform E _ _ _) fun _ _ => CostTo.bind' countP (applyAll ks a r) fun _ h => CostTo.pure' countP (congrArg (· + 1) h)
theorem commitAll : ∀ l : List (Mle F), CostP (F := F) (C := C) (FinalJoin.commitAll E l) ⟨l.length, 0, 0, 0⟩
  | [] => pure _
  | _ :: r => (bind (commit _ _) fun _ => bind (commitAll r) fun _ => pure _).eq (by
      simp only [cost_add, cost_zero, List.length_cons]
      ext <;> dsimp only <;> omega)
theorem debugKeys (a : Table) (i : Nat) : CostP (F := F) (C := C) (FinalJoin.debugKeys E a i) 0 := by
  unfold FinalJoin.debugKeys
  exact ite (bind (lift _) fun _ => bind (evaluations _) fun _ => ite (pure _) (lift _)) (pure _)
macro_rules | `(tactic| pcosts_call) => `(tactic| with_reducible exact CostP.debugKeys _ _ _)

theorem joinAdvice (a b : Table) (i j : Nat) (l : List TPoly) : CostP (F := F) (C := C) (FinalJoin.proveWithAdvice E a b i j l) ⟨3, 2, 3, 2⟩ := by
  unfold FinalJoin.proveWithAdvice
  pcosts
  rfl

theorem join (a b : Table) (i j : Nat) : CostP (F := F) (C := C) (FinalJoin.prove E a b i j) ⟨a.colVals.length + 3, 2, 3, 2⟩ :=
  (bind (transform _ _ _ _) fun ks => CostTo.bind' (k' := ⟨a.colVals.length + 3, 2, 3, 2⟩) countP (applyAll E ks _ _) fun l hl => (bind (commitAll E _) fun _ => joinAdvice E _ _ _ _ _).eq (by simp [cost_add, hl])).eq
    (by rw [cost_zero_add, cost_zero_add])

theorem aggs (inp : Table) (pre grp : Bag) (mult : TPoly) : ∀ (l : List (Nat × AggType × TPoly)) (cols : List TPoly),
    CostP (F := F) (C := C) (GroupBy.proveAggs E inp pre grp mult l cols) (CostV.aggCost l)
  | [], _ => pure _
  | (_, .count, _) :: r, cols => by
    unfold GroupBy.proveAggs
    exact (aggs inp pre grp mult r _).eq (by simp [CostV.aggCost])
  | (_, .sum, _) :: r, cols => by
    unfold GroupBy.proveAggs
    refine (bind (lift _) fun _ => bind (multitool E _ _ _ _) fun _ => aggs inp pre grp mult r _).eq ?_
    simp only [CostV.aggCost, cost_add, cost_zero, List.countP_cons, decide_true, if_true, List.length_singleton]
    ext <;> dsimp only <;> omega
  | (_, .avg, _) :: _, _ => CostTo.fail _
  | (_, .min, _) :: _, _ => CostTo.fail _
  | (_, .max, _) :: _, _ => CostTo.fail _

theorem groupBy (inp : Table) (i : GroupInstr TPoly) (r : Bag) :
    CostP (F := F) (C := C) (GroupBy.proveWithAdvice E inp i r) (⟨12, 4, 10, 6⟩ + CostV.aggCost i.aggs) := by
  unfold GroupBy.proveWithAdvice
  refine (bind (lift _) fun gs => ?_).eq (cost_zero_add _)
  obtain ⟨g, sp⟩ := gs
  dsimp only
  apply CostTo.eq
  on_goal 1 => (
    repeat (first
    | with_reducible exact suppAdvice _ _ _ _ _ | with_reducible exact aggs _ _ _ _ _ _ _ | with_reducible exact bagNew _ _ _ | with_reducible exact tableNew _ _ _
    | with_reducible exact pure _ | with_reducible exact lift _ | (with_reducible apply bind) | intro _))
  simp only [cost_zero_add, cost_add_zero]

theorem check : ∀ c : Check TPoly, CostP (F := F) (C := C) (c.prove E) c.cost
  | .multiset _ _ => (multitool E _ _ _ _).eq (by simp [Check.cost])
  | .bagEq _ _ => bagEq E _ _
  | .bagSum _ _ _ => bagSum E _ _ _
  | .inclusion _ _ => inclusion E _ _
  | .inclusionAdvice _ _ _ => inclusionAdvice E _ _ _
  | .noZeros _ => noZeros E _
  | .selector _ => selector _
  | .permutation _ _ _ => permutation E _ _ _
  | .sort _ _ => sort E _ _
  | .support _ _ _ => supp E _ _ _
  | .supportAdvice _ _ _ _ => suppAdvice E _ _ _ _
  | .disjoint _ _ _ => disjoint E _ _ _
  | .setDisjoint _ _ _ => setDisjoint E _ _ _
  | .union _ _ _ _ => setUnion E _ _ _ _
  | .diff _ _ _ _ _ _ => setDiff E _ _ _ _ _ _
  | .intersect _ _ _ _ _ _ => setIntersect E _ _ _ _ _ _
  | .joinReduction _ _ _ _ _ => joinReduction E _ _ _ _ _
  | .indexTransform _ _ => indexTransform E _ _
  | .joinAdvice _ _ _ _ _ => bind (joinAdvice E _ _ _ _ _) fun _ => pure _
  | .groupBy inp key grp mult as range => (bind (groupBy E _ _ _) fun _ => pure _).eq (by
      simp [Check.cost, CostV.aggCost, cost_add, cost_zero, requestOf])

theorem proveAll : ∀ (prog : List (Step F)) (hs : List TPoly), CostP (F := F) (C := C) (Step.proveAll E prog hs) (Step.costAll prog)
  | [], _ => pure _
  | .commit _ :: r, _ => bind (commit _ _) fun _ => proveAll r _
  | .add _ _ :: r, _ => bind (add _ _) fun _ => proveAll r _
  | .sub _ _ :: r, _ => bind (sub _ _) fun _ => proveAll r _
  | .mul _ _ :: r, _ => bind (mul _ _) fun _ => proveAll r _
  | .addScalar _ _ :: r, _ => bind (addScalar _ _) fun _ => proveAll r _
  | .mulScalar _ _ :: r, _ => bind (mulScalar _ _) fun _ => proveAll r _
  | .check c :: r, _ => (bind (check E _) fun _ => proveAll r _).eq (by rw [CostV.cost_map]; rfl)
  | .join a _ _ _ :: r, _ => (bind (join E _ _ _ _) fun _ => proveAll r _).eq (by
      simp only [tableOf, List.length_map]
      rfl)

end CostP
end Zksql
