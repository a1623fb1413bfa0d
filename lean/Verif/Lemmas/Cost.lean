import Verif.Spec.Cost
import Verif.Lemmas.ShapeOps
import Verif.Lemmas.OnlineP
/-!
Counting commitments, challenges and claims of successful runs.
-/
set_option linter.unusedSectionVars false
namespace Zksql
open Spec
variable {F C B : Type} [Field F] [DecidableEq F] {α β : Type}

theorem cost_add (a b : Cost) : a + b = ⟨a.commits + b.commits, a.draws + b.draws, a.zeros + b.zeros, a.sums + b.sums⟩ := rfl
theorem cost_zero : (0 : Cost) = ⟨0, 0, 0, 0⟩ := rfl
theorem cost_add_zero (a : Cost) : a + 0 = a := rfl
theorem cost_zero_add (a : Cost) : 0 + a = a := by
  rw [cost_add, cost_zero]
  simp
theorem cost_add_assoc (a b c : Cost) : a + b + c = a + (b + c) := by
  simp only [cost_add, Nat.add_assoc]

/-- Successful runs cost `k` and return something with `Q`. -/
def CostTo {S : Type} (R : Cost → S → S → Prop) (m : Act S α) (k : Cost) (Q : α → Prop) : Prop := ∀ s a s', m s = (.ok a, s') → R k s s' ∧ Q a

/-- A way of counting. -/
structure Counting {S : Type} (R : Cost → S → S → Prop) : Prop where
  refl : ∀ s, R 0 s s
  trans : ∀ {k k' s s' s''}, R k s s' → R k' s' s'' → R (k + k') s s''

namespace CostTo
variable {S : Type} {R : Cost → S → S → Prop} {k k' : Cost} {Q : α → Prop} {Q' : β → Prop}

theorem eq {m : Act S α} (h : CostTo R m k Q) (e : k = k') : CostTo R m k' Q := e ▸ h
theorem weaken {m : Act S α} {Q2 : α → Prop} (h : CostTo R m k Q) (hq : ∀ a, Q a → Q2 a) : CostTo R m k Q2 := fun s a s' e => ⟨(h s a s' e).1, hq a (h s a s' e).2⟩
theorem bind' (hR : Counting R) {m : Act S α} {f : α → Act S β} (h : CostTo R m k Q) (hf : ∀ a, Q a → CostTo R (f a) k' Q') : CostTo R (m >>= f) (k + k') Q' := by
  intro s b s'' e
  obtain ⟨a, s', e1, e2⟩ := Act.bind_eq_ok.1 e
  obtain ⟨h1, h2⟩ := h _ _ _ e1
  obtain ⟨h3, h4⟩ := hf a h2 _ _ _ e2
  exact ⟨hR.trans h1 h3, h4⟩
theorem pure' (hR : Counting R) {a : α} (h : Q a) : CostTo R (Pure.pure a : Act S α) 0 Q := by
  intro s b s' e
  cases e
  exact ⟨hR.refl s, h⟩
theorem lift' (hR : Counting R) {r : Res α} (h : ∀ a, r = .ok a → Q a) : CostTo R (Act.lift r : Act S α) 0 Q := by
  intro s b s' e
  cases e
  exact ⟨hR.refl s, h b rfl⟩
theorem fail (x : Fail) : CostTo R (Act.lift (.error x) : Act S α) k Q := fun s a s' e => by cases e
theorem reads' (hR : Counting R) {f : S → Res α} (h : ∀ s a, f s = .ok a → Q a) : CostTo R (Act.reads f : Act S α) 0 Q := by
  intro s b s' e
  rw [Act.reads_run] at e
  obtain ⟨e1, rfl⟩ := Prod.mk.inj e
  exact ⟨hR.refl s, h s b e1⟩
theorem assert' (hR : Counting R) (p : Prop) [Decidable p] : CostTo R (Act.assert p : Act S Unit) 0 fun _ => p := by
  intro s b s' e
  unfold Act.assert at e
  split_ifs at e with hp
  · cases e
    exact ⟨hR.refl s, hp⟩
  · cases e
theorem expect {m : Act S α} (h : CostTo R m k Q) : CostTo R (Act.expect m) k Q := by
  intro s b s' e
  unfold Act.expect at e
  rcases hm : m s with ⟨_ | a, s2⟩ <;> rw [hm] at e <;> cases e
  exact h _ _ _ hm
theorem ite {p : Prop} [Decidable p] {m m' : Act S α} (h1 : p → CostTo R m k Q) (h2 : ¬p → CostTo R m' k Q) : CostTo R (if p then m else m') k Q := by
  split_ifs with hp
  · exact h1 hp
  · exact h2 hp
/-- A step that does one thing. -/
theorem one {m : Act S α} (h : ∀ s, R k s (m s).2) : CostTo R m k fun _ => True := by
  intro s a s' e
  have := h s
  rw [e] at this
  exact ⟨this, trivial⟩

end CostTo

theorem draws_absorb (h : List (TEvent F C)) (l : String) (d : TItem F C) : draws (h ++ [.absorb l d]) = draws h := by
  unfold draws
  rw [List.countP_append]
  rfl
theorem draws_squeeze (h : List (TEvent F C)) (l : String) : draws (h ++ [.squeeze l]) = draws h + 1 := by
  unfold draws
  rw [List.countP_append]
  rfl
theorem draws_challenge {H : Oracle F C} {t t' : Transcript F C} {l : String} {c : F} (h : t.challenge H l = .ok (c, t')) : draws t'.events = draws t.events + 1 := by
  unfold Transcript.challenge at h
  split_ifs at h
  obtain ⟨-, rfl⟩ := Prod.mk.inj (Except.ok.inj h)
  change draws (_ ++ _) = _
  rw [draws_absorb, draws_squeeze]

/-! ### Verifier -/

/-- Commitments have identifiers that have been given out. -/
def GivenV (s : VSt F C B) : Prop := ∀ e ∈ s.own.matComms, e.1 < s.own.idCounter

/-- Counting on the verifier's side. -/
def RV (k : Cost) (s s' : VSt F C B) : Prop := GivenV s → GivenV s' ∧ spentV s' = spentV s + k

theorem countV : Counting (RV (F := F) (C := C) (B := B)) where
  refl s h := ⟨h, rfl⟩
  trans h1 h2 h := ⟨(h2 (h1 h).1).1, by rw [(h2 (h1 h).1).2, (h1 h).2, cost_add_assoc]⟩

/-- Successful runs of the verifier cost `k`. -/
abbrev CostV (m : Act (VSt F C B) α) (k : Cost) : Prop := CostTo RV m k fun _ => True

namespace CostV
variable {k k' : Cost}
theorem bind {m : Act (VSt F C B) α} {f : α → Act (VSt F C B) β} (h : CostV m k) (hf : ∀ a, CostV (f a) k') : CostV (m >>= f) (k + k') := CostTo.bind' countV h fun a _ => hf a
theorem pure (a : α) : CostV (F := F) (C := C) (B := B) (Pure.pure a) 0 := CostTo.pure' countV trivial
theorem lift (r : Res α) : CostV (F := F) (C := C) (B := B) (Act.lift r) 0 := CostTo.lift' countV fun _ _ => trivial
theorem reads (f : VSt F C B → Res α) : CostV (Act.reads f) 0 := CostTo.reads' countV fun _ _ _ => trivial
theorem assert (p : Prop) [Decidable p] : CostV (F := F) (C := C) (B := B) (Act.assert p) 0 := (CostTo.assert' countV p).weaken fun _ _ => trivial
theorem ite {p : Prop} [Decidable p] {m m' : Act (VSt F C B) α} (h1 : CostV m k) (h2 : CostV m' k) : CostV (if p then m else m') k := CostTo.ite (fun _ => h1) fun _ => h2

theorem nextId : CostV (F := F) (C := C) (B := B) VSt.getNextId 0 := .one fun _ h => ⟨h, rfl⟩
theorem genId : CostV (F := F) (C := C) (B := B) VSt.genId 0 := .one fun _ h => ⟨fun e he => Nat.lt_succ_of_lt (h e he), rfl⟩
theorem virtual (c : VComm F) : CostV (F := F) (C := C) (B := B) (VSt.trackVirtual c) 0 := .one fun _ h => ⟨fun e he => Nat.lt_succ_of_lt (h e he), rfl⟩
theorem trackMat (c : C) : CostV (F := F) (C := C) (B := B) (VSt.trackMatComm c) ⟨1, 0, 0, 0⟩ := .one fun s h => by
  have e0 : amInsert s.own.idCounter c s.own.matComms = (s.own.idCounter, c) :: s.own.matComms := amInsert_fresh _ _ _ fun e he => (h e he).ne
  refine ⟨?_, ?_⟩
  · change ∀ e ∈ amInsert s.own.idCounter c s.own.matComms, e.1 < s.own.idCounter + 1
    rw [e0]
    intro e he
    rcases List.mem_cons.1 he with rfl | he
    · exact Nat.lt_succ_self _
    · exact Nat.lt_succ_of_lt (h e he)
  · change (⟨(amInsert s.own.idCounter c s.own.matComms).length, draws (s.own.transcript.events ++ [.absorb "comm" (.comm c)]), _, _⟩ : Cost) = _
    rw [e0, draws_absorb]
    rfl
theorem add (i j : Nat) : CostV (F := F) (C := C) (B := B) (VSt.addComms i j) 0 := virtual _
theorem sub (i j : Nat) : CostV (F := F) (C := C) (B := B) (VSt.subComms i j) 0 := virtual _
theorem mul (i j : Nat) : CostV (F := F) (C := C) (B := B) (VSt.mulComms i j) 0 := virtual _
theorem mulScalar (i : Nat) (c : F) : CostV (F := F) (C := C) (B := B) (VSt.mulScalar i c) 0 := virtual _
theorem incFront (i k : Nat) : CostV (F := F) (C := C) (B := B) (VSt.incFront i k) 0 := virtual _
theorem incBack (i k : Nat) : CostV (F := F) (C := C) (B := B) (VSt.incBack i k) 0 := virtual _
theorem addScalar (i : Nat) (c : F) : CostV (F := F) (C := C) (B := B) (VSt.addScalar i c) 0 := bind genId fun _ => virtual _
theorem transfer (d : Bool) (i : Nat) : CostV (F := F) (C := C) (B := B) (VSt.transferComm d i) ⟨1, 0, 0, 0⟩ :=
  bind (reads _) fun _ => bind (CostTo.expect (trackMat _)) fun _ => bind (assert _) fun _ => pure _
theorem challenge (H : Oracle F C) (l : String) : CostV (F := F) (C := C) (B := B) (VSt.challenge H l) ⟨0, 1, 0, 0⟩ := by
  intro s a s' e
  unfold VSt.challenge at e
  rcases hc : s.own.transcript.challenge H l with x | ⟨c, tr⟩ <;> rw [hc] at e <;> cases e
  refine ⟨fun h => ⟨h, ?_⟩, trivial⟩
  change (⟨_, draws tr.events, _, _⟩ : Cost) = _
  rw [draws_challenge hc]
  rfl
theorem sumClaim (i : Nat) (v : F) : CostV (F := F) (C := C) (B := B) (VSt.addSumClaim i v) ⟨0, 0, 0, 1⟩ := .one fun s h => ⟨h, by
  change (⟨_, _, _, (s.own.sumClaims ++ [(i, v)]).length⟩ : Cost) = _
  rw [List.length_append]
  rfl⟩
theorem zeroClaim (i : Nat) : CostV (F := F) (C := C) (B := B) (VSt.addZeroClaim i) ⟨0, 0, 1, 0⟩ := .one fun s h => ⟨h, by
  change (⟨_, _, (s.own.zeroClaims ++ [i]).length, _⟩ : Cost) = _
  rw [List.length_append]
  rfl⟩
theorem claimedSum (i : Nat) : CostV (F := F) (C := C) (B := B) (VSt.claimedSum i) 0 := reads _

variable (E : Env F C)

syntax "vcosts_call" : tactic
macro_rules | `(tactic| vcosts_call) => `(tactic| fail "no rule")

/-- All steps of a call. -/
macro "vcosts" : tactic => `(tactic| (
  apply CostTo.eq
  on_goal 1 => (
    repeat (first
    | with_reducible exact CostTo.fail _ | with_reducible exact pure _ | with_reducible exact lift _ | with_reducible exact nextId | with_reducible exact claimedSum _
    | with_reducible exact zeroClaim _ | with_reducible exact sumClaim _ _ | with_reducible exact challenge _ _ | with_reducible exact virtual _
    | with_reducible exact add _ _ | with_reducible exact sub _ _ | with_reducible exact mul _ _ | with_reducible exact mulScalar _ _
    | with_reducible exact addScalar _ _ | with_reducible exact transfer _ _ | with_reducible exact incFront _ _ | with_reducible exact incBack _ _
    | vcosts_call
    | (with_reducible apply bind)
    | (with_reducible apply ite)
    | intro _))))

theorem verifySub (b : BagComm) (m : Nat) (γ : F) : CostV (F := F) (C := C) (B := B) (Multitool.verifySub E b m γ) ⟨1, 0, 1, 1⟩ := by
  unfold Multitool.verifySub
  vcosts
  rfl
macro_rules | `(tactic| vcosts_call) => `(tactic| with_reducible exact CostV.verifySub _ _ _ _)

theorem verifySubs (γ : F) (t : Nat) : ∀ (l : List (BagComm × Nat)) (acc : F), CostV (F := F) (C := C) (B := B) (Multitool.verifySubs E γ t l acc) ⟨l.length, 0, l.length, l.length⟩
  | [], _ => pure _
  | (b, m) :: r, acc => by
    unfold Multitool.verifySubs
    have ih := fun acc => verifySubs γ t r acc
    refine (bind (verifySub E _ _ _) fun _ => bind (lift _) fun _ => ih _).eq ?_
    simp only [cost_add, cost_zero, List.length_cons]
    ext <;> dsimp only <;> omega

theorem multitool (fxs gxs : List BagComm) (mf mg : List Nat) :
    CostV (F := F) (C := C) (B := B) (Multitool.verify E fxs gxs mf mg) ⟨fxs.length + gxs.length, 1, fxs.length + gxs.length, fxs.length + gxs.length⟩ := by
  unfold Multitool.verify
  refine CostTo.ite (fun _ => CostTo.fail _) fun h1 => CostTo.ite (fun _ => CostTo.fail _) fun h2 => ?_
  simp only [Bool.or_eq_true, bne_iff_ne, ne_eq, not_or, not_not] at h1 h2
  refine (bind (challenge _ _) fun γ => bind (verifySubs E _ _ _ _) fun _ => bind (verifySubs E _ _ _ _) fun _ => ite (pure _) (CostTo.fail _)).eq ?_
  simp only [cost_add, cost_zero, List.length_zip, ← h1.2, ← h2.2, Nat.min_self]
  ext <;> dsimp only <;> omega
macro_rules | `(tactic| vcosts_call) => `(tactic| with_reducible exact CostV.multitool _ _ _ _ _)

theorem bagEq (f g : BagComm) : CostV (F := F) (C := C) (B := B) (BagEq.verify E f g) ⟨2, 1, 2, 2⟩ := by
  unfold BagEq.verify
  vcosts
  rfl
macro_rules | `(tactic| vcosts_call) => `(tactic| with_reducible exact CostV.bagEq _ _ _)

theorem bagSum (f g h : BagComm) : CostV (F := F) (C := C) (B := B) (BagSum.verify E f g h) ⟨3, 1, 3, 3⟩ := by
  unfold BagSum.verify
  vcosts
  rfl
macro_rules | `(tactic| vcosts_call) => `(tactic| with_reducible exact CostV.bagSum _ _ _ _)

theorem noZeros (b : BagComm) : CostV (F := F) (C := C) (B := B) (NoZeros.verify E b) ⟨1, 0, 1, 0⟩ := by
  unfold NoZeros.verify
  vcosts
  rfl
macro_rules | `(tactic| vcosts_call) => `(tactic| with_reducible exact CostV.noZeros _ _)

theorem selector (i : Nat) : CostV (F := F) (C := C) (B := B) (SelectorValid.verify i) ⟨0, 0, 1, 0⟩ := by
  unfold SelectorValid.verify
  vcosts
  rfl
macro_rules | `(tactic| vcosts_call) => `(tactic| with_reducible exact CostV.selector _)

theorem inclusionAdvice (f g : BagComm) (m : Nat) : CostV (F := F) (C := C) (B := B) (Inclusion.verifyWithAdvice E f g m) ⟨2, 1, 2, 2⟩ := by
  unfold Inclusion.verifyWithAdvice
  vcosts
  rfl
macro_rules | `(tactic| vcosts_call) => `(tactic| with_reducible exact CostV.inclusionAdvice _ _ _ _)

theorem inclusion (f g : BagComm) : CostV (F := F) (C := C) (B := B) (Inclusion.verify E f g) ⟨3, 1, 2, 2⟩ := by
  unfold Inclusion.verify
  vcosts
  rfl
macro_rules | `(tactic| vcosts_call) => `(tactic| with_reducible exact CostV.inclusion _ _ _)

theorem permutation (f g : BagComm) (p : Nat) : CostV (F := F) (C := C) (B := B) (PrescPerm.verify E f g p) ⟨4, 2, 4, 2⟩ := by
  unfold PrescPerm.verify
  vcosts
  rfl
macro_rules | `(tactic| vcosts_call) => `(tactic| with_reducible exact CostV.permutation _ _ _ _)

theorem sort (f r : BagComm) : CostV (F := F) (C := C) (B := B) (StrictSort.verify E f r) ⟨9, 3, 7, 4⟩ := by
  unfold StrictSort.verify
  dsimp only
  vcosts
  rfl
macro_rules | `(tactic| vcosts_call) => `(tactic| with_reducible exact CostV.sort _ _ _)

theorem suppAdvice (b p : BagComm) (m : Nat) (r : BagComm) : CostV (F := F) (C := C) (B := B) (Supp.verifyWithAdvice E b p m r) ⟨12, 4, 10, 6⟩ :=
  bind (inclusionAdvice E _ _ _) fun _ => bind (noZeros E _) fun _ => sort E _ _
macro_rules | `(tactic| vcosts_call) => `(tactic| with_reducible exact CostV.suppAdvice _ _ _ _ _)

theorem supp (b p r : BagComm) : CostV (F := F) (C := C) (B := B) (Supp.verify E b p r) ⟨13, 4, 10, 6⟩ := by
  unfold Supp.verify
  vcosts
  rfl
macro_rules | `(tactic| vcosts_call) => `(tactic| with_reducible exact CostV.supp _ _ _ _)

theorem disjoint (a b r : BagComm) : CostV (F := F) (C := C) (B := B) (Disjoint.verify E a b r) ⟨17, 5, 12, 8⟩ := by
  unfold Disjoint.verify Disjoint.verifyWithAdvice
  dsimp only
  vcosts
  rfl
macro_rules | `(tactic| vcosts_call) => `(tactic| with_reducible exact CostV.disjoint _ _ _ _)

theorem setDisjoint (a b r : BagComm) : CostV (F := F) (C := C) (B := B) (SetDisjoint.verify E a b r) ⟨14, 4, 10, 7⟩ := by
  unfold SetDisjoint.verify
  dsimp only
  vcosts
  rfl
macro_rules | `(tactic| vcosts_call) => `(tactic| with_reducible exact CostV.setDisjoint _ _ _ _)

theorem setUnion (a b u r : BagComm) : CostV (F := F) (C := C) (B := B) (SetUnion.verify E a b u r) ⟨18, 5, 13, 9⟩ := by
  unfold SetUnion.verify
  dsimp only
  vcosts
  rfl

theorem setDiff (a b l m : BagComm) (bm : Nat) (r : BagComm) : CostV (F := F) (C := C) (B := B) (SetDiff.verify E a b l m bm r) ⟨19, 6, 15, 12⟩ :=
  bind (setDisjoint E _ _ _) fun _ => bind (bagSum E _ _ _) fun _ => inclusionAdvice E _ _ _

theorem setIntersect (a b l m r range : BagComm) : CostV (F := F) (C := C) (B := B) (SetIntersect.verify E a b l m r range) ⟨20, 6, 16, 13⟩ :=
  bind (bagSum E _ _ _) fun _ => bind (bagSum E _ _ _) fun _ => setDisjoint E _ _ _

theorem joinReduction (a b : BagComm) (l r : Nat) (range : BagComm) : CostV (F := F) (C := C) (B := B) (JoinReduction.verify E a b l r range) ⟨57, 17, 42, 28⟩ := by
  unfold JoinReduction.verify
  vcosts
  rfl

theorem aggLoop : ∀ (acc : Nat) (cs : List Nat) (rs : List F), CostV (F := F) (C := C) (B := B) (IndexTransform.verifierAggLoop acc cs rs) 0
  | _, [], _ => pure _
  | _, _ :: _, [] => lift _
  | _, _ :: cs, _ :: rs => bind (mulScalar _ _) fun _ => bind (mul _ _) fun _ => aggLoop _ cs rs
macro_rules | `(tactic| vcosts_call) => `(tactic| with_reducible exact CostV.aggLoop _ _ _)

theorem indexTransform (a b : TableComm) : CostV (F := F) (C := C) (B := B) (IndexTransform.verify E a b) ⟨3, 2, 2, 2⟩ := by
  unfold IndexTransform.verify IndexTransform.verifierPowers IndexTransform.verifierAgg
  vcosts
  rfl
macro_rules | `(tactic| vcosts_call) => `(tactic| with_reducible exact CostV.indexTransform _ _ _)

theorem joinAdvice (a b : TableComm) (ai bi : Nat) (ta : List Nat) : CostV (F := F) (C := C) (B := B) (FinalJoin.verifyWithAdvice E a b ai bi ta) ⟨3, 2, 3, 2⟩ := by
  unfold FinalJoin.verifyWithAdvice
  dsimp only
  vcosts
  rfl

theorem transferAll : ∀ n : Nat, CostV (F := F) (C := C) (B := B) (FinalJoin.transferAll E n) ⟨n, 0, 0, 0⟩
  | 0 => pure _
  | n + 1 => (bind nextId fun _ => bind (transfer _ _) fun _ => bind (transferAll n) fun _ => pure _).eq (by
      simp only [cost_add, cost_zero]
      ext <;> dsimp only <;> omega)

theorem join (a b : TableComm) (ai bi : Nat) : CostV (F := F) (C := C) (B := B) (FinalJoin.verify E a b ai bi) ⟨a.colVals.length + 3, 2, 3, 2⟩ :=
  (bind (transferAll E _) fun _ => joinAdvice E _ _ _ _ _).eq (by simp [cost_add])

/-- The price of the aggregates. -/
def aggCost {H : Type} (l : List (Nat × AggType × H)) : Cost :=
  ⟨2 * (l.countP fun e => e.2.1 = .sum), l.countP fun e => e.2.1 = .sum, 2 * (l.countP fun e => e.2.1 = .sum), 2 * (l.countP fun e => e.2.1 = .sum)⟩

theorem aggs (inp : TableComm) (pre grp : BagComm) (mult : Nat) : ∀ (l : List (Nat × AggType × Nat)) (cols : List Nat),
    CostV (F := F) (C := C) (B := B) (GroupBy.verifyAggs E inp pre grp mult l cols) (aggCost l)
  | [], _ => pure _
  | (_, .count, _) :: r, cols => by
    unfold GroupBy.verifyAggs
    exact (aggs inp pre grp mult r _).eq (by simp [aggCost])
  | (_, .sum, _) :: r, cols => by
    unfold GroupBy.verifyAggs
    refine (bind (lift _) fun _ => bind (multitool E _ _ _ _) fun _ => aggs inp pre grp mult r _).eq ?_
    simp only [aggCost, cost_add, cost_zero, List.countP_cons, decide_true, if_true, List.length_singleton]
    ext <;> dsimp only <;> omega
  | (_, .avg, _) :: _, _ => CostTo.fail _
  | (_, .min, _) :: _, _ => CostTo.fail _
  | (_, .max, _) :: _, _ => CostTo.fail _

theorem groupBy (inp : TableComm) (i : GroupInstr Nat) (r : BagComm) :
    CostV (F := F) (C := C) (B := B) (GroupBy.verifyWithAdvice E inp i r) (⟨12, 4, 10, 6⟩ + aggCost i.aggs) := by
  unfold GroupBy.verifyWithAdvice
  refine (bind (lift _) fun gs => ?_).eq (cost_zero_add _)
  obtain ⟨g, sp⟩ := gs
  dsimp only
  refine (bind (lift _) fun _ => bind (suppAdvice E _ _ _ _) fun _ => bind (aggs E _ _ _ _ _ _) fun _ => pure _).eq ?_
  rw [cost_zero_add, cost_add_zero]

theorem check : ∀ c : Check TPoly, CostV (F := F) (C := C) (B := B) (c.verify E) c.cost
  | .multiset _ _ => (multitool E _ _ _ _).eq (by simp [Check.cost])
  | .bagEq _ _ => bagEq E _ _
  | .bagSum _ _ _ => bagSum E _ _ _
  | .inclusion _ _ => inclusion E _ _
  | .inclusionAdvice _ _ _ => inclusionAdvice E _ _ _
  | .noZeros _ => noZeros E _
  | .selector _ => selector _
  | .permutation _ _ _ => permutation E _ _ _
  | .sort _ _ => sort E _ _
  | .support _ _ _ => supp E _ _ _
  | .supportAdvice _ _ _ _ => suppAdvice E _ _ _ _
  | .disjoint _ _ _ => disjoint E _ _ _
  | .setDisjoint _ _ _ => setDisjoint E _ _ _
  | .union _ _ _ _ => setUnion E _ _ _ _
  | .diff _ _ _ _ _ _ => setDiff E _ _ _ _ _ _
  | .intersect _ _ _ _ _ _ => setIntersect E _ _ _ _ _ _
  | .joinReduction _ _ _ _ _ => joinReduction E _ _ _ _ _
  | .indexTransform _ _ => indexTransform E _ _
  | .joinAdvice _ _ _ _ _ => bind (joinAdvice E _ _ _ _ _) fun _ => pure _
  | .groupBy inp key grp mult as range => (bind (groupBy E _ _ _) fun _ => pure _).eq (by
      simp [Check.cost, aggCost, cost_add, cost_zero, sameInstr, requestOf, List.countP_map, Function.comp_def])

theorem cost_map {K L : Type} (f : K → L) (c : Check K) : (c.map f).cost = c.cost := by
  cases c <;> simp [Check.map, Check.cost, List.countP_map, Function.comp_def]

theorem verifyAll : ∀ (prog : List (Step F)) (hs : List TPoly), CostV (F := F) (C := C) (B := B) (Step.verifyAll E prog hs) (Step.costAll prog)
  | [], _ => pure _
  | .commit _ :: r, _ => (bind nextId fun _ => bind (transfer _ _) fun _ => verifyAll r _).eq (cost_zero_add _)
  | .add _ _ :: r, _ => bind (add _ _) fun _ => verifyAll r _
  | .sub _ _ :: r, _ => bind (sub _ _) fun _ => verifyAll r _
  | .mul _ _ :: r, _ => bind (mul _ _) fun _ => verifyAll r _
  | .addScalar _ _ :: r, _ => bind (addScalar _ _) fun _ => verifyAll r _
  | .mulScalar _ _ :: r, _ => bind (mulScalar _ _) fun _ => verifyAll r _
  | .check c :: r, _ => (bind (check E _) fun _ => verifyAll r _).eq (by rw [cost_map]; rfl)
  | .join a _ _ _ :: r, _ => (bind (join E _ _ _ _) fun _ => verifyAll r _).eq (by
      simp only [tableCommOf, sameTab, tableOf, List.length_map]
      rfl)

end CostV
end Zksql
