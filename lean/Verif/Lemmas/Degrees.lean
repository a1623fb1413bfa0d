import Verif.Lemmas.FoldValues
import Verif.Model.Tables
import Verif.Spec.Program
/-! Degrees of handles, and closures made by the protocols. -/
set_option linter.unusedSectionVars false
namespace Zksql
open Spec
variable {F C B : Type} [Field F] [DecidableEq F]

theorem indivDegree_sub {f g : List F → F} {n d : Nat} (hf : IndivDegree f n d) (hg : IndivDegree g n d) : IndivDegree (fun t => f t - g t) n d := by
  intro a b hab
  obtain ⟨q, hq, hqe⟩ := hf a b hab
  obtain ⟨r, hr, hre⟩ := hg a b hab
  exact ⟨q - r, (Polynomial.natDegree_sub_le _ _).trans (max_le hq hr), fun x => by beta_reduce; rw [hqe, hre, Polynomial.eval_sub]⟩

theorem indivDegree_drop {f : List F → F} {n k d : Nat} (hk : k ≤ n) (hf : IndivDegree f (n - k) d) : IndivDegree (fun t => f (t.drop k)) n d := by
  intro a b hab
  by_cases h : a.length < k
  · refine ⟨Polynomial.C (f (b.drop (k - a.length - 1))), by simp, fun y => ?_⟩
    obtain ⟨j, hj⟩ : ∃ j, k - a.length = j + 1 := ⟨k - a.length - 1, by omega⟩
    beta_reduce
    rw [List.drop_append, List.drop_of_length_le (by omega), hj]
    simp
  · obtain ⟨q, hq, hqe⟩ := hf (a.drop k) b (by simp; omega)
    exact ⟨q, hq, fun y => by beta_reduce; rw [List.drop_append_of_le_length (by omega), hqe]⟩

theorem indivDegree_take {f : List F → F} {n k d : Nat} (hk : k ≤ n) (hf : IndivDegree f k d) : IndivDegree (fun t => f (t.take k)) n d := by
  intro a b hab
  by_cases h : a.length < k
  · obtain ⟨j, hj⟩ : ∃ j, k = a.length + (j + 1) := ⟨k - a.length - 1, by omega⟩
    obtain ⟨q, hq, hqe⟩ := hf a (b.take j) (by simp; omega)
    exact ⟨q, hq, fun y => by beta_reduce; rw [hj, List.take_length_add_append, List.take_succ_cons, hqe]⟩
  · refine ⟨Polynomial.C (f (a.take k)), by simp, fun y => ?_⟩
    beta_reduce
    rw [List.take_append_of_le_length (by omega), Polynomial.eval_C]

theorem Spec.PolyOrFail.mono {f : List F → Res F} {n D D' : Nat} (h : PolyOrFail f n D) (hD : D ≤ D') : PolyOrFail f n D' := by
  rcases h with ⟨g, h1, h2⟩ | h
  · exact .inl ⟨g, h1, indivDegree_mono h2 hD⟩
  · exact .inr h

theorem polyOrFail_two {f g : List F → Res F} {n D D1 D2 : Nat} (op : F → F → F) (hf : PolyOrFail f n D1) (hg : PolyOrFail g n D2)
    (hop : ∀ u v : List F → F, IndivDegree u n D1 → IndivDegree v n D2 → IndivDegree (fun x => op (u x) (v x)) n D) :
    PolyOrFail (fun x => do let a ← f x; let b ← g x; .ok (op a b)) n D := by
  rcases hf with ⟨u, h1, h2⟩ | h1
  · rcases hg with ⟨v, h3, h4⟩ | h3
    · exact .inl ⟨fun x => op (u x) (v x), fun x hx => by simp [h1 x hx, h3 x hx], hop u v h2 h4⟩
    · refine .inr fun x hx => ?_
      obtain ⟨e, he⟩ := h3 x hx
      exact ⟨e, by simp only [h1 x hx, he]; rfl⟩
  · refine .inr fun x hx => ?_
    obtain ⟨e, he⟩ := h1 x hx
    exact ⟨e, by simp only [he]; rfl⟩

theorem polyOrFail_one {f : List F → Res F} {n D : Nat} (op : F → F) (hf : PolyOrFail f n D)
    (hop : ∀ u : List F → F, IndivDegree u n D → IndivDegree (fun x => op (u x)) n D) :
    PolyOrFail (fun x => do let a ← f x; .ok (op a)) n D := by
  rcases hf with ⟨u, h1, h2⟩ | h1
  · exact .inl ⟨fun x => op (u x), fun x hx => by simp [h1 x hx], hop u h2⟩
  · refine .inr fun x hx => ?_
    obtain ⟨e, he⟩ := h1 x hx
    exact ⟨e, by simp only [he]; rfl⟩

theorem polyOrFail_evalC {comms : List (Nat × VComm F)} {ans : Nat → List F → Res F} (hf : ∀ id f, comms.lookup id = some (.fn f) → ∀ n, PolyOrFail f n 1)
    (ha : ∀ i n, PolyOrFail (ans i) n 1) : ∀ (fuel id n : Nat), PolyOrFail (VSt.evalC comms ans fuel id) n (degreeOf comms fuel id)
  | 0, id, n => .inr fun x _ => ⟨_, rfl⟩
  | fuel + 1, id, n => by
    have ih := polyOrFail_evalC hf ha fuel
    have e : VSt.evalC comms ans (fuel + 1) id = fun x => _ := funext fun x => VSt.evalC_succ comms fuel id x
    rw [e, degreeOf]
    rcases hl : comms.lookup id with _ | c
    · exact .inr fun x _ => ⟨_, rfl⟩
    · cases c with
      | query i => exact ha i n
      | fn f => exact hf id f hl n
      | add i j =>
        exact polyOrFail_two (· + ·) ((ih i n).mono (le_max_left _ _)) ((ih j n).mono (le_max_right _ _)) fun u v => indivDegree_add
      | sub i j =>
        exact polyOrFail_two (· - ·) ((ih i n).mono (le_max_left _ _)) ((ih j n).mono (le_max_right _ _)) fun u v => indivDegree_sub
      | mul i j => exact polyOrFail_two (· * ·) (ih i n) (ih j n) fun u v => indivDegree_mul
      | addScalar i c => exact polyOrFail_one (· + c) (ih i n) fun u hu => indivDegree_add hu (indivDegree_const c _ _)
      | mulScalar i c =>
        exact polyOrFail_one (c * ·) (ih i n) fun u hu => by
          have := indivDegree_mul (indivDegree_const c n 0) hu
          rwa [Nat.zero_add] at this
      | incFront i k =>
        by_cases hk : n < k
        · exact .inr fun x hx => ⟨.panic, by simp only [VSt.evalStep]; rw [if_pos (by omega)]⟩
        · rcases ih i (n - k) with ⟨u, h1, h2⟩ | h1
          · exact .inl ⟨fun t => u (t.drop k), fun x hx => by simp only [VSt.evalStep]; rw [if_neg (by omega), h1 _ (by simp; omega)], indivDegree_drop (by omega) h2⟩
          · refine .inr fun x hx => ?_
            simp only [VSt.evalStep]
            rw [if_neg (by omega)]
            exact h1 _ (by simp; omega)
      | incBack i k =>
        by_cases hk : n < k
        · exact .inr fun x hx => ⟨.panic, by simp only [VSt.evalStep]; rw [if_pos (by omega)]⟩
        · rcases ih i k with ⟨u, h1, h2⟩ | h1
          · exact .inl ⟨fun t => u (t.take k), fun x hx => by simp only [VSt.evalStep]; rw [if_neg (by omega), h1 _ (by simp; omega)], indivDegree_take (by omega) h2⟩
          · refine .inr fun x hx => ?_
            simp only [VSt.evalStep]
            rw [if_neg (by omega)]
            exact h1 _ (by simp; omega)

/-- A handle has the degree read off from its construction. -/
theorem handleDegree_of {s : VSt F C B} {P : C → List F → F} (hc : ClosuresLinear s) (hP : ∀ c, Multilinear (P c)) (h N : Nat) :
    HandleDegree s P N (degreeOf s.sh.comms (h + 1) h) h := by
  refine polyOrFail_evalC hc (fun i n => ?_) _ _ _
  unfold answer
  rcases s.own.matComms.lookup i with _ | c
  · exact .inr fun x _ => ⟨_, rfl⟩
  · exact .inl ⟨P c, fun x _ => rfl, hP c n⟩

theorem le_foldr_max : ∀ {l : List Nat} {a : Nat}, a ∈ l → a ≤ l.foldr max 0
  | b :: l, a, h => by
    rcases List.mem_cons.1 h with rfl | h
    · exact le_max_left _ _
    · exact (le_foldr_max h).trans (le_max_right _ _)

/-- All claims have the largest degree of a claim. -/
theorem claimsDegree_of {s : VSt F C B} {P : C → List F → F} (hc : ClosuresLinear s) (hP : ∀ c, Multilinear (P c)) (N : Nat) : ClaimsDegree s P N (claimDegree s) := by
  refine ⟨fun h hh => (handleDegree_of hc hP h N).mono (le_foldr_max ?_), fun c hh => (handleDegree_of hc hP c.1 N).mono (le_foldr_max ?_)⟩
  · exact List.mem_map.2 ⟨h, List.mem_append_left _ hh, rfl⟩
  · exact List.mem_map.2 ⟨c.1, List.mem_append_right _ (List.mem_map.2 ⟨c, hh, rfl⟩), rfl⟩

/-! ### Closures of the protocols -/

theorem polyOrFail_const (c : F) (n : Nat) : PolyOrFail (fun _ => .ok c) n 1 := .inl ⟨fun _ => c, fun _ _ => rfl, indivDegree_const c n 1⟩

theorem ordered_affine (i : Nat) (r : F) (a b : List F) : ∃ u v : F, ∀ y, PrescPerm.orderedFn.go F i r (a ++ y :: b) = u + v * y := by
  have key : ∀ (l : List F) (i : Nat) (r : F), PrescPerm.orderedFn.go F i r l = r + PrescPerm.orderedFn.go F i 0 l := by
    intro l
    induction l with
    | nil => intro i r; simp [PrescPerm.orderedFn.go]
    | cons x l ih => intro i r; rw [PrescPerm.orderedFn.go, PrescPerm.orderedFn.go, ih, ih _ (0 + _)]; ring
  induction a generalizing i r with
  | nil =>
    refine ⟨r + PrescPerm.orderedFn.go F (i + 1) 0 b, ((2 ^ i : Nat) : F), fun y => ?_⟩
    rw [List.nil_append, PrescPerm.orderedFn.go, key]; ring
  | cons x a ih =>
    obtain ⟨u, v, h⟩ := ih (i + 1) (r + x * ((2 ^ i : Nat) : F))
    exact ⟨u, v, fun y => by rw [List.cons_append, PrescPerm.orderedFn.go, h]⟩

theorem polyOrFail_ordered (n : Nat) : PolyOrFail (fun pt : List F => .ok (PrescPerm.orderedFn.go F 0 0 pt)) n 1 := by
  refine .inl ⟨_, fun _ _ => rfl, fun a b _ => ?_⟩
  obtain ⟨u, v, h⟩ := ordered_affine (F := F) 0 0 a b
  exact ⟨Polynomial.C v * Polynomial.X + Polynomial.C u, Polynomial.natDegree_linear_le, fun y => by rw [h]; simp; ring⟩

theorem polyOrFail_mle (p : Mle F) (hp : p.WF) (n : Nat) : PolyOrFail (fun pt => unwrap (p.evaluate pt)) n 1 := by
  by_cases h : n = p.numVars
  · exact .inl ⟨mle p.tbl, fun x hx => by beta_reduce; rw [evaluate_eq p hp x (by omega)]; rfl, indivDegree_mle _ _⟩
  · exact .inr fun x hx => ⟨.panic, by beta_reduce; rw [evaluate_none p x (by omega)]; rfl⟩

/-- The closure is multilinear. -/
def LinearClosure (c : VComm F) : Prop := ∀ f, c = .fn f → ∀ n, PolyOrFail f n 1

theorem linear_one : LinearClosure (oneFn F) := fun f h n => by cases h; exact polyOrFail_const 1 n
theorem linear_ordered : LinearClosure (PrescPerm.orderedFn F) := fun f h n => by cases h; exact polyOrFail_ordered n
theorem linear_shift (nv : Nat) : LinearClosure (StrictSort.mleFn ⟨nv, StrictSort.shiftEvals F (2 ^ nv)⟩) := fun f h n => by
  cases h; exact polyOrFail_mle _ (by unfold Mle.WF; simp [StrictSort.shiftEvals]; have := Nat.one_le_two_pow (n := nv); omega) n
theorem linear_diffSel (nv : Nat) : LinearClosure (StrictSort.mleFn ⟨nv, StrictSort.diffSelEvals F (2 ^ nv)⟩) := fun f h n => by
  cases h; exact polyOrFail_mle _ (by unfold Mle.WF; simp [StrictSort.diffSelEvals]; have := Nat.one_le_two_pow (n := nv); omega) n

/-- The call keeps all closures multilinear. -/
def KeepsLinear {α : Type} (m : Act (VSt F C B) α) : Prop := ∀ s a s', ClosuresLinear s → m s = (.ok a, s') → ClosuresLinear s'

namespace KeepsLinear
variable {α β : Type}

theorem bind {m : Act (VSt F C B) α} {f : α → Act (VSt F C B) β} (h1 : KeepsLinear m) (h2 : ∀ a, KeepsLinear (f a)) : KeepsLinear (m >>= f) := by
  intro s a s' hs e
  obtain ⟨x, s1, e1, e2⟩ := Act.bind_eq_ok.1 e
  exact h2 x s1 a s' (h1 s x s1 hs e1) e2

theorem same {m : Act (VSt F C B) α} (h : ∀ s a s', m s = (.ok a, s') → s'.sh.comms = s.sh.comms) : KeepsLinear m := by
  intro s a s' hs e id f hl
  rw [h s a s' e] at hl
  exact hs id f hl

theorem pure (a : α) : KeepsLinear (Pure.pure a : Act (VSt F C B) α) := same fun s b s' e => by obtain ⟨-, rfl⟩ := Prod.mk.inj e; rfl
theorem lift (r : Res α) : KeepsLinear (Act.lift r : Act (VSt F C B) α) := same fun s b s' e => by obtain ⟨-, rfl⟩ := Prod.mk.inj e; rfl
theorem nextId : KeepsLinear (VSt.getNextId : Act (VSt F C B) Nat) := same fun s b s' e => by obtain ⟨-, rfl⟩ := Prod.mk.inj e; rfl
theorem claimedSum (i : Nat) : KeepsLinear (VSt.claimedSum i : Act (VSt F C B) F) := same fun s b s' e => by obtain ⟨-, rfl⟩ := Prod.mk.inj e; rfl
theorem zeroClaim (i : Nat) : KeepsLinear (VSt.addZeroClaim i : Act (VSt F C B) Unit) := same fun s b s' e => by obtain ⟨-, rfl⟩ := Prod.mk.inj e; rfl
theorem sumClaim (i : Nat) (v : F) : KeepsLinear (VSt.addSumClaim i v : Act (VSt F C B) Unit) := same fun s b s' e => by obtain ⟨-, rfl⟩ := Prod.mk.inj e; rfl
theorem challenge (H : Oracle F C) (l : String) : KeepsLinear (VSt.challenge H l : Act (VSt F C B) F) := same fun s b s' e => by
  unfold VSt.challenge at e
  split at e
  · obtain ⟨-, rfl⟩ := Prod.mk.inj e; rfl
  · simp at e

theorem insert {s : VSt F C B} (hs : ClosuresLinear s) {c : VComm F} (hc : LinearClosure c) {i : Nat} :
    ∀ id f, (amInsert i c s.sh.comms).lookup id = some (.fn f) → ∀ n, PolyOrFail f n 1 := by
  intro id f hl
  rw [lookup_amInsert] at hl
  split at hl
  · exact hc f (Option.some.inj hl)
  · exact hs id f hl

theorem virtual {c : VComm F} (hc : LinearClosure c) : KeepsLinear (VSt.trackVirtual c : Act (VSt F C B) Nat) := by
  intro s a s' hs e
  obtain ⟨-, rfl⟩ := Prod.mk.inj e
  exact insert hs hc

theorem add (i j : Nat) : KeepsLinear (VSt.addComms i j : Act (VSt F C B) Nat) := virtual nofun
theorem sub (i j : Nat) : KeepsLinear (VSt.subComms i j : Act (VSt F C B) Nat) := virtual nofun
theorem mul (i j : Nat) : KeepsLinear (VSt.mulComms i j : Act (VSt F C B) Nat) := virtual nofun
theorem mulScalar (i : Nat) (c : F) : KeepsLinear (VSt.mulScalar i c : Act (VSt F C B) Nat) := virtual nofun
theorem addScalar (i : Nat) (c : F) : KeepsLinear (VSt.addScalar i c : Act (VSt F C B) Nat) := by
  refine bind (same fun s b s' e => by obtain ⟨-, rfl⟩ := Prod.mk.inj e; rfl) fun _ => virtual nofun

theorem transfer (d : Bool) (i : Nat) : KeepsLinear (VSt.transferComm d i : Act (VSt F C B) Nat) := by
  intro s a s' hs e
  obtain ⟨c, -, -, rfl⟩ := transferComm_inv e
  exact insert hs (c := .query _) nofun

theorem ite {p : Prop} [Decidable p] {m m' : Act (VSt F C B) α} (h1 : KeepsLinear m) (h2 : KeepsLinear m') : KeepsLinear (if p then m else m') := by
  split
  · exact h1
  · exact h2

/-- One step of a protocol. -/
macro "keep_step" : tactic => `(tactic| first
  | exact pure _ | exact lift _ | exact nextId | exact claimedSum _ | exact zeroClaim _ | exact sumClaim _ _ | exact challenge _ _
  | exact virtual linear_one | exact virtual linear_ordered | exact virtual (linear_shift _) | exact virtual (linear_diffSel _)
  | exact add _ _ | exact sub _ _ | exact mul _ _ | exact mulScalar _ _ | exact addScalar _ _ | exact transfer _ _)

/-- All steps up to calls of other protocols. -/
macro "keep_steps" : tactic => `(tactic| repeat (first | keep_step | (with_reducible refine bind (by keep_step) fun _ => ?_)))

variable (E : Env F C)

theorem verifySub (b : BagComm) (m : Nat) (γ : F) : KeepsLinear (Multitool.verifySub E b m γ : Act (VSt F C B) F) := by
  unfold Multitool.verifySub
  keep_steps

theorem verifySubs (γ : F) (t : Nat) : ∀ (l : List (BagComm × Nat)) (acc : F), KeepsLinear (Multitool.verifySubs E γ t l acc : Act (VSt F C B) F)
  | [], _ => pure _
  | (b, m) :: r, acc => by
    unfold Multitool.verifySubs
    refine bind (verifySub E b m γ) fun _ => ?_
    keep_steps
    exact verifySubs γ t r _

theorem multitool (fxs gxs : List BagComm) (mf mg : List Nat) : KeepsLinear (Multitool.verify E fxs gxs mf mg : Act (VSt F C B) Unit) := by
  unfold Multitool.verify
  refine ite (lift _) (ite (lift _) (bind (challenge _ _) fun _ => ?_))
  refine bind (verifySubs E _ _ _ _) fun _ => bind (verifySubs E _ _ _ _) fun _ => ite (pure _) (lift _)

theorem bagEq (f g : BagComm) : KeepsLinear (BagEq.verify E f g : Act (VSt F C B) Unit) := by
  unfold BagEq.verify
  keep_steps
  exact multitool E _ _ _ _

theorem bagSum (f g h : BagComm) : KeepsLinear (BagSum.verify E f g h : Act (VSt F C B) Unit) := by
  unfold BagSum.verify
  keep_steps
  exact multitool E _ _ _ _

theorem noZeros (b : BagComm) : KeepsLinear (NoZeros.verify E b : Act (VSt F C B) Unit) := by
  unfold NoZeros.verify
  keep_steps

theorem selector (i : Nat) : KeepsLinear (SelectorValid.verify i : Act (VSt F C B) Unit) := by
  unfold SelectorValid.verify
  keep_steps

theorem inclusionAdvice (f g : BagComm) (m : Nat) : KeepsLinear (Inclusion.verifyWithAdvice E f g m : Act (VSt F C B) Unit) := by
  unfold Inclusion.verifyWithAdvice
  keep_steps
  exact multitool E _ _ _ _

theorem inclusion (f g : BagComm) : KeepsLinear (Inclusion.verify E f g : Act (VSt F C B) Unit) := by
  unfold Inclusion.verify
  keep_steps
  exact inclusionAdvice E _ _ _

theorem permutation (f g : BagComm) (p : Nat) : KeepsLinear (PrescPerm.verify E f g p : Act (VSt F C B) Unit) := by
  unfold PrescPerm.verify
  keep_steps
  refine bind (bagEq E _ _) fun _ => ?_
  keep_steps

theorem sort (f r : BagComm) : KeepsLinear (StrictSort.verify E f r : Act (VSt F C B) Unit) := by
  unfold StrictSort.verify
  dsimp only
  keep_steps
  refine bind (permutation E _ _ _) fun _ => ?_
  keep_steps
  exact bind (inclusion E _ _) fun _ => noZeros E _

theorem suppAdvice (b p : BagComm) (m : Nat) (r : BagComm) : KeepsLinear (Supp.verifyWithAdvice E b p m r : Act (VSt F C B) Unit) :=
  bind (inclusionAdvice E _ _ _) fun _ => bind (noZeros E _) fun _ => sort E _ _

theorem supp (b p r : BagComm) : KeepsLinear (Supp.verify E b p r : Act (VSt F C B) Unit) := by
  unfold Supp.verify
  keep_steps
  exact suppAdvice E _ _ _ _

theorem disjoint (a b r : BagComm) : KeepsLinear (Disjoint.verify E a b r : Act (VSt F C B) Unit) := by
  unfold Disjoint.verify Disjoint.verifyWithAdvice
  dsimp only
  keep_steps
  refine bind (sort E _ _) fun _ => ?_
  keep_steps
  exact bind (inclusionAdvice E _ _ _) fun _ => inclusionAdvice E _ _ _

theorem setDisjoint (a b r : BagComm) : KeepsLinear (SetDisjoint.verify E a b r : Act (VSt F C B) Unit) := by
  unfold SetDisjoint.verify
  dsimp only
  keep_steps
  exact bind (bagSum E _ _ _) fun _ => sort E _ _

theorem setUnion (a b u r : BagComm) : KeepsLinear (SetUnion.verify E a b u r : Act (VSt F C B) Unit) := by
  unfold SetUnion.verify
  dsimp only
  keep_steps
  exact bind (bagSum E _ _ _) fun _ => supp E _ _ _

theorem setDiff (a b l m : BagComm) (bm : Nat) (r : BagComm) : KeepsLinear (SetDiff.verify E a b l m bm r : Act (VSt F C B) Unit) :=
  bind (setDisjoint E _ _ _) fun _ => bind (bagSum E _ _ _) fun _ => inclusionAdvice E _ _ _

theorem setIntersect (a b l m r range : BagComm) : KeepsLinear (SetIntersect.verify E a b l m r range : Act (VSt F C B) Unit) :=
  bind (bagSum E _ _ _) fun _ => bind (bagSum E _ _ _) fun _ => setDisjoint E _ _ _

theorem joinReduction (a b : BagComm) (l r : Nat) (range : BagComm) : KeepsLinear (JoinReduction.verify E a b l r range : Act (VSt F C B) Unit) := by
  unfold JoinReduction.verify
  keep_steps
  exact bind (selector _) fun _ => bind (selector _) fun _ => bind (disjoint E _ _ _) fun _ => bind (disjoint E _ _ _) fun _ =>
    bind (disjoint E _ _ _) fun _ => bind (inclusion E _ _) fun _ => inclusion E _ _

theorem aggLoop : ∀ (acc : Nat) (cs : List Nat) (rs : List F), KeepsLinear (IndexTransform.verifierAggLoop acc cs rs : Act (VSt F C B) Nat)
  | _, [], _ => pure _
  | _, _ :: _, [] => lift _
  | acc, c :: cs, r :: rs => by
    unfold IndexTransform.verifierAggLoop
    keep_steps
    exact aggLoop _ cs rs

theorem indexTransform (a b : TableComm) : KeepsLinear (IndexTransform.verify E a b : Act (VSt F C B) Unit) := by
  unfold IndexTransform.verify IndexTransform.verifierPowers IndexTransform.verifierAgg
  simp only [Act.bind_assoc]
  keep_steps
  refine bind (aggLoop _ _ _) fun _ => ?_
  keep_steps
  refine bind (aggLoop _ _ _) fun _ => ?_
  keep_steps
  exact inclusion E _ _

theorem joinAdvice (a b : TableComm) (ai bi : Nat) (ta : List Nat) : KeepsLinear (FinalJoin.verifyWithAdvice E a b ai bi ta : Act (VSt F C B) TableComm) := by
  unfold FinalJoin.verifyWithAdvice
  dsimp only
  keep_steps
  refine bind (indexTransform E _ _) fun _ => ?_
  keep_steps

theorem transferAll : ∀ n : Nat, KeepsLinear (FinalJoin.transferAll E n : Act (VSt F C B) (List Nat))
  | 0 => pure _
  | n + 1 => by
    unfold FinalJoin.transferAll
    keep_steps
    refine bind (transferAll n) fun _ => ?_
    keep_steps

theorem join (a b : TableComm) (ai bi : Nat) : KeepsLinear (FinalJoin.verify E a b ai bi : Act (VSt F C B) TableComm) :=
  bind (transferAll E _) fun _ => joinAdvice E _ _ _ _ _

theorem aggs (inp : TableComm) (pre grp : BagComm) (mult : Nat) : ∀ (l : List (Nat × AggType × Nat)) (cols : List Nat),
    KeepsLinear (GroupBy.verifyAggs E inp pre grp mult l cols : Act (VSt F C B) (List Nat))
  | [], _ => pure _
  | (_, .count, _) :: r, cols => by unfold GroupBy.verifyAggs; exact aggs inp pre grp mult r _
  | (c, .sum, p) :: r, cols => by
    unfold GroupBy.verifyAggs
    keep_steps
    exact bind (multitool E _ _ _ _) fun _ => aggs inp pre grp mult r _
  | (_, .avg, _) :: _, _ => lift _
  | (_, .min, _) :: _, _ => lift _
  | (_, .max, _) :: _, _ => lift _

theorem groupBy (inp : TableComm) (i : GroupInstr Nat) (r : BagComm) : KeepsLinear (GroupBy.verifyWithAdvice E inp i r : Act (VSt F C B) TableComm) := by
  unfold GroupBy.verifyWithAdvice
  refine bind (lift _) fun gs => ?_
  obtain ⟨g, sp⟩ := gs
  dsimp only
  keep_steps
  refine bind (suppAdvice E _ _ _ _) fun _ => bind (aggs E _ _ _ _ _ _) fun _ => ?_
  keep_steps

theorem check : ∀ c : Check TPoly, KeepsLinear (c.verify E : Act (VSt F C B) Unit)
  | .multiset _ _ => multitool E _ _ _ _
  | .bagEq _ _ => bagEq E _ _
  | .bagSum _ _ _ => bagSum E _ _ _
  | .inclusion _ _ => inclusion E _ _
  | .inclusionAdvice _ _ _ => inclusionAdvice E _ _ _
  | .noZeros _ => noZeros E _
  | .selector _ => selector _
  | .permutation _ _ _ => permutation E _ _ _
  | .sort _ _ => sort E _ _
  | .support _ _ _ => supp E _ _ _
  | .supportAdvice _ _ _ _ => suppAdvice E _ _ _ _
  | .disjoint _ _ _ => disjoint E _ _ _
  | .setDisjoint _ _ _ => setDisjoint E _ _ _
  | .union _ _ _ _ => setUnion E _ _ _ _
  | .diff _ _ _ _ _ _ => setDiff E _ _ _ _ _ _
  | .intersect _ _ _ _ _ _ => setIntersect E _ _ _ _ _ _
  | .joinReduction _ _ _ _ _ => joinReduction E _ _ _ _ _
  | .indexTransform _ _ => indexTransform E _ _
  | .joinAdvice _ _ _ _ _ => bind (joinAdvice E _ _ _ _ _) fun _ => pure _
  | .groupBy _ _ _ _ _ _ => bind (groupBy E _ _ _) fun _ => pure _

/-- Programs keep all closures multilinear. -/
theorem program : ∀ (prog : List (Step F)) (hs : List TPoly), KeepsLinear (Step.verifyAll E prog hs : Act (VSt F C B) (List TPoly))
  | [], _ => pure _
  | .commit _ :: r, hs => bind nextId fun _ => bind (transfer _ _) fun _ => program r _
  | .add _ _ :: r, hs => bind (add _ _) fun _ => program r _
  | .sub _ _ :: r, hs => bind (sub _ _) fun _ => program r _
  | .mul _ _ :: r, hs => bind (mul _ _) fun _ => program r _
  | .addScalar _ _ :: r, hs => bind (addScalar _ _) fun _ => program r _
  | .mulScalar _ _ :: r, hs => bind (mulScalar _ _) fun _ => program r _
  | .check _ :: r, hs => bind (check E _) fun _ => program r _
  | .join _ _ _ _ :: r, hs => bind (join E _ _ _ _) fun _ => program r _

end KeepsLinear
end Zksql
