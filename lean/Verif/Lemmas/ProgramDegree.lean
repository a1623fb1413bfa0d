import Verif.Spec.ProgramDegree
import Verif.Lemmas.Unread
import Verif.Lemmas.Degrees
import Verif.Lemmas.TabSound
import Verif.Lemmas.BuildsTables
import Verif.Lemmas.BuildsPrograms
/-!
Degrees of the claims made by the calls of the verifier.  Everything is measured in the closures `M` of the final state, in which handles have fixed degrees.
-/
set_option linter.unusedSectionVars false
namespace Zksql
open Spec VSt
variable {F C B : Type} [Field F] [DecidableEq F] {α β : Type} {M : List (Nat × VComm F)} {D : Nat} {P : Prop}

/-- Fuel beyond the identifier does not matter. -/
theorem degreeOf_fuel (hw : CWf M) : ∀ (n id : Nat), id < n → degreeOf M n id = degreeOf M (id + 1) id := by
  intro n
  induction n using Nat.strong_induction_on with
  | _ n ih =>
    intro id hlt
    obtain ⟨n, rfl⟩ : ∃ m, n = m + 1 := ⟨n - 1, by omega⟩
    rw [degreeOf, degreeOf]
    rcases hl : M.lookup id with _ | c
    · rfl
    have hr := hw id c hl
    have key : ∀ r ∈ c.refs, degreeOf M n r = degreeOf M id r := fun r h => by
      have hr' := (hr r h).1
      rw [ih n (Nat.lt_succ_self _) r (by omega)]
      by_cases he : id < n + 1 ∧ id ≠ n + 1
      · exact (ih id he.1 r hr').symm
      · omega
    cases c with
    | query i => rfl
    | fn f => rfl
    | add i j => simp only [key i (by simp [VComm.refs]), key j (by simp [VComm.refs])]
    | sub i j => simp only [key i (by simp [VComm.refs]), key j (by simp [VComm.refs])]
    | mul i j => simp only [key i (by simp [VComm.refs]), key j (by simp [VComm.refs])]
    | addScalar i c => simp only [key i (by simp [VComm.refs])]
    | mulScalar i c => simp only [key i (by simp [VComm.refs])]
    | incFront i k => simp only [key i (by simp [VComm.refs])]
    | incBack i k => simp only [key i (by simp [VComm.refs])]

/-- Degrees do not change when closures are added. -/
theorem degreeOf_ext {M' : List (Nat × VComm F)} (hw : CWf M) (he : ∀ id c, M.lookup id = some c → M'.lookup id = some c) :
    ∀ (n id : Nat), (M.lookup id).isSome → degreeOf M' n id = degreeOf M n id
  | 0, _, _ => rfl
  | n + 1, id, hs => by
    obtain ⟨c, hl⟩ := Option.isSome_iff_exists.1 hs
    rw [degreeOf, degreeOf, he id c hl, hl]
    have key : ∀ r ∈ c.refs, degreeOf M' n r = degreeOf M n r := fun r h => degreeOf_ext hw he n r (hw id c hl r h).2
    cases c with
    | query i => rfl
    | fn f => rfl
    | add i j => simp only [key i (by simp [VComm.refs]), key j (by simp [VComm.refs])]
    | sub i j => simp only [key i (by simp [VComm.refs]), key j (by simp [VComm.refs])]
    | mul i j => simp only [key i (by simp [VComm.refs]), key j (by simp [VComm.refs])]
    | addScalar i c => simp only [key i (by simp [VComm.refs])]
    | mulScalar i c => simp only [key i (by simp [VComm.refs])]
    | incFront i k => simp only [key i (by simp [VComm.refs])]
    | incBack i k => simp only [key i (by simp [VComm.refs])]

/-- The degree of a handle in the closures `M`. -/
def dg (M : List (Nat × VComm F)) (h : Nat) : Nat := degreeOf M (h + 1) h

/-- The degree of a closure. -/
def dgOf (M : List (Nat × VComm F)) : VComm F → Nat
  | .query _ => 1
  | .fn _ => 1
  | .add i j => max (dg M i) (dg M j)
  | .sub i j => max (dg M i) (dg M j)
  | .mul i j => dg M i + dg M j
  | .addScalar i _ => dg M i
  | .mulScalar i _ => dg M i
  | .incFront i _ => dg M i
  | .incBack i _ => dg M i

theorem dg_look (hw : CWf M) {a : Nat} {c : VComm F} (h : M.lookup a = some c) : dg M a = dgOf M c := by
  unfold dg
  rw [degreeOf, h]
  have key : ∀ r ∈ c.refs, degreeOf M a r = dg M r := fun r hr => degreeOf_fuel hw a r (hw a c h r hr).1
  cases c with
  | query i => rfl
  | fn f => rfl
  | add i j => simp only [dgOf, key i (by simp [VComm.refs]), key j (by simp [VComm.refs])]
  | sub i j => simp only [dgOf, key i (by simp [VComm.refs]), key j (by simp [VComm.refs])]
  | mul i j => simp only [dgOf, key i (by simp [VComm.refs]), key j (by simp [VComm.refs])]
  | addScalar i c => simp only [dgOf, key i (by simp [VComm.refs])]
  | mulScalar i c => simp only [dgOf, key i (by simp [VComm.refs])]
  | incFront i k => simp only [dgOf, key i (by simp [VComm.refs])]
  | incBack i k => simp only [dgOf, key i (by simp [VComm.refs])]

/-- If `P` then what a successful call claims has degree at most `D`, and it returns something with `Q`. -/
def Deg (M : List (Nat × VComm F)) (D : Nat) (P : Prop) (m : Act (VSt F C B) α) (Q : α → Prop) : Prop :=
  VGoes m ∧ (P → CWf M → ∀ s a s', m s = (.ok a, s') → Numbered s → (∀ id c, s'.sh.comms.lookup id = some c → M.lookup id = some c) →
    (∀ h ∈ s'.own.zeroClaims, h ∈ s.own.zeroClaims ∨ dg M h ≤ D) ∧ (∀ c ∈ s'.own.sumClaims, c ∈ s.own.sumClaims ∨ dg M c.1 ≤ D) ∧ Q a)

namespace Deg
variable {Q : α → Prop} {Q' : β → Prop}

theorem bind {m : Act (VSt F C B) α} {f : α → Act (VSt F C B) β} (h : Deg M D P m Q) (hf : ∀ a, Deg M D (P ∧ Q a) (f a) Q') : Deg M D P (m >>= f) Q' := by
  refine ⟨VGoes.bind h.1 fun a => (hf a).1, fun hp hw s b s'' e hn he => ?_⟩
  obtain ⟨a, s', e1, e2⟩ := Act.bind_eq_ok.1 e
  have g1 := h.1 s hn
  rw [e1] at g1
  have g2 := (hf a).1 s' g1.num
  rw [e2] at g2
  obtain ⟨z1, u1, q1⟩ := h.2 hp hw s a s' e1 hn fun id c hc => he id c (g2.closures id c hc)
  obtain ⟨z2, u2, q2⟩ := (hf a).2 ⟨hp, q1⟩ hw s' b s'' e2 g1.num he
  exact ⟨fun h hh => (z2 h hh).elim (z1 h) .inr, fun c hh => (u2 c hh).elim (u1 c) .inr, q2⟩
theorem imp {m : Act (VSt F C B) α} {P' : Prop} (h : Deg M D P m Q) (hp : P' → P) : Deg M D P' m Q := ⟨h.1, fun p => h.2 (hp p)⟩
theorem upto {m : Act (VSt F C B) α} {D' : Nat} (h : Deg M D' P m Q) (hd : P → D' ≤ D) : Deg M D P m Q := ⟨h.1, fun p hw s a s' e hn he => by
  obtain ⟨z, u, q⟩ := h.2 p hw s a s' e hn he
  exact ⟨fun x hx => (z x hx).imp_right fun w => w.trans (hd p), fun x hx => (u x hx).imp_right fun w => w.trans (hd p), q⟩⟩
theorem weaken {m : Act (VSt F C B) α} {Q2 : α → Prop} (h : Deg M D P m Q) (hq : ∀ a, P → Q a → Q2 a) : Deg M D P m Q2 := ⟨h.1, fun p hw s a s' e hn he => by
  obtain ⟨z, u, q⟩ := h.2 p hw s a s' e hn he
  exact ⟨z, u, hq a p q⟩⟩
/-- A call that claims nothing. -/
theorem quiet {m : Act (VSt F C B) α} (hg : VGoes m) (h : ∀ s a s', m s = (.ok a, s') → s'.own.zeroClaims = s.own.zeroClaims ∧ s'.own.sumClaims = s.own.sumClaims) :
    Deg M D P m fun _ => True := ⟨hg, fun _ _ s a s' e _ _ => by
  obtain ⟨h1, h2⟩ := h s a s' e
  rw [h1, h2]
  exact ⟨fun _ h => .inl h, fun _ h => .inl h, trivial⟩⟩
theorem pure (a : α) : Deg M D P (Pure.pure a : Act (VSt F C B) α) fun b => b = a := ⟨VGoes.pure a, fun _ _ s b s' e _ _ => by
  cases e
  exact ⟨fun _ h => .inl h, fun _ h => .inl h, rfl⟩⟩
theorem lift (r : Res α) : Deg M D P (Act.lift r : Act (VSt F C B) α) fun b => r = .ok b := ⟨VGoes.lift r, fun _ _ s b s' e _ _ => by
  cases e
  exact ⟨fun _ h => .inl h, fun _ h => .inl h, rfl⟩⟩
theorem ite {p : Prop} [Decidable p] {m m' : Act (VSt F C B) α} (h1 : Deg M D P m Q) (h2 : Deg M D P m' Q) : Deg M D P (if p then m else m') Q := by
  split_ifs
  · exact h1
  · exact h2
theorem fail (x : Fail) : Deg M D P (Act.lift (.error x) : Act (VSt F C B) α) Q := ⟨VGoes.lift _, fun _ _ s a s' e _ _ => by cases e⟩

theorem nextId : Deg M D P (VSt.getNextId : Act (VSt F C B) Nat) fun _ => True := quiet VGoes.nextId fun s a s' e => by cases e; exact ⟨rfl, rfl⟩
theorem claimedSum (i : Nat) : Deg M D P (VSt.claimedSum i : Act (VSt F C B) F) fun _ => True := quiet (VGoes.claimedSum i) fun s a s' e => by
  have e := (Prod.mk.inj e).2
  subst e
  exact ⟨rfl, rfl⟩
theorem challenge (H : Oracle F C) (l : String) : Deg M D P (VSt.challenge H l : Act (VSt F C B) F) fun _ => True := quiet (VGoes.challenge H l) fun s a s' e => by
  unfold VSt.challenge at e
  rcases hc : s.own.transcript.challenge H l with x | ⟨c, tr⟩ <;> rw [hc] at e <;> cases e
  exact ⟨rfl, rfl⟩
theorem virtual (c : VComm F) : Deg M D P (VSt.trackVirtual c : Act (VSt F C B) Nat) fun a => dg M a = dgOf M c := ⟨VGoes.virtual c, fun _ hw s a s' e hn he => by
  cases e
  refine ⟨fun _ h => .inl h, fun _ h => .inl h, dg_look hw (he _ _ ?_)⟩
  change (amInsert s.own.idCounter c s.sh.comms).lookup _ = _
  rw [lookup_amInsert, if_pos rfl]⟩
theorem fn (f : List F → Res F) : Deg M D P (VSt.trackVirtual (.fn f) : Act (VSt F C B) Nat) fun a => dg M a = 1 := virtual _
theorem one : Deg M D P (VSt.trackVirtual (oneFn F) : Act (VSt F C B) Nat) fun a => dg M a = 1 := virtual _
theorem mle (p : Mle F) : Deg M D P (VSt.trackVirtual (StrictSort.mleFn p) : Act (VSt F C B) Nat) fun a => dg M a = 1 := virtual _
theorem ordered : Deg M D P (VSt.trackVirtual (PrescPerm.orderedFn F) : Act (VSt F C B) Nat) fun a => dg M a = 1 := virtual _
theorem add (i j : Nat) : Deg M D P (VSt.addComms i j : Act (VSt F C B) Nat) fun a => dg M a = max (dg M i) (dg M j) := virtual _
theorem sub (i j : Nat) : Deg M D P (VSt.subComms i j : Act (VSt F C B) Nat) fun a => dg M a = max (dg M i) (dg M j) := virtual _
theorem mul (i j : Nat) : Deg M D P (VSt.mulComms i j : Act (VSt F C B) Nat) fun a => dg M a = dg M i + dg M j := virtual _
theorem mulScalar (i : Nat) (c : F) : Deg M D P (VSt.mulScalar i c : Act (VSt F C B) Nat) fun a => dg M a = dg M i := virtual _
theorem genId : Deg M D P (VSt.genId : Act (VSt F C B) Nat) fun _ => True := quiet VGoes.genId fun s a s' e => by cases e; exact ⟨rfl, rfl⟩
theorem addScalar (i : Nat) (c : F) : Deg M D P (VSt.addScalar i c : Act (VSt F C B) Nat) fun a => dg M a = dg M i := bind genId fun _ => virtual _
theorem trackMat (c : C) : Deg M D P (VSt.trackMatComm c : Act (VSt F C B) Nat) fun a => dg M a = 1 := ⟨VGoes.trackMat c, fun _ hw s a s' e hn he => by
  cases e
  refine ⟨fun _ h => .inl h, fun _ h => .inl h, dg_look hw (c := .query s.own.idCounter) (he s.own.idCounter _ ?_)⟩
  change (amInsert s.own.idCounter (.query s.own.idCounter) s.sh.comms).lookup _ = _
  rw [lookup_amInsert, if_pos rfl]⟩
theorem expect {m : Act (VSt F C B) α} (h : Deg M D P m Q) : Deg M D P (Act.expect m) Q := ⟨VGoes.expect h.1, fun hp hw s a s' e hn he => by
  refine h.2 hp hw s a s' ?_ hn he
  unfold Act.expect at e
  rcases hm : m s with ⟨_ | x, s4⟩ <;> rw [hm] at e <;> cases e
  rfl⟩
theorem assert (p : Prop) [Decidable p] : Deg M D P (Act.assert p : Act (VSt F C B) Unit) fun _ => True := quiet (VGoes.assert p) fun s a s' e => by
  unfold Act.assert at e
  split at e <;> cases e
  exact ⟨rfl, rfl⟩
theorem reads (f : VSt F C B → Res α) : Deg M D P (Act.reads f) fun _ => True := quiet (VGoes.reads f) fun s a s' e => by
  have e := (Prod.mk.inj e).2
  subst e
  exact ⟨rfl, rfl⟩
theorem transfer (d : Bool) (i : Nat) : Deg M D P (VSt.transferComm d i : Act (VSt F C B) Nat) fun a => dg M a = 1 :=
  bind (reads _) fun _ => bind (expect (trackMat _)) fun _ => bind (assert _) fun _ => (pure _).weaken fun a hp ha => by
    subst ha
    exact hp.1.2
theorem sumClaim (i : Nat) (v : F) (h : P → dg M i ≤ D) : Deg M D P (VSt.addSumClaim i v : Act (VSt F C B) Unit) fun _ => True := ⟨VGoes.sumClaim i v, fun hp _ s a s' e _ _ => by
  cases e
  refine ⟨fun _ h => .inl h, fun c hc => ?_, trivial⟩
  rcases List.mem_append.1 hc with hc | hc
  · exact .inl hc
  · cases List.mem_singleton.1 hc
    exact .inr (h hp)⟩
theorem zeroClaim (i : Nat) (h : P → dg M i ≤ D) : Deg M D P (VSt.addZeroClaim i : Act (VSt F C B) Unit) fun _ => True := ⟨VGoes.zeroClaim i, fun hp _ s a s' e _ _ => by
  cases e
  refine ⟨fun c hc => ?_, fun _ h => .inl h, trivial⟩
  rcases List.mem_append.1 hc with hc | hc
  · exact .inl hc
  · cases List.mem_singleton.1 hc
    exact .inr (h hp)⟩
theorem done {m : Act (VSt F C B) α} (h : Deg M D P m Q) : Deg M D P m fun _ => True := h.weaken fun _ _ _ => trivial

variable (E : Env F C)

syntax "degs_call" : tactic
macro_rules | `(tactic| degs_call) => `(tactic| fail "no rule")

/-- All steps of a call. -/
macro "degs" : tactic => `(tactic| (
    repeat (first
    | with_reducible exact fail _ | with_reducible exact nextId | with_reducible exact claimedSum _
    | with_reducible exact challenge _ _ | with_reducible exact one | with_reducible exact mle _ | with_reducible exact ordered
    | with_reducible exact add _ _ | with_reducible exact sub _ _ | with_reducible exact mul _ _ | with_reducible exact mulScalar _ _
    | with_reducible exact addScalar _ _ | with_reducible exact transfer _ _
    | (with_reducible refine zeroClaim _ ?_; intro _; omega)
    | (with_reducible refine sumClaim _ _ ?_; intro _; omega)
    | degs_call
    | with_reducible exact done (pure _) | with_reducible exact done (lift _)
    | with_reducible exact pure _ | with_reducible exact lift _
    | (with_reducible apply bind)
    | (with_reducible apply ite)
    | intro _)))

/-- The degree of the claims about a bag with multiplicities. -/
def lg (p s m : Nat) : Nat := max (p + 1) (m + s + 1)

theorem verifySub (b : BagComm) (m : Nat) (γ : F) (h : P → lg (dg M b.poly) (dg M b.selector) (dg M m) ≤ D) : Deg M D P (Multitool.verifySub E b m γ : Act (VSt F C B) F) fun _ => True := by
  unfold Multitool.verifySub
  unfold lg at h
  refine imp ?_ h
  degs

theorem verifySubs (γ : F) (t : Nat) : ∀ (P : Prop) (l : List (BagComm × Nat)) (acc : F), (P → ∀ e ∈ l, lg (dg M e.1.poly) (dg M e.1.selector) (dg M e.2) ≤ D) →
    Deg M D P (Multitool.verifySubs E γ t l acc : Act (VSt F C B) F) fun _ => True
  | _, [], _, _ => done (pure _)
  | P, (b, m) :: r, acc, h => by
    unfold Multitool.verifySubs
    exact bind (verifySub E b m γ fun hp => h hp (b, m) (.head _)) fun _ => bind (done (lift _)) fun _ => verifySubs γ t _ r _ fun hp e he => h hp.1.1 e (.tail _ he)

theorem multitool (fxs gxs : List BagComm) (mf mg : List Nat) (h : P → ∀ e ∈ fxs.zip mf ++ gxs.zip mg, lg (dg M e.1.poly) (dg M e.1.selector) (dg M e.2) ≤ D) :
    Deg M D P (Multitool.verify E fxs gxs mf mg : Act (VSt F C B) Unit) fun _ => True := by
  unfold Multitool.verify
  refine ite (fail _) (ite (fail _) (bind (challenge _ _) fun γ => bind (verifySubs E _ _ _ _ _ ?_) fun _ => bind (verifySubs E _ _ _ _ _ ?_) fun _ => ite (done (pure _)) (fail _)))
  · exact fun hp e he => h hp.1 e (List.mem_append_left _ he)
  · exact fun hp e he => h hp.1.1 e (List.mem_append_right _ he)

theorem bagEq (f g : BagComm) (h : P → lg (dg M f.poly) (dg M f.selector) 1 ≤ D ∧ lg (dg M g.poly) (dg M g.selector) 1 ≤ D) :
    Deg M D P (BagEq.verify E f g : Act (VSt F C B) Unit) fun _ => True := by
  unfold BagEq.verify
  refine bind one fun a => multitool E _ _ _ _ ?_
  rintro ⟨hp, ha⟩
  simpa [ha] using h hp

theorem bagSum (f g k : BagComm) (h : P → lg (dg M f.poly) (dg M f.selector) 1 ≤ D ∧ lg (dg M g.poly) (dg M g.selector) 1 ≤ D ∧ lg (dg M k.poly) (dg M k.selector) 1 ≤ D) :
    Deg M D P (BagSum.verify E f g k : Act (VSt F C B) Unit) fun _ => True := by
  unfold BagSum.verify
  refine bind one fun a => bind one fun b => bind one fun c => multitool E _ _ _ _ ?_
  rintro ⟨⟨⟨hp, ha⟩, -⟩, -⟩
  simpa [ha] using h hp

theorem inclusionAdvice (f g : BagComm) (m : Nat) (h : P → lg (dg M f.poly) (dg M f.selector) 1 ≤ D ∧ lg (dg M g.poly) (dg M g.selector) (dg M m) ≤ D) :
    Deg M D P (Inclusion.verifyWithAdvice E f g m : Act (VSt F C B) Unit) fun _ => True := by
  unfold Inclusion.verifyWithAdvice
  refine bind one fun a => multitool E _ _ _ _ ?_
  rintro ⟨hp, ha⟩
  simpa [ha] using h hp

theorem inclusion (f g : BagComm) (h : P → lg (dg M f.poly) (dg M f.selector) 1 ≤ D ∧ lg (dg M g.poly) (dg M g.selector) 1 ≤ D) :
    Deg M D P (Inclusion.verify E f g : Act (VSt F C B) Unit) fun _ => True := by
  unfold Inclusion.verify
  refine bind nextId fun _ => bind (transfer _ _) fun m => inclusionAdvice E _ _ _ ?_
  rintro ⟨⟨hp, -⟩, ha⟩
  rw [ha]
  exact h hp

theorem noZeros (b : BagComm) (h : P → dg M b.poly + dg M b.selector + 1 ≤ D) : Deg M D P (NoZeros.verify E b : Act (VSt F C B) Unit) fun _ => True := by
  unfold NoZeros.verify
  refine imp ?_ h
  degs

theorem selector (i : Nat) (h : P → dg M i + dg M i ≤ D) : Deg M D P (SelectorValid.verify i : Act (VSt F C B) Unit) fun _ => True := by
  unfold SelectorValid.verify
  refine imp ?_ h
  degs

macro_rules | `(tactic| degs_call) => `(tactic| (with_reducible refine Deg.bagEq _ _ _ ?_; intro _; simp only [Deg.lg]; omega))
macro_rules | `(tactic| degs_call) => `(tactic| (with_reducible refine Deg.bagSum _ _ _ _ ?_; intro _; simp only [Deg.lg]; omega))
macro_rules | `(tactic| degs_call) => `(tactic| (with_reducible refine Deg.inclusion _ _ _ ?_; intro _; simp only [Deg.lg]; omega))
macro_rules | `(tactic| degs_call) => `(tactic| (with_reducible refine Deg.inclusionAdvice _ _ _ _ ?_; intro _; simp only [Deg.lg]; omega))
macro_rules | `(tactic| degs_call) => `(tactic| (with_reducible refine Deg.noZeros _ _ ?_; intro _; (try dsimp only); omega))
macro_rules | `(tactic| degs_call) => `(tactic| (with_reducible refine Deg.selector _ ?_; intro _; omega))

theorem permutation (f g : BagComm) (p : Nat) (h : P → 3 ≤ D ∧ dg M f.poly ≤ D ∧ dg M g.poly ≤ D ∧ dg M p ≤ D) :
    Deg M D P (PrescPerm.verify E f g p : Act (VSt F C B) Unit) fun _ => True := by
  unfold PrescPerm.verify
  refine imp ?_ h
  degs
macro_rules | `(tactic| degs_call) => `(tactic| (with_reducible refine Deg.permutation _ _ _ _ ?_; intro _; (try dsimp only); omega))

theorem sort (f r : BagComm) (h : P → 2 + max 1 (dg M f.poly) + dg M f.selector ≤ D ∧ dg M r.poly + 1 ≤ D) :
    Deg M D P (StrictSort.verify E f r : Act (VSt F C B) Unit) fun _ => True := by
  unfold StrictSort.verify
  dsimp only
  refine imp ?_ h
  degs
macro_rules | `(tactic| degs_call) => `(tactic| (with_reducible refine Deg.sort _ _ _ ?_; intro _; (try dsimp only); omega))

theorem suppAdvice (b p : BagComm) (m : Nat) (r : BagComm) {d : Nat} (hd : 1 ≤ d ∧ 2 * d + 2 ≤ D)
    (h : P → (dg M b.poly ≤ d ∧ dg M b.selector ≤ d) ∧ (dg M p.poly ≤ d ∧ dg M p.selector ≤ d) ∧ dg M m ≤ d ∧ dg M r.poly ≤ d) :
    Deg M D P (Supp.verifyWithAdvice E b p m r : Act (VSt F C B) Unit) fun _ => True := by
  unfold Supp.verifyWithAdvice
  refine imp ?_ h
  degs

theorem supp (b p r : BagComm) {d : Nat} (hd : 1 ≤ d ∧ 2 * d + 2 ≤ D)
    (h : P → (dg M b.poly ≤ d ∧ dg M b.selector ≤ d) ∧ (dg M p.poly ≤ d ∧ dg M p.selector ≤ d) ∧ dg M r.poly ≤ d) :
    Deg M D P (Supp.verify E b p r : Act (VSt F C B) Unit) fun _ => True := by
  unfold Supp.verify
  exact bind nextId fun _ => bind (transfer _ _) fun m => suppAdvice E _ _ _ _ hd fun hp => by
    have := h hp.1.1
    have := hp.2
    omega

theorem disjoint (a b r : BagComm) (h : P → lg (dg M a.poly) (dg M a.selector) 1 ≤ D ∧ lg (dg M b.poly) (dg M b.selector) 1 ≤ D ∧ 4 ≤ D ∧ dg M r.poly + 1 ≤ D) :
    Deg M D P (Disjoint.verify E a b r : Act (VSt F C B) Unit) fun _ => True := by
  unfold Disjoint.verify Disjoint.verifyWithAdvice
  dsimp only
  simp only [lg] at h
  refine imp ?_ h
  degs
macro_rules | `(tactic| degs_call) => `(tactic| (with_reducible refine Deg.disjoint _ _ _ _ ?_; intro _; simp only [Deg.lg]; omega))

theorem setDisjoint (a b r : BagComm) (h : P → lg (dg M a.poly) (dg M a.selector) 1 ≤ D ∧ lg (dg M b.poly) (dg M b.selector) 1 ≤ D ∧ 4 ≤ D ∧ dg M r.poly + 1 ≤ D) :
    Deg M D P (SetDisjoint.verify E a b r : Act (VSt F C B) Unit) fun _ => True := by
  unfold SetDisjoint.verify
  dsimp only
  simp only [lg] at h
  refine imp ?_ h
  degs
macro_rules | `(tactic| degs_call) => `(tactic| (with_reducible refine Deg.setDisjoint _ _ _ _ ?_; intro _; simp only [Deg.lg]; omega))

theorem setUnion (a b u r : BagComm) {d : Nat} (hd : 1 ≤ d ∧ 2 * d + 2 ≤ D)
    (h : P → (dg M a.poly ≤ d ∧ dg M a.selector ≤ d) ∧ (dg M b.poly ≤ d ∧ dg M b.selector ≤ d) ∧ (dg M u.poly ≤ d ∧ dg M u.selector ≤ d) ∧ dg M r.poly ≤ d) :
    Deg M D P (SetUnion.verify E a b u r : Act (VSt F C B) Unit) fun _ => True := by
  unfold SetUnion.verify
  dsimp only
  refine imp ?_ h
  refine bind nextId fun _ => bind (transfer _ _) fun p => bind nextId fun _ => bind (transfer _ _) fun s => bind (Q := fun _ => True) ?_ fun _ => supp E _ _ _ hd ?_
  · degs
  · intro hp
    dsimp only
    omega

theorem setDiff (a b l m : BagComm) (bm : Nat) (r : BagComm) {d : Nat} (hd : 1 ≤ d ∧ 2 * d + 1 ≤ D ∧ 4 ≤ D)
    (h : P → (dg M a.poly ≤ d ∧ dg M a.selector ≤ d) ∧ (dg M b.poly ≤ d ∧ dg M b.selector ≤ d) ∧ (dg M l.poly ≤ d ∧ dg M l.selector ≤ d) ∧
      (dg M m.poly ≤ d ∧ dg M m.selector ≤ d) ∧ dg M bm ≤ d ∧ dg M r.poly ≤ d) :
    Deg M D P (SetDiff.verify E a b l m bm r : Act (VSt F C B) Unit) fun _ => True := by
  unfold SetDiff.verify
  refine imp ?_ h
  degs

theorem setIntersect (a b l m r range : BagComm) {d : Nat} (hd : 1 ≤ d ∧ d + 2 ≤ D ∧ 4 ≤ D)
    (h : P → (dg M a.poly ≤ d ∧ dg M a.selector ≤ d) ∧ (dg M b.poly ≤ d ∧ dg M b.selector ≤ d) ∧ (dg M l.poly ≤ d ∧ dg M l.selector ≤ d) ∧
      (dg M m.poly ≤ d ∧ dg M m.selector ≤ d) ∧ (dg M r.poly ≤ d ∧ dg M r.selector ≤ d) ∧ dg M range.poly ≤ d) :
    Deg M D P (SetIntersect.verify E a b l m r range : Act (VSt F C B) Unit) fun _ => True := by
  unfold SetIntersect.verify
  refine imp ?_ h
  degs

theorem joinReduction (a b : BagComm) (l r : Nat) (range : BagComm) {d : Nat} (hd : 1 ≤ d ∧ 2 * d + 2 ≤ D)
    (h : P → (dg M a.poly ≤ d ∧ dg M a.selector ≤ d) ∧ (dg M b.poly ≤ d ∧ dg M b.selector ≤ d) ∧ dg M l ≤ d ∧ dg M r ≤ d ∧ dg M range.poly ≤ d) :
    Deg M D P (JoinReduction.verify E a b l r range : Act (VSt F C B) Unit) fun _ => True := by
  unfold JoinReduction.verify
  refine imp ?_ h
  degs

theorem aggLoop {d : Nat} : ∀ (P : Prop) (acc : Nat) (cs : List Nat) (rs : List F), (P → ∀ c ∈ cs, dg M c ≤ d) →
    Deg M D P (IndexTransform.verifierAggLoop acc cs rs : Act (VSt F C B) Nat) fun a => dg M a ≤ dg M acc + cs.length * d
  | _, _, [], _, _ => (pure _).weaken fun a _ h => by simp [h]
  | _, _, _ :: _, [], _ => fail _
  | P, acc, c :: cs, r :: rs, h => by
    unfold IndexTransform.verifierAggLoop
    refine bind (mulScalar _ _) fun x => bind (mul _ _) fun y => (aggLoop _ _ cs rs fun hp c hc => h hp.1.1 c (.tail _ hc)).weaken fun a hp ha => ?_
    have h1 := h hp.1.1 c (.head _)
    have h2 := hp.1.2
    have h3 := hp.2
    rw [List.length_cons, Nat.succ_mul]
    omega

theorem indexTransform (a b : TableComm) {d : Nat} (hd : d + 2 ≤ D ∧ (max a.colVals.length b.colVals.length + 1) * d + 1 ≤ D)
    (h : P → (∀ c ∈ a.colVals, dg M c ≤ d) ∧ dg M a.selector ≤ d ∧ (∀ c ∈ b.colVals, dg M c ≤ d) ∧ dg M b.selector ≤ d) :
    Deg M D P (IndexTransform.verify E a b : Act (VSt F C B) Unit) fun _ => True := by
  unfold IndexTransform.verify IndexTransform.verifierPowers IndexTransform.verifierAgg
  refine bind (bind (challenge _ _) fun _ => done (pure _)) fun co => bind (Q := fun b => dg M b.poly ≤ dg M a.selector + a.colVals.length * d ∧ b.selector = a.selector) ?_
    fun x => bind (Q := fun x => dg M x.poly ≤ dg M b.selector + b.colVals.length * d ∧ x.selector = b.selector) ?_ fun y => inclusion E _ _ ?_
  · refine bind (aggLoop (d := d) _ _ _ _ fun hp => (h hp.1).1) fun p => (pure _).weaken fun z hp hz => ?_
    subst hz
    exact ⟨hp.2, rfl⟩
  · refine bind (aggLoop (d := d) _ _ _ _ fun hp => (h hp.1.1).2.2.1) fun p => (pure _).weaken fun z hp hz => ?_
    subst hz
    exact ⟨hp.2, rfl⟩
  · rintro ⟨⟨⟨hp, -⟩, hx, ex⟩, hy, ey⟩
    obtain ⟨-, h1, -, h2⟩ := h hp
    have k1 := Nat.mul_le_mul_right d (Nat.le_max_left a.colVals.length b.colVals.length)
    have k2 := Nat.mul_le_mul_right d (Nat.le_max_right a.colVals.length b.colVals.length)
    have hd2 := hd.2
    rw [Nat.succ_mul] at hd2
    simp only [lg, ex, ey]
    omega

theorem joinAdvice (a b : TableComm) (ai bi : Nat) (ta : List Nat) {d : Nat} (hd : 1 ≤ d ∧ d + 2 ≤ D ∧ 2 * d ≤ D ∧ (a.colVals.length + 1) * d + 1 ≤ D)
    (h : P → (∀ c ∈ a.colVals, dg M c ≤ d) ∧ dg M a.selector ≤ d ∧ (∀ c ∈ b.colVals, dg M c ≤ d) ∧ dg M b.selector ≤ d ∧ ∀ c ∈ ta, dg M c ≤ d) :
    Deg M D P (FinalJoin.verifyWithAdvice E a b ai bi ta : Act (VSt F C B) TableComm) fun t => t.colVals = ta ++ b.colVals := by
  unfold FinalJoin.verifyWithAdvice
  dsimp only
  have all : P → ∀ c ∈ ta ++ b.colVals, dg M c ≤ d := fun hp c hc => (List.mem_append.1 hc).elim ((h hp).2.2.2.2 c) ((h hp).2.2.1 c)
  refine bind (lift _) fun cols => ?_
  refine bind (Q := fun _ => True) ?_ fun _ => bind (lift _) fun ja => bind (lift _) fun jb => bind (sub _ _) fun x => bind (mul _ _) fun y =>
    bind (zeroClaim _ ?_) fun _ => (pure _).weaken fun t _ ht => by rw [ht]
  · by_cases hc : FinalJoin.prefixOf a.colVals.length (ta ++ b.colVals) = .ok cols
    · have hc' : cols = (ta ++ b.colVals).take a.colVals.length ∧ cols.length = a.colVals.length := by
        unfold FinalJoin.prefixOf at hc
        split at hc <;> cases hc
        exact ⟨rfl, List.length_take_of_le (by omega)⟩
      refine indexTransform E _ _ (d := d) ?_ fun hp => ?_
      · dsimp only
        rw [hc'.2, Nat.max_self]
        exact ⟨hd.2.1, hd.2.2.2⟩
      · refine ⟨(h hp.1).1, (h hp.1).2.1, fun c hm => all hp.1 c ?_, (h hp.1).2.2.2.1⟩
        rw [hc'.1] at hm
        exact List.mem_of_mem_take hm
    · exact ⟨VGoes.indexTransform E _ _, fun hp => absurd hp.2 hc⟩
  · rintro ⟨⟨⟨⟨⟨⟨hp, -⟩, -⟩, e1⟩, e2⟩, h3⟩, h4⟩
    have k1 := all hp ja (idx_mem e1)
    have k2 := all hp jb (idx_mem e2)
    have k3 := (h hp).2.2.2.1
    omega

theorem transferAll : ∀ (P : Prop) (n : Nat), Deg M D P (FinalJoin.transferAll E n : Act (VSt F C B) (List Nat)) fun l => l.length = n ∧ ∀ c ∈ l, dg M c = 1
  | _, 0 => (pure _).weaken fun a _ h => by simp [h]
  | P, n + 1 => by
    unfold FinalJoin.transferAll
    exact bind nextId fun _ => bind (transfer _ _) fun _ => bind (transferAll _ n) fun _ => (pure _).weaken fun a hp h => by
      subst h
      exact ⟨by simp [hp.2.1], List.forall_mem_cons.2 ⟨hp.1.2, hp.2.2⟩⟩

theorem join (a b : TableComm) (ai bi : Nat) {d : Nat} (hd : 1 ≤ d ∧ d + 2 ≤ D ∧ 2 * d ≤ D ∧ (a.colVals.length + 1) * d + 1 ≤ D)
    (h : P → (∀ c ∈ a.colVals, dg M c ≤ d) ∧ dg M a.selector ≤ d ∧ (∀ c ∈ b.colVals, dg M c ≤ d) ∧ dg M b.selector ≤ d) :
    Deg M D P (FinalJoin.verify E a b ai bi : Act (VSt F C B) TableComm) fun t => (t.colVals.take a.colVals.length).length = a.colVals.length ∧
      ∀ c ∈ t.colVals.take a.colVals.length, dg M c = 1 := by
  unfold FinalJoin.verify
  refine bind (transferAll E _ _) fun ta => (joinAdvice E _ _ _ _ _ (d := d) hd fun hp => ⟨(h hp.1).1, (h hp.1).2.1, (h hp.1).2.2.1, (h hp.1).2.2.2, fun c hc => ?_⟩).weaken
    fun t hp ht => ?_
  · rw [hp.2.2 c hc]
    exact hd.1
  · rw [ht, List.take_append_of_le_length hp.2.1.ge, ← hp.2.1, List.take_length]
    exact ⟨rfl, hp.2.2⟩

theorem aggs (inp : TableComm) (pre grp : BagComm) (mult : Nat) {d : Nat} (hd : 2 * d + 1 ≤ D) : ∀ (P : Prop) (l : List (Nat × AggType × Nat)) (cols : List Nat),
    (P → (∀ c ∈ inp.colVals, dg M c ≤ d) ∧ (dg M pre.poly ≤ d ∧ dg M pre.selector ≤ d) ∧ (dg M grp.poly ≤ d ∧ dg M grp.selector ≤ d) ∧ ∀ e ∈ l, dg M e.2.2 ≤ d) →
    Deg M D P (GroupBy.verifyAggs E inp pre grp mult l cols : Act (VSt F C B) (List Nat)) fun _ => True
  | _, [], _, _ => done (pure _)
  | P, (_, .count, _) :: r, cols, h => by
    unfold GroupBy.verifyAggs
    exact aggs inp pre grp mult hd P r _ fun hp => ⟨(h hp).1, (h hp).2.1, (h hp).2.2.1, fun e he => (h hp).2.2.2 e (.tail _ he)⟩
  | P, (c, .sum, p) :: r, cols, h => by
    unfold GroupBy.verifyAggs
    refine bind (lift _) fun x => bind (multitool E _ _ _ _ fun hp => ?_) fun _ => aggs inp pre grp mult hd _ r _ fun hp =>
      ⟨(h hp.1.1).1, (h hp.1.1).2.1, (h hp.1.1).2.2.1, fun e he => (h hp.1.1).2.2.2 e (.tail _ he)⟩
    obtain ⟨h1, h2, h3, h4⟩ := h hp.1
    have h5 := h1 x (idx_mem hp.2)
    have h6 := h4 _ (.head _)
    dsimp only at h6
    simp only [List.zip_cons_cons, List.zip_nil_left, List.cons_append, List.nil_append, List.mem_cons, List.not_mem_nil, or_false, forall_eq_or_imp, forall_eq, lg]
    omega
  | _, (_, .avg, _) :: _, _, _ => fail _
  | _, (_, .min, _) :: _, _, _ => fail _
  | _, (_, .max, _) :: _, _, _ => fail _

theorem groupBy (inp : TableComm) (i : GroupInstr Nat) (r : BagComm) {d : Nat} (hd : 1 ≤ d ∧ 2 * d + 2 ≤ D)
    (h : P → (∀ c ∈ inp.colVals, dg M c ≤ d) ∧ dg M inp.selector ≤ d ∧ (∀ e ∈ i.supportCols, dg M e ≤ d) ∧ dg M i.supportSel ≤ d ∧ dg M i.supportMult ≤ d ∧
      (∀ e ∈ i.aggs, dg M e.2.2 ≤ d) ∧ dg M r.poly ≤ d) :
    Deg M D P (GroupBy.verifyWithAdvice E inp i r : Act (VSt F C B) TableComm) fun _ => True := by
  unfold GroupBy.verifyWithAdvice
  refine bind (lift _) fun gs => ?_
  obtain ⟨g, sp⟩ := gs
  dsimp only
  refine bind (lift _) fun c => bind (suppAdvice E _ _ _ _ (d := d) hd fun hp => ?_) fun _ => bind (aggs E _ _ _ _ (d := d) (by omega) _ _ _ fun hp => ?_) fun _ => done (pure _)
  · obtain ⟨h1, h2, h3, h4, h5, h6, h7⟩ := h hp.1.1
    exact ⟨⟨h1 c (idx_mem hp.2), h2⟩, ⟨h3 sp (validate_mem hp.1.2), h4⟩, h5, h7⟩
  · obtain ⟨h1, h2, h3, h4, h5, h6, h7⟩ := h hp.1.1.1
    exact ⟨h1, ⟨h1 c (idx_mem hp.1.2), h2⟩, ⟨h3 sp (validate_mem hp.1.1.2), h4⟩, h6⟩

theorem check (c : Check TPoly) {d : Nat} (hd : 1 ≤ d) (h : P → ∀ k ∈ c.names, dg M k.id ≤ d) : Deg M (c.degree d) P (c.verify E : Act (VSt F C B) Unit) fun _ => True := by
  cases c with
  | multiset fs gs =>
    refine multitool E _ _ _ _ fun hp e he => ?_
    have key : ∀ l : List ((TPoly × TPoly) × TPoly), (∀ x ∈ l, x ∈ fs ++ gs) → e ∈ (l.map fun e => bagCommOf e.1).zip (l.map (·.2.id)) →
        lg (dg M e.1.poly) (dg M e.1.selector) (dg M e.2) ≤ 2 * d + 1 := fun l hl hm => by
      rw [List.zip_map', List.mem_map] at hm
      obtain ⟨x, hx, rfl⟩ := hm
      have h1 := h hp x.1.1 (List.mem_flatMap.2 ⟨x, hl x hx, by simp⟩)
      have h2 := h hp x.1.2 (List.mem_flatMap.2 ⟨x, hl x hx, by simp⟩)
      have h3 := h hp x.2 (List.mem_flatMap.2 ⟨x, hl x hx, by simp⟩)
      simp only [lg, bagCommOf, sameBag, bagOf]
      omega
    rcases List.mem_append.1 he with he | he
    · exact key fs (fun x hx => List.mem_append_left _ hx) he
    · exact key gs (fun x hx => List.mem_append_right _ hx) he
  | indexTransform a b =>
    refine indexTransform E _ _ (d := d) ?_ fun hp => ⟨?_, h hp _ (by simp [Check.names, tableOf, bagOf, requestOf]), ?_, h hp _ (by simp [Check.names, tableOf, bagOf, requestOf])⟩
    · simp only [tableCommOf, sameTab, tableOf, List.length_map, Check.degree]
      exact ⟨Nat.le_max_left _ _, Nat.le_max_right _ _⟩
    · intro c hc
      obtain ⟨k, hk, rfl⟩ := List.mem_map.1 hc
      exact h hp k (List.mem_append_left _ hk)
    · intro c hc
      obtain ⟨k, hk, rfl⟩ := List.mem_map.1 hc
      exact h hp k (List.mem_append_right _ (.tail _ (List.mem_append_left _ hk)))
  | joinAdvice a b ai bi ta =>
    refine bind (joinAdvice E _ _ _ _ _ (d := d) ?_ fun hp => ⟨?_, h hp _ (by simp [Check.names, tableOf, bagOf, requestOf]), ?_, h hp _ (by simp [Check.names, tableOf, bagOf, requestOf]), ?_⟩) fun _ => done (pure _)
    · simp only [tableCommOf, sameTab, tableOf, List.length_map, Check.degree]
      omega
    · intro c hc
      obtain ⟨k, hk, rfl⟩ := List.mem_map.1 hc
      exact h hp k (List.mem_append_left _ hk)
    · intro c hc
      obtain ⟨k, hk, rfl⟩ := List.mem_map.1 hc
      exact h hp k (List.mem_append_right _ (.tail _ (List.mem_append_left _ hk)))
    · intro c hc
      obtain ⟨k, hk, rfl⟩ := List.mem_map.1 hc
      exact h hp k (List.mem_append_right _ (.tail _ (List.mem_append_right _ (.tail _ hk))))
  | groupBy inp key grp mult as range =>
    refine bind (groupBy E _ _ _ (d := d) ⟨hd, Nat.le_refl _⟩ fun hp => ⟨?_, h hp _ (by simp [Check.names, tableOf, bagOf, requestOf]), ?_, h hp _ (by simp [Check.names, tableOf, bagOf, requestOf]), h hp _ (by simp [Check.names, tableOf, bagOf, requestOf]), ?_,
      h hp _ (by simp [Check.names, tableOf, bagOf, requestOf])⟩) fun _ => done (pure _)
    · intro c hc
      obtain ⟨k, hk, rfl⟩ := List.mem_map.1 hc
      exact h hp k (List.mem_append_left _ hk)
    · intro c hc
      simp only [sameInstr, requestOf, List.map_cons, List.map_nil, List.mem_singleton] at hc
      subst hc
      exact h hp _ (by simp [Check.names, tableOf, bagOf, requestOf])
    · intro e he
      obtain ⟨k, hk, rfl⟩ := List.mem_map.1 he
      refine h hp k.2.2 (List.mem_append_right _ ?_)
      simp only [List.mem_cons]
      exact .inr (.inr (.inr (.inr (.inr (.inr (List.mem_map.2 ⟨k, hk, rfl⟩))))))
  | bagEq f g => ?_
  | bagSum f g k => ?_
  | inclusion f g => ?_
  | inclusionAdvice f g m => ?_
  | noZeros f => ?_
  | selector m => ?_
  | permutation f g p => ?_
  | sort f r => ?_
  | support f g r => ?_
  | supportAdvice f g m r => ?_
  | disjoint f g r => ?_
  | setDisjoint f g r => ?_
  | union f g u r => ?_
  | diff f g l m k r => ?_
  | intersect f g l m k r => ?_
  | joinReduction f g l m r => ?_
  all_goals
    simp only [Check.names, List.mem_cons, List.not_mem_nil, or_false, forall_eq_or_imp, forall_eq] at h
  · refine bagEq E _ _ fun hp => ?_
    have := h hp
    simp only [lg, Check.degree, bagCommOf, sameBag, bagOf]
    omega
  · refine bagSum E _ _ _ fun hp => ?_
    have := h hp
    simp only [lg, Check.degree, bagCommOf, sameBag, bagOf]
    omega
  · refine inclusion E _ _ fun hp => ?_
    have := h hp
    simp only [lg, Check.degree, bagCommOf, sameBag, bagOf]
    omega
  · refine inclusionAdvice E _ _ _ fun hp => ?_
    have := h hp
    simp only [lg, Check.degree, bagCommOf, sameBag, bagOf]
    omega
  · refine noZeros E _ fun hp => ?_
    have := h hp
    simp only [Check.degree, bagCommOf, sameBag, bagOf]
    omega
  · refine selector _ fun hp => ?_
    have := h hp
    simp only [Check.degree]
    omega
  · refine permutation E _ _ _ fun hp => ?_
    have := h hp
    simp only [Check.degree, bagCommOf, sameBag, bagOf]
    omega
  · refine sort E _ _ fun hp => ?_
    have := h hp
    simp only [Check.degree, bagCommOf, sameBag, bagOf]
    omega
  · refine supp E _ _ _ (d := d) ⟨hd, Nat.le_refl _⟩ fun hp => ?_
    have := h hp
    simp only [bagCommOf, sameBag, bagOf]
    omega
  · refine suppAdvice E _ _ _ _ (d := d) ⟨hd, Nat.le_refl _⟩ fun hp => ?_
    have := h hp
    simp only [bagCommOf, sameBag, bagOf]
    omega
  · refine disjoint E _ _ _ fun hp => ?_
    have := h hp
    simp only [lg, Check.degree, bagCommOf, sameBag, bagOf]
    omega
  · refine setDisjoint E _ _ _ fun hp => ?_
    have := h hp
    simp only [lg, Check.degree, bagCommOf, sameBag, bagOf]
    omega
  · refine setUnion E _ _ _ _ (d := d) ⟨hd, Nat.le_refl _⟩ fun hp => ?_
    have := h hp
    simp only [bagCommOf, sameBag, bagOf]
    omega
  · refine setDiff E _ _ _ _ _ _ (d := d) (by simp only [Check.degree]; omega) fun hp => ?_
    have := h hp
    simp only [bagCommOf, sameBag, bagOf]
    omega
  · refine setIntersect E _ _ _ _ _ _ (d := d) (by simp only [Check.degree]; omega) fun hp => ?_
    have := h hp
    simp only [bagCommOf, sameBag, bagOf]
    omega
  · refine joinReduction E _ _ _ _ _ (d := d) ⟨hd, Nat.le_refl _⟩ fun hp => ?_
    have := h hp
    simp only [bagCommOf, sameBag, bagOf]
    omega

theorem degree_map {K L : Type} (f : K → L) (c : Check K) (d : Nat) : (c.map f).degree d = c.degree d := by
  cases c <;> simp [Check.map, Check.degree]

theorem one_le_top (L names : List Nat) : 1 ≤ topDegree L names := by
  unfold topDegree
  induction names with
  | nil => exact Nat.le_refl _
  | cons n r ih => exact ih.trans (Nat.le_max_right _ _)

theorem le_top (L : List Nat) : ∀ {names : List Nat} {i : Nat}, i ∈ names → L.getD i 0 ≤ topDegree L names
  | n :: r, i, h => by
    rcases List.mem_cons.1 h with rfl | h
    · exact Nat.le_max_left _ _
    · exact (le_top L h).trans (Nat.le_max_right _ _)

/-- The columns have the degrees of the list. -/
def Degrees (M : List (Nat × VComm F)) (hs : List TPoly) (L : List Nat) : Prop := hs.length = L.length ∧ ∀ i, i < hs.length → dg M (at' hs i).id ≤ L.getD i 0

theorem Degrees.at {hs : List TPoly} {L : List Nat} (h : Degrees M hs L) {i : Nat} (hi : i < L.length) : dg M (at' hs i).id ≤ L.getD i 0 := h.2 i (h.1.symm ▸ hi)

theorem Degrees.snoc {hs : List TPoly} {L : List Nat} (h : Degrees M hs L) {x nv d : Nat} (hx : dg M x ≤ d) : Degrees M (hs ++ [⟨x, nv⟩]) (L ++ [d]) := by
  refine ⟨by simp [h.1], fun i hi => ?_⟩
  rw [List.length_append, List.length_singleton] at hi
  unfold at'
  by_cases he : i < hs.length
  · rw [List.getD_append _ _ _ _ he, List.getD_append _ _ _ _ (h.1 ▸ he)]
    exact h.2 i he
  · have : i = hs.length := by omega
    subst this
    rw [List.getD_append_right _ _ _ _ (Nat.le_refl _), h.1, List.getD_append_right _ _ _ _ (Nat.le_refl _)]
    simpa using hx

theorem Degrees.append {nv : Nat} : ∀ {xs : List Nat} {hs : List TPoly} {L : List Nat}, Degrees M hs L → (∀ c ∈ xs, dg M c = 1) →
    Degrees M (hs ++ xs.map fun i => (⟨i, nv⟩ : TPoly)) (L ++ List.replicate xs.length 1)
  | [], hs, L, h, _ => by simpa using h
  | x :: xs, hs, L, h, hx => by
    have := Degrees.append (nv := nv) (xs := xs) (h.snoc (nv := nv) (hx x (.head _)).le) fun c hc => hx c (.tail _ hc)
    simpa [List.replicate_succ] using this

theorem next_len {W : List (Column F)} {L : List Nat} (hl : W.length = L.length) (s : Step F) : (s.next W).length = (s.degreesNext L).length := by
  cases s <;> simp [Step.next, Step.degreesNext, hl]

theorem verifyAll {N : Nat} : ∀ (P : Prop) (prog : List (Step F)) (hs : List TPoly) (L : List Nat) (W : List (Column F)), W.length = L.length → Step.FitsAll N W prog →
    (P → Degrees M hs L) → Deg M (Step.degreeAll L prog) P (Step.verifyAll E prog hs : Act (VSt F C B) (List TPoly)) fun _ => True := by
  intro P prog
  induction prog generalizing P with
  | nil => exact fun hs L W _ _ _ => done (pure _)
  | cons st r ih =>
    intro hs L W hl hf h
    have hl' := next_len hl st
    have hr := hf.2
    have h1 := hf.1
    have hD : Step.degreeAll (st.degreesNext L) r ≤ Step.degreeAll L (st :: r) := Nat.le_max_right _ _
    have hD' : st.degree L ≤ Step.degreeAll L (st :: r) := Nat.le_max_left _ _
    cases st with
    | commit p => exact bind nextId fun _ => bind (transfer _ _) fun x => (ih _ _ _ _ hl' hr fun hp => (h hp.1.1).snoc hp.2.le).upto fun _ => hD
    | add i j => exact bind (add _ _) fun x => (ih _ _ _ _ hl' hr fun hp => (h hp.1).snoc (by
        have h2 := (h hp.1).at (hl ▸ h1.1)
        have h3 := (h hp.1).at (hl ▸ h1.2.1)
        have h4 := hp.2
        omega)).upto fun _ => hD
    | sub i j => exact bind (sub _ _) fun x => (ih _ _ _ _ hl' hr fun hp => (h hp.1).snoc (by
        have h2 := (h hp.1).at (hl ▸ h1.1)
        have h3 := (h hp.1).at (hl ▸ h1.2.1)
        have h4 := hp.2
        omega)).upto fun _ => hD
    | mul i j => exact bind (mul _ _) fun x => (ih _ _ _ _ hl' hr fun hp => (h hp.1).snoc (by
        have h2 := (h hp.1).at (hl ▸ h1.1)
        have h3 := (h hp.1).at (hl ▸ h1.2.1)
        have h4 := hp.2
        omega)).upto fun _ => hD
    | addScalar i c => exact bind (addScalar _ _) fun x => (ih _ _ _ _ hl' hr fun hp => (h hp.1).snoc (hp.2 ▸ (h hp.1).at (hl ▸ h1))).upto fun _ => hD
    | mulScalar i c => exact bind (mulScalar _ _) fun x => (ih _ _ _ _ hl' hr fun hp => (h hp.1).snoc (hp.2 ▸ (h hp.1).at (hl ▸ h1))).upto fun _ => hD
    | check c =>
      refine bind ((check E (c.map (at' hs)) (one_le_top L c.names) fun hp k hk => ?_).upto fun _ => ?_) fun _ => (ih _ _ _ _ hl' hr fun hp => h hp.1).upto fun _ => hD
      · rw [check_names_map, List.mem_map] at hk
        obtain ⟨i, hi, rfl⟩ := hk
        exact ((h hp).at (hl ▸ h1.1 i hi)).trans (le_top L hi)
      · rw [degree_map]
        exact hD'
    | join a b ai bi =>
      have ht : P → ∀ i ∈ a.1 ++ a.2 :: (b.1 ++ [b.2]), dg M (at' hs i).id ≤ topDegree L (a.1 ++ a.2 :: (b.1 ++ [b.2])) := fun hp i hi =>
        ((h hp).at (hl ▸ (h1.1 i hi).1)).trans (le_top L hi)
      have hla : (tableCommOf (a.1.map (at' hs), at' hs a.2)).colVals.length = a.1.length := by simp [tableCommOf, sameTab, tableOf]
      have h0 := one_le_top L (a.1 ++ a.2 :: (b.1 ++ [b.2]))
      refine bind (join E _ _ _ _ (d := topDegree L (a.1 ++ a.2 :: (b.1 ++ [b.2]))) ?_ fun hp => ⟨?_, ht hp _ (by simp), ?_, ht hp _ (by simp)⟩) fun t =>
        (ih _ _ _ _ hl' hr fun hp => ?_).upto fun _ => hD
      · rw [hla]
        simp only [Step.degree, Check.degree] at hD'
        omega
      · intro c hc
        simp only [tableCommOf, sameTab, tableOf, List.map_map, List.mem_map] at hc
        obtain ⟨k, hk, rfl⟩ := hc
        exact ht hp k (List.mem_append_left _ hk)
      · intro c hc
        simp only [tableCommOf, sameTab, tableOf, List.map_map, List.mem_map] at hc
        obtain ⟨k, hk, rfl⟩ := hc
        exact ht hp k (List.mem_append_right _ (.tail _ (List.mem_append_left _ hk)))
      · have h2 := hp.2
        rw [hla] at h2
        have := (h hp.1).append (nv := (at' hs b.2).numVars) h2.2
        rw [h2.1] at this
        exact this

end Deg
end Zksql
