import Verif.Lemmas.ProgramDegreeP
import Verif.Lemmas.ProgramSound
import Verif.Spec.Compilable
/-!
The sizes of the tables the prover makes.
-/
set_option linter.unusedSectionVars false
namespace Zksql
open Spec
variable {F C : Type} [Field F] [DecidableEq F] {α β : Type}

/-- No table has more than `N` variables. -/
def PTracker.Small (N : Nat) (t : PTracker F C) : Prop := ∀ e ∈ t.mats, e.2.mle.numVars ≤ N
open PTracker (Small)

/-- In successful runs tables stay small, and results have `R`. -/
def PFit (N : Nat) (m : Act (PTracker F C) α) (R : α → Prop) : Prop := ∀ t a t', Small N t → m t = (.ok a, t') → Small N t' ∧ R a

theorem mem_amInsert {α : Type} {i : Nat} {a : α} {l : List (Nat × α)} {e : Nat × α} (h : e ∈ amInsert i a l) : e = (i, a) ∨ e ∈ l := by
  unfold amInsert at h
  rcases List.mem_cons.1 h with h | h
  · exact .inl h
  · exact .inr (List.mem_of_mem_filter h)

theorem mem_of_lookup {α : Type} {i : Nat} {a : α} {l : List (Nat × α)} (h : l.lookup i = some a) : (i, a) ∈ l := by
  obtain ⟨l1, l2, rfl, -⟩ := List.lookup_eq_some_iff.1 h
  exact List.mem_append_right _ (List.mem_cons_self ..)

namespace PFit
variable {N : Nat} {R : α → Prop} {R' : β → Prop}

theorem bind {m : Act (PTracker F C) α} {f : α → Act (PTracker F C) β} (h : PFit N m R) (hf : ∀ a, R a → PFit N (f a) R') : PFit N (m >>= f) R' := by
  intro t b t' hs e
  obtain ⟨a, t1, e1, e2⟩ := Act.bind_eq_ok.1 e
  obtain ⟨s1, r1⟩ := h t a t1 hs e1
  exact hf a r1 t1 b t' s1 e2
theorem weaken {R2 : α → Prop} {m : Act (PTracker F C) α} (h : PFit N m R) (hr : ∀ a, R a → R2 a) : PFit N m R2 := fun t a t' hs e => (h t a t' hs e).imp id (hr a)
theorem done {m : Act (PTracker F C) α} (h : PFit N m R) : PFit N m fun _ => True := h.weaken fun _ _ => trivial
theorem quiet {m : Act (PTracker F C) α} (h : ∀ t a t', m t = (.ok a, t') → t'.mats = t.mats ∧ R a) : PFit N m R := fun t a t' hs e => by
  obtain ⟨h1, h2⟩ := h t a t' e
  refine ⟨fun e he => hs e (h1 ▸ he), h2⟩
theorem fail {x : Fail} : PFit N (Act.lift (.error x) : Act (PTracker F C) α) R := fun _ _ _ _ e => by cases (Prod.mk.inj e).1
theorem pure (a : α) : PFit N (Pure.pure a : Act (PTracker F C) α) (· = a) := quiet fun t b t' e => by cases e; exact ⟨rfl, rfl⟩
theorem lift (r : Res α) : PFit N (Act.lift r : Act (PTracker F C) α) (fun a => r = .ok a) := quiet fun t b t' e => by
  obtain ⟨e1, e2⟩ := Prod.mk.inj e
  subst e2
  exact ⟨rfl, e1⟩
theorem reads (f : PTracker F C → Res α) : PFit N (Act.reads f) (fun _ => True) := quiet fun t b t' e => by
  obtain ⟨e1, e2⟩ := Prod.mk.inj e
  subst e2
  exact ⟨rfl, trivial⟩
theorem assert (p : Prop) [Decidable p] : PFit N (Act.assert p : Act (PTracker F C) Unit) (fun _ => True) := quiet fun t b t' e => by
  unfold Act.assert at e
  split at e <;> cases e
  exact ⟨rfl, trivial⟩
theorem ite {p : Prop} [Decidable p] {m m' : Act (PTracker F C) α} (h1 : PFit N m R) (h2 : PFit N m' R) : PFit N (if p then m else m') R := by
  split
  · exact h1
  · exact h2
theorem ite' {p : Prop} [Decidable p] {m m' : Act (PTracker F C) α} (h2 : PFit N m' R) (h1 : PFit N m R) : PFit N (if p then m else m') R := ite h1 h2
theorem fromEvals (nv : Nat) (l : List F) : PFit N (Act.lift (Mle.fromEvals nv l) : Act (PTracker F C) (Mle F)) fun m => m.numVars = nv := (lift _).weaken fun a h => by
  unfold Mle.fromEvals at h
  split at h <;> cases h
  rfl

theorem repNv_small {t : PTracker F C} (hs : Small N t) {v : VRep F} {n : Nat} (h : t.repNv v = .ok n) : n ≤ N := by
  unfold PTracker.repNv at h
  rcases h1 : idx v 0 with x | x <;> rw [h1] at h
  · cases h
  change (idx x.2 0 >>= _) = _ at h
  rcases h2 : idx x.2 0 with y | y <;> rw [h2] at h
  · cases h
  change (unwrap (t.mats.lookup y) >>= _) = _ at h
  rcases h3 : t.mats.lookup y with _ | a <;> rw [h3] at h <;> cases h
  exact hs (y, a) (mem_of_lookup h3)

theorem getNv_small {t : PTracker F C} (hs : Small N t) {i n : Nat} (h : t.getPolyNv i = .ok n) : n ≤ N := by
  unfold PTracker.getPolyNv at h
  split at h
  · next a ha =>
    cases h
    exact hs (i, a) (mem_of_lookup ha)
  · split at h
    · cases h
    · exact repNv_small hs h

theorem materialize (i : Nat) : PFit N (PTracker.materialize i : Act (PTracker F C) Unit) fun _ => True := fun t a t' hs e => by
  rcases hm : t.mats.lookup i with _ | a
  · rcases hv : t.virts.lookup i with _ | v
    · rw [PTracker.materialize_unknown hm hv] at e
      cases e
    · rcases hr : t.materializeRep v with x | m
      · rw [PTracker.materialize_bad hm hv hr] at e
        cases e
      · rw [PTracker.materialize_virt hm hv hr] at e
        cases e
        refine ⟨fun e he => ?_, trivial⟩
        rcases mem_amInsert he with rfl | he
        · rcases hn : t.repNv v with x | n
          · unfold PTracker.materializeRep at hr
            rw [hn] at hr
            cases hr
          · change m.numVars ≤ N
            rw [PTracker.materializeRep_nv hr hn]
            exact repNv_small hs hn
        · exact hs e he
  · rw [PTracker.materialize_mat hm] at e
    cases e
    exact ⟨hs, trivial⟩
theorem evaluations (a : TPoly) : PFit N (a.evaluations : Act (PTracker F C) (List F)) fun _ => True := bind (materialize _) fun _ _ => bind (reads _) fun _ _ => done (pure _)
theorem trackM (p : Mle F) (h : p.numVars ≤ N) : PFit N (PTracker.trackMat p : Act (PTracker F C) Nat) fun _ => True := fun t a t' hs e => by
  cases e
  refine ⟨fun e he => ?_, trivial⟩
  rcases mem_amInsert he with rfl | he
  · exact h
  · exact hs e he
theorem trackVirt (v : VRep F) : PFit N (PTracker.trackVirt v : Act (PTracker F C) Nat) fun _ => True := quiet fun t a t' e => by cases e; exact ⟨rfl, trivial⟩
theorem commitP (cm : Mle F → Res C) (p : Mle F) (h : p.numVars ≤ N) : PFit N (PTracker.trackAndCommit cm p) fun _ => True := by
  intro t a t' hs e
  unfold PTracker.trackAndCommit at e
  obtain ⟨c, s1, e1, e⟩ := Act.bind_eq_ok.1 e
  obtain ⟨-, rfl⟩ := Prod.mk.inj e1
  cases e
  refine ⟨fun e he => ?_, trivial⟩
  rcases mem_amInsert he with rfl | he
  · exact h
  · exact hs e he
theorem challenge (H : Oracle F C) (l : String) : PFit N (PTracker.challenge H l) fun _ => True := quiet fun t a t' e => by
  unfold PTracker.challenge at e
  rcases hc : t.transcript.challenge H l with x | ⟨c, tr⟩ <;> rw [hc] at e <;> cases e
  exact ⟨rfl, trivial⟩
theorem sumClaim (i : Nat) (v : F) : PFit N (PTracker.addSumClaim i v : Act (PTracker F C) Unit) fun _ => True := quiet fun t a t' e => by cases e; exact ⟨rfl, trivial⟩
theorem zeroClaim (i : Nat) : PFit N (PTracker.addZeroClaim i : Act (PTracker F C) Unit) fun _ => True := quiet fun t a t' e => by cases e; exact ⟨rfl, trivial⟩
theorem handle {nv : Nat} {m : Act (PTracker F C) Nat} (h : PFit N m fun _ => True) : PFit N (m >>= fun i => Pure.pure (⟨i, nv⟩ : TPoly)) fun a => a.numVars = nv :=
  bind h fun i _ => (pure _).weaken fun a ha => by rw [ha]
theorem track (p : Mle F) (h : p.numVars ≤ N) : PFit N (TPoly.trackMat p : Act (PTracker F C) TPoly) fun a => a.numVars = p.numVars := handle (trackM p h)
theorem commit (cm : Mle F → Res C) (p : Mle F) (h : p.numVars ≤ N) : PFit N (TPoly.trackAndCommit cm p) fun a => a.numVars = p.numVars := handle (commitP cm p h)
theorem add (a b : TPoly) : PFit N (a.add b : Act (PTracker F C) TPoly) fun x => x.numVars = a.numVars := bind (assert _) fun _ _ => handle (bind (reads _) fun _ _ => trackVirt _)
theorem sub (a b : TPoly) : PFit N (a.sub b : Act (PTracker F C) TPoly) fun x => x.numVars = a.numVars := bind (assert _) fun _ _ => handle (bind (reads _) fun _ _ => trackVirt _)
theorem mul (a b : TPoly) : PFit N (a.mul b : Act (PTracker F C) TPoly) fun x => x.numVars = a.numVars := bind (assert _) fun _ _ => handle (bind (reads _) fun _ _ => trackVirt _)
theorem mulScalar (a : TPoly) (c : F) : PFit N (a.mulScalar c : Act (PTracker F C) TPoly) fun x => x.numVars = a.numVars := handle (bind (reads _) fun _ _ => trackVirt _)
theorem addScalar (a : TPoly) (c : F) : PFit N (a.addScalar c : Act (PTracker F C) TPoly) fun x => x.numVars = a.numVars := by
  refine handle fun t i t' hs e => ?_
  unfold PTracker.addScalar at e
  obtain ⟨nv, t1, e1, e2⟩ := Act.bind_eq_ok.1 e
  obtain ⟨e3, e4⟩ := Prod.mk.inj e1
  subst e4
  refine (bind (fromEvals nv _) fun m hm => bind (trackM m (hm ▸ getNv_small hs e3)) fun _ _ => (bind (reads _) fun _ _ => trackVirt _ : PFit N (PTracker.addSubPolys _ _ _) _)) t i t' hs e2
theorem bagNew (d : Bool) (a b : TPoly) : PFit N (Bag.new d a b : Act (PTracker F C) Bag) fun x => x = ⟨a, b⟩ := bind (assert _) fun _ _ => pure _
theorem tableNew (d : Bool) (a : List TPoly) (b : TPoly) : PFit N (Table.new d a b : Act (PTracker F C) Table) fun x => x = ⟨a, b⟩ := bind (assert _) fun _ _ => pure _

variable (E : Env F C)

macro "pfside" : tactic => `(tactic| first
  | assumption
  | omega
  | ((try simp only [Bag.numVars, onesMle, PrescPerm.orderedMle] at *); omega))

syntax "pfits_call" : tactic
macro_rules | `(tactic| pfits_call) => `(tactic| fail "no rule")

/-- All steps of a call. -/
macro "pfits" : tactic => `(tactic| (
    repeat (first
    | with_reducible exact fail
    | with_reducible exact challenge _ _ | with_reducible exact evaluations _ | with_reducible exact fromEvals _ _
    | with_reducible exact assert _
    | ((with_reducible eapply track) <;> pfside) | ((with_reducible eapply commit) <;> pfside)
    | with_reducible exact add _ _ | with_reducible exact sub _ _ | with_reducible exact mul _ _ | with_reducible exact mulScalar _ _ | with_reducible exact addScalar _ _
    | with_reducible exact zeroClaim _ | with_reducible exact sumClaim _ _
    | with_reducible exact bagNew _ _ _ | with_reducible exact tableNew _ _ _
    | pfits_call
    | with_reducible exact done (pure _) | with_reducible exact done (lift _)
    | with_reducible exact pure _ | with_reducible exact lift _
    | (with_reducible apply bind)
    | (with_reducible apply ite')
    | (intro _ h; (try subst h)))))

theorem proveSub (b : Bag) (m : TPoly) (γ : F) (h1 : b.numVars ≤ N) : PFit N (Multitool.proveSub E b m γ) fun _ => True := by
  unfold Multitool.proveSub
  pfits

theorem proveSubs (γ : F) : ∀ l : List (Bag × TPoly), (∀ e ∈ l, e.1.numVars ≤ N) → PFit N (Multitool.proveSubs E γ l) fun _ => True
  | [], _ => done (pure _)
  | (b, m) :: r, h => bind (proveSub E b m γ (h _ (List.mem_cons_self ..))) fun _ _ => proveSubs γ r fun e he => h e (List.mem_cons_of_mem _ he)

theorem multitool (fxs gxs : List Bag) (mf mg : List TPoly) (h1 : ∀ b ∈ fxs, b.numVars ≤ N) (h2 : ∀ b ∈ gxs, b.numVars ≤ N) :
    PFit N (Multitool.prove E fxs gxs mf mg) fun _ => True :=
  ite fail (ite fail (bind (challenge _ _) fun _ _ => bind (proveSubs E _ _ fun e he => h1 _ (List.of_mem_zip he).1) fun _ _ => proveSubs E _ _ fun e he => h2 _ (List.of_mem_zip he).1))

theorem multitool1 (f g : Bag) (mf mg : List TPoly) (h1 : f.numVars ≤ N) (h2 : g.numVars ≤ N) : PFit N (Multitool.prove E [f] [g] mf mg) fun _ => True :=
  multitool E _ _ _ _ (by simpa using h1) (by simpa using h2)
theorem multitool2 (f f' g : Bag) (mf mg : List TPoly) (h1 : f.numVars ≤ N) (h1' : f'.numVars ≤ N) (h2 : g.numVars ≤ N) : PFit N (Multitool.prove E [f, f'] [g] mf mg) fun _ => True :=
  multitool E _ _ _ _ (by simpa using ⟨h1, h1'⟩) (by simpa using h2)
macro_rules | `(tactic| pfits_call) => `(tactic| ((with_reducible eapply PFit.multitool1) <;> pfside))
macro_rules | `(tactic| pfits_call) => `(tactic| ((with_reducible eapply PFit.multitool2) <;> pfside))

theorem bagEq (a b : Bag) (h1 : a.numVars ≤ N) (h2 : b.numVars ≤ N) : PFit N (BagEq.prove E a b) fun _ => True := by
  unfold BagEq.prove
  pfits
macro_rules | `(tactic| pfits_call) => `(tactic| ((with_reducible eapply PFit.bagEq) <;> pfside))

theorem bagSum (a b c : Bag) (h1 : a.numVars ≤ N) (h2 : b.numVars ≤ N) (h3 : c.numVars ≤ N) : PFit N (BagSum.prove E a b c) fun _ => True := by
  unfold BagSum.prove
  pfits
macro_rules | `(tactic| pfits_call) => `(tactic| ((with_reducible eapply PFit.bagSum) <;> pfside))

theorem noZeros (b : Bag) (h1 : b.numVars ≤ N) : PFit N (NoZeros.prove E b) fun _ => True := by
  unfold NoZeros.prove
  pfits
macro_rules | `(tactic| pfits_call) => `(tactic| ((with_reducible eapply PFit.noZeros) <;> pfside))

theorem selector (s : TPoly) : PFit N (SelectorValid.prove s : Act (PTracker F C) Unit) fun _ => True := by
  unfold SelectorValid.prove
  pfits
macro_rules | `(tactic| pfits_call) => `(tactic| with_reducible exact PFit.selector _)

theorem incAdvice (a b : Bag) : PFit N (Inclusion.advice a b : Act (PTracker F C) (Mle F)) fun m => m.numVars = b.numVars := by
  unfold Inclusion.advice
  refine bind (evaluations _) fun _ _ => bind (fromEvals _ _) fun _ _ => bind (evaluations _) fun _ _ => bind (fromEvals _ _) fun _ _ =>
    bind (evaluations _) fun _ _ => bind (fromEvals _ _) fun spm hs => bind (evaluations _) fun _ _ => bind (fromEvals _ _) fun _ _ => (lift _).weaken fun m h => ?_
  unfold Inclusion.adviceMle at h
  rcases h1 : multCount (F := F) _ _ _ with x | x <;> rw [h1] at h
  · cases h
  change (Inclusion.adviceLoop _ _ _ >>= _) = _ at h
  rcases h2 : Inclusion.adviceLoop spm.evals _ x with y | y <;> rw [h2] at h
  · cases h
  change Mle.fromEvals _ _ = _ at h
  unfold Mle.fromEvals at h
  split at h <;> cases h
  exact hs
macro_rules | `(tactic| pfits_call) => `(tactic| with_reducible exact PFit.incAdvice _ _)

theorem inclusionAdvice (a b : Bag) (m : TPoly) (h1 : a.numVars ≤ N) (h2 : b.numVars ≤ N) : PFit N (Inclusion.proveWithAdvice E a b m) fun _ => True := by
  unfold Inclusion.proveWithAdvice
  pfits
macro_rules | `(tactic| pfits_call) => `(tactic| ((with_reducible eapply PFit.inclusionAdvice) <;> pfside))

theorem inclusion (a b : Bag) (h1 : a.numVars ≤ N) (h2 : b.numVars ≤ N) : PFit N (Inclusion.prove E a b) fun _ => True := by
  unfold Inclusion.prove
  pfits
macro_rules | `(tactic| pfits_call) => `(tactic| ((with_reducible eapply PFit.inclusion) <;> pfside))

theorem permutation (a b : Bag) (p : TPoly) (h1 : a.numVars ≤ N) (h2 : b.numVars ≤ N) : PFit N (PrescPerm.prove E a b p) fun _ => True := by
  unfold PrescPerm.prove
  dsimp only
  pfits
macro_rules | `(tactic| pfits_call) => `(tactic| ((with_reducible eapply PFit.permutation) <;> pfside))

theorem debugDiff (d : Bool) (a : TPoly) (l : List F) : PFit N (StrictSort.debugDiff d a l : Act (PTracker F C) Unit) fun _ => True := by
  unfold StrictSort.debugDiff
  exact ite (bind (evaluations _) fun _ _ => assert _) (done (pure _))
macro_rules | `(tactic| pfits_call) => `(tactic| with_reducible exact PFit.debugDiff _ _ _)

theorem sort (a r : Bag) (h1 : a.numVars ≤ N) (h2 : r.numVars ≤ N) : PFit N (StrictSort.prove E a r) fun _ => True := by
  unfold StrictSort.prove
  dsimp only
  pfits
macro_rules | `(tactic| pfits_call) => `(tactic| ((with_reducible eapply PFit.sort) <;> pfside))

theorem suppAdvice (a b : Bag) (m : TPoly) (r : Bag) (h1 : a.numVars ≤ N) (h2 : b.numVars ≤ N) (h3 : m.numVars ≤ N) (h4 : r.numVars ≤ N) :
    PFit N (Supp.proveWithAdvice E a b m r) fun _ => True := by
  unfold Supp.proveWithAdvice
  pfits
macro_rules | `(tactic| pfits_call) => `(tactic| ((with_reducible eapply PFit.suppAdvice) <;> pfside))

theorem supp (a b r : Bag) (h1 : a.numVars ≤ N) (h2 : b.numVars ≤ N) (h4 : r.numVars ≤ N) : PFit N (Supp.prove E a b r) fun _ => True := by
  unfold Supp.prove
  pfits
macro_rules | `(tactic| pfits_call) => `(tactic| ((with_reducible eapply PFit.supp) <;> pfside))

theorem bagCount (a : Bag) : PFit N (Disjoint.bagCount a : Act (PTracker F C) _) fun _ => True := by
  unfold Disjoint.bagCount
  pfits
macro_rules | `(tactic| pfits_call) => `(tactic| with_reducible exact PFit.bagCount _)

theorem disjointAdvice (a b : Bag) (h : max a.numVars b.numVars + 1 ≤ N) :
    PFit N (Disjoint.advice E a b) fun x => x.1.numVars ≤ N ∧ x.2.1.numVars ≤ N ∧ x.2.2.1.numVars ≤ N ∧ x.2.2.2.numVars ≤ N := by
  unfold Disjoint.advice
  exact bind (bagCount _) fun _ _ => bind (bagCount _) fun _ _ => bind (lift _) fun _ _ => bind (fromEvals _ _) fun _ h1 => bind (fromEvals _ _) fun _ h2 =>
    bind (fromEvals _ _) fun _ h3 => bind (fromEvals _ _) fun _ h4 => (pure _).weaken fun x hx => by subst hx; exact ⟨h1 ▸ h, h2 ▸ h, h3 ▸ h, h4 ▸ h⟩

theorem disjointWith (a b c : Bag) (m n : TPoly) (r : Bag) (h1 : a.numVars ≤ N) (h2 : b.numVars ≤ N) (h3 : c.numVars ≤ N) (h4 : r.numVars ≤ N) :
    PFit N (Disjoint.proveWithAdvice E a b c m n r) fun _ => True := by
  unfold Disjoint.proveWithAdvice
  pfits
macro_rules | `(tactic| pfits_call) => `(tactic| ((with_reducible eapply PFit.disjointWith) <;> pfside))

theorem disjoint (a b r : Bag) (h : max a.numVars b.numVars + 1 ≤ N) (h4 : r.numVars ≤ N) : PFit N (Disjoint.prove E a b r) fun _ => True := by
  unfold Disjoint.prove
  refine bind (disjointAdvice E a b h) fun x hx => ?_
  obtain ⟨k1, k2, k3, k4⟩ := hx
  pfits
macro_rules | `(tactic| pfits_call) => `(tactic| ((with_reducible eapply PFit.disjoint) <;> pfside))

theorem setDisjoint (a b r : Bag) (h : max a.numVars b.numVars + 1 ≤ N) (h4 : r.numVars ≤ N) : PFit N (SetDisjoint.prove E a b r) fun _ => True := by
  unfold SetDisjoint.prove
  dsimp only
  pfits
macro_rules | `(tactic| pfits_call) => `(tactic| ((with_reducible eapply PFit.setDisjoint) <;> pfside))

theorem setDiff (a b l m : Bag) (bm : TPoly) (r : Bag) (h : max l.numVars b.numVars + 1 ≤ N) (h1 : a.numVars ≤ N) (h2 : m.numVars ≤ N) (h4 : r.numVars ≤ N) :
    PFit N (SetDiff.prove E a b l m bm r) fun _ => True := by
  unfold SetDiff.prove
  pfits

theorem setUnion (a b u r : Bag) (h : max a.numVars b.numVars + 1 ≤ N) (h1 : u.numVars ≤ N) (h4 : r.numVars ≤ N) : PFit N (SetUnion.prove E a b u r) fun _ => True := by
  unfold SetUnion.prove
  dsimp only
  pfits

theorem setIntersect (a b l m r x : Bag) (h : max l.numVars r.numVars + 1 ≤ N) (h1 : a.numVars ≤ N) (h2 : b.numVars ≤ N) (h3 : m.numVars ≤ N) (h4 : x.numVars ≤ N) :
    PFit N (SetIntersect.prove E a b l m r x) fun _ => True := by
  unfold SetIntersect.prove
  pfits

theorem joinReduction (a b : Bag) (l r : TPoly) (x : Bag) (h : max a.numVars b.numVars + 1 ≤ N) (h4 : x.numVars ≤ N) : PFit N (JoinReduction.prove E a b l r x) fun _ => True := by
  unfold JoinReduction.prove
  pfits

theorem powers (n : Nat) : PFit N (IndexTransform.proverPowers E n) fun _ => True := by
  unfold IndexTransform.proverPowers
  pfits
macro_rules | `(tactic| pfits_call) => `(tactic| with_reducible exact PFit.powers _ _)

theorem aggLoop : ∀ (acc : TPoly) (cs : List TPoly) (rs : List F), PFit N (IndexTransform.proverAggLoop acc cs rs : Act (PTracker F C) TPoly) fun a => a.numVars = acc.numVars
  | _, [], _ => (pure _).weaken fun a h => by rw [h]
  | _, _ :: _, [] => fail
  | _, _ :: cs, _ :: rs => bind (mulScalar _ _) fun _ _ => bind (mul _ _) fun _ h => (aggLoop _ cs rs).weaken fun _ h' => h'.trans h
macro_rules | `(tactic| pfits_call) => `(tactic| with_reducible exact PFit.aggLoop _ _ _)

theorem agg (t : Table) (l : List F) : PFit N (IndexTransform.proverAgg E t l) fun b => b.numVars = t.selector.numVars := by
  unfold IndexTransform.proverAgg
  exact bind (aggLoop _ _ _) fun p hp => (bagNew _ _ _).weaken fun b hb => by subst hb; exact hp
macro_rules | `(tactic| pfits_call) => `(tactic| with_reducible exact PFit.agg _ _ _)

theorem indexTransform (a b : Table) (h1 : a.selector.numVars ≤ N) (h2 : b.selector.numVars ≤ N) : PFit N (IndexTransform.prove E a b) fun _ => True := by
  unfold IndexTransform.prove
  pfits
macro_rules | `(tactic| pfits_call) => `(tactic| ((with_reducible eapply PFit.indexTransform) <;> pfside))

theorem debugKeys (a : Table) (i : Nat) : PFit N (FinalJoin.debugKeys E a i) fun _ => True := by
  unfold FinalJoin.debugKeys
  exact ite (bind (lift _) fun _ _ => bind (evaluations _) fun _ _ => ite (done (pure _)) (done (lift _))) (done (pure _))
macro_rules | `(tactic| pfits_call) => `(tactic| with_reducible exact PFit.debugKeys _ _ _)

theorem joinAdvice (a b : Table) (i j : Nat) (l : List TPoly) (h1 : a.selector.numVars ≤ N) (h2 : b.selector.numVars ≤ N) :
    PFit N (FinalJoin.proveWithAdvice E a b i j l) fun _ => True := by
  unfold FinalJoin.proveWithAdvice
  pfits

theorem transform (a b : Table) (i j : Nat) : PFit N (FinalJoin.transform a b i j : Act (PTracker F C) _) fun _ => True := by
  unfold FinalJoin.transform
  pfits

theorem applyTransform (ks : List Nat) (o a : TPoly) : PFit N (FinalJoin.applyTransform E ks o a) fun m => m.numVars = a.numVars :=
  bind (evaluations _) fun _ _ => bind (evaluations _) fun _ _ => bind (assert _) fun _ _ => bind (lift _) fun _ _ => fromEvals _ _
theorem applyAll (ks : List Nat) (a : TPoly) : ∀ l : List TPoly, PFit N (FinalJoin.applyAll E ks a l) fun r => r.length = l.length ∧ ∀ m ∈ r, m.numVars = a.numVars
  | [] => (pure _).weaken fun r h => by subst h; exact ⟨rfl, fun _ h => by cases h⟩
  | _ :: l => bind (applyTransform E _ _ _) fun m hm => bind (applyAll ks a l) fun ms h => (pure _).weaken fun r hr => by
      subst hr
      exact ⟨congrArg (· + 1) h.1, List.forall_mem_cons.2 ⟨hm, h.2⟩⟩
theorem commitAll {k : Nat} (hk : k ≤ N) : ∀ l : List (Mle F), (∀ m ∈ l, m.numVars = k) → PFit N (FinalJoin.commitAll E l) fun r => r.length = l.length ∧ ∀ c ∈ r, c.numVars = k
  | [], _ => (pure _).weaken fun r h => by subst h; exact ⟨rfl, fun _ h => by cases h⟩
  | m :: l, h => bind (commit _ _ (h m (.head _) ▸ hk)) fun c hc => bind (commitAll hk l fun x hx => h x (.tail _ hx)) fun cs hs => (pure _).weaken fun r hr => by
      subst hr
      exact ⟨congrArg (· + 1) hs.1, List.forall_mem_cons.2 ⟨hc.trans (h m (.head _)), hs.2⟩⟩

theorem joinAdvice_cols (a b : Table) (i j : Nat) (l : List TPoly) (h1 : a.selector.numVars ≤ N) (h2 : b.selector.numVars ≤ N) :
    PFit N (FinalJoin.proveWithAdvice E a b i j l) fun t => t.colVals = l ++ b.colVals := by
  unfold FinalJoin.proveWithAdvice
  refine bind (debugKeys _ _ _) fun _ _ => bind (tableNew _ _ _) fun res hr => bind (lift _) fun _ _ => bind (tableNew _ _ _) fun x hx => ?_
  subst hr hx
  exact bind (indexTransform E _ _ h1 h2) fun _ _ => bind (lift _) fun _ _ => bind (lift _) fun _ _ => bind (sub _ _) fun _ _ => bind (mul _ _) fun _ _ => bind (zeroClaim _) fun _ _ =>
    (pure _).weaken fun t h => by rw [h]

theorem join (a b : Table) (i j : Nat) (h1 : a.selector.numVars ≤ N) (h2 : b.selector.numVars ≤ N) :
    PFit N (FinalJoin.prove E a b i j) fun t => (t.colVals.take a.colVals.length).length = a.colVals.length ∧ ∀ c ∈ t.colVals.take a.colVals.length, c.numVars = b.selector.numVars := by
  unfold FinalJoin.prove
  refine bind (transform _ _ _ _) fun ks _ => bind (applyAll E _ _ _) fun ms hm => bind (commitAll E h2 _ hm.2) fun ta ht => (joinAdvice_cols E _ _ _ _ _ h1 h2).weaken fun t h => ?_
  have hl : ta.length = a.colVals.length := ht.1.trans hm.1
  rw [h, List.take_append_of_le_length hl.ge, ← hl, List.take_length]
  exact ⟨rfl, ht.2⟩

theorem aggs (inp : Table) (pre grp : Bag) (mult : TPoly) (h1 : pre.numVars ≤ N) (h2 : grp.numVars ≤ N) : ∀ (l : List (Nat × AggType × TPoly)) (cols : List TPoly),
    PFit N (GroupBy.proveAggs E inp pre grp mult l cols) fun _ => True
  | [], _ => done (pure _)
  | (_, .count, _) :: r, cols => by
    unfold GroupBy.proveAggs
    exact aggs inp pre grp mult h1 h2 r _
  | (_, .sum, _) :: r, cols => by
    unfold GroupBy.proveAggs
    exact bind (lift _) fun _ _ => bind (multitool1 E _ _ _ _ h1 h2) fun _ _ => aggs inp pre grp mult h1 h2 r _
  | (_, .avg, _) :: _, _ => fail
  | (_, .min, _) :: _, _ => fail
  | (_, .max, _) :: _, _ => fail

theorem groupBy (inp : Table) (i : GroupInstr TPoly) (r : Bag) (h1 : ∀ c ∈ inp.colVals, c.numVars ≤ N) (h2 : ∀ c ∈ i.supportCols, c.numVars ≤ N) (h3 : i.supportMult.numVars ≤ N)
    (h4 : r.numVars ≤ N) : PFit N (GroupBy.proveWithAdvice E inp i r) fun _ => True := by
  unfold GroupBy.proveWithAdvice
  refine bind (lift _) fun gs hg => ?_
  obtain ⟨g, sp⟩ := gs
  dsimp only
  have hsp : sp.numVars ≤ N := by
    unfold GroupBy.validate at hg
    split at hg
    · cases hg
    rcases hi : idx i.groupingCols 0 with x | x <;> rw [hi] at hg
    · cases hg
    change (if _ then _ else _) = _ at hg
    split at hg
    · cases hg
    split at hg
    · cases hg
    rcases hj : idx i.supportCols 0 with y | y <;> rw [hj] at hg <;> cases hg
    exact h2 _ (idx_mem hj)
  refine bind (lift _) fun c hc => bind (bagNew _ _ _) fun x hx => bind (bagNew _ _ _) fun y hy => ?_
  subst hx hy
  have hcn := h1 c (idx_mem hc)
  exact bind (suppAdvice E _ _ _ _ hcn hsp h3 h4) fun _ _ => bind (tableNew _ _ _) fun _ _ => bind (aggs E _ _ _ _ hcn hsp _ _) fun _ _ => done (pure _)

/-- Everything a check makes fits. -/
theorem check {K : Type} {φ : K → TPoly} {W : K → Column F} (hW : ∀ k, (W k).nv = (φ k).numVars) (c : Check K) (h : c.Fits N W) : PFit N ((c.map φ).prove E) fun _ => True := by
  obtain ⟨hn, hc⟩ := h
  simp only [hW] at hn
  cases c with
  | multiset fs gs =>
    refine multitool E _ _ _ _ ?_ ?_
    · intro b hb
      obtain ⟨e, he, rfl⟩ := List.mem_map.1 hb
      obtain ⟨e, he', rfl⟩ := List.mem_map.1 he
      exact hn _ (List.mem_flatMap.2 ⟨e, List.mem_append_left _ he', List.Mem.head _⟩)
    · intro b hb
      obtain ⟨e, he, rfl⟩ := List.mem_map.1 hb
      obtain ⟨e, he', rfl⟩ := List.mem_map.1 he
      exact hn _ (List.mem_flatMap.2 ⟨e, List.mem_append_right _ he', List.Mem.head _⟩)
  | indexTransform a b => exact indexTransform E _ _ (hn a.2 (by simp [Check.names])) (hn b.2 (by simp [Check.names]))
  | joinAdvice a b ai bi ta => exact bind (joinAdvice E _ _ _ _ _ (hn a.2 (by simp [Check.names])) (hn b.2 (by simp [Check.names]))) fun _ _ => done (pure _)
  | groupBy inp key grp mult as range =>
    refine bind (groupBy E _ _ _ (fun c hc => ?_) (fun c hc => ?_) (hn mult (by simp [Check.names])) (hn range.1 (by simp [Check.names]))) fun _ _ => done (pure _)
    · obtain ⟨k, hk, rfl⟩ := List.mem_map.1 hc
      exact hn _ (List.mem_append_left _ hk)
    · simp only [requestOf, List.mem_singleton] at hc
      subst hc
      exact hn grp.1 (by simp [Check.names])
  | bagEq f g => ?_
  | bagSum f g k => ?_
  | inclusion f g => ?_
  | inclusionAdvice f g m => ?_
  | noZeros f => ?_
  | selector m => ?_
  | permutation f g p => ?_
  | sort f r => ?_
  | support f g r => ?_
  | supportAdvice f g m r => ?_
  | disjoint f g r => ?_
  | setDisjoint f g r => ?_
  | union f g u r => ?_
  | diff f g l m k r => ?_
  | intersect f g l m k r => ?_
  | joinReduction f g l m r => ?_
  all_goals
    simp only [hW] at hc
    simp only [Check.names, List.mem_cons, List.not_mem_nil, or_false, forall_eq_or_imp, forall_eq] at hn
  · exact bagEq E _ _ hn.1 hn.2.2.1
  · exact bagSum E _ _ _ hn.1 hn.2.2.1 hn.2.2.2.2.1
  · exact inclusion E _ _ hn.1 hn.2.2.1
  · exact inclusionAdvice E _ _ _ hn.1 hn.2.2.1
  · exact noZeros E _ hn.1
  · exact selector _
  · exact permutation E _ _ _ hn.1 hn.2.2.1
  · exact sort E _ _ hn.1 hn.2.2.1
  · exact supp E _ _ _ hn.1 hn.2.2.1 hn.2.2.2.2.1
  · exact suppAdvice E _ _ _ _ hn.1 hn.2.2.1 hn.2.2.2.2.1 hn.2.2.2.2.2.1
  · exact disjoint E _ _ _ hc.2.2 hn.2.2.2.2.1
  · exact setDisjoint E _ _ _ hc.2.2 hn.2.2.2.2.1
  · exact setUnion E _ _ _ _ hc.2.2.2 hn.2.2.2.2.1 hn.2.2.2.2.2.2.1
  · obtain ⟨k1, k2, k3, k4, k5, k6, k7, k8, k9, k10, k11⟩ := hn
    exact setDiff E _ _ _ _ _ _ hc.2.2.2.2.2 k1 k7 k10
  · obtain ⟨k1, k2, k3, k4, k5, k6, k7, k8, k9, k10, k11, k12⟩ := hn
    exact setIntersect E _ _ _ _ _ _ hc.2.2.2.2.2 k1 k3 k7 k11
  · obtain ⟨k1, k2, k3, k4, k5, k6, k7, k8⟩ := hn
    exact joinReduction E _ _ _ _ _ hc.2.2.2.2 k7

/-- Everything a program makes fits. -/
theorem proveAll : ∀ (prog : List (Step F)) (hs : List TPoly) (W : List (Column F)), Zksql.Sized hs W → Step.FitsAll N W prog → PFit N (Step.proveAll E prog hs) fun _ => True
  | [], _, _, _, _ => done (pure _)
  | .commit _ :: r, _, _, h, hf => bind (commit _ _ hf.1.2) fun _ hx => proveAll r _ _ (h.push hx) hf.2
  | .add i j :: r, _, W, h, hf => bind (add _ _) fun _ hx => proveAll r _ (Step.next W (.add i j)) (h.push (hx.trans (h.2 i))) hf.2
  | .sub i j :: r, _, W, h, hf => bind (sub _ _) fun _ hx => proveAll r _ (Step.next W (.sub i j)) (h.push (hx.trans (h.2 i))) hf.2
  | .mul i j :: r, _, W, h, hf => bind (mul _ _) fun _ hx => proveAll r _ (Step.next W (.mul i j)) (h.push (hx.trans (h.2 i))) hf.2
  | .addScalar i c :: r, _, W, h, hf => bind (addScalar _ _) fun _ hx => proveAll r _ (Step.next W (.addScalar i c)) (h.push (hx.trans (h.2 i))) hf.2
  | .mulScalar i c :: r, _, W, h, hf => bind (mulScalar _ _) fun _ hx => proveAll r _ (Step.next W (.mulScalar i c)) (h.push (hx.trans (h.2 i))) hf.2
  | .check c :: r, _, _, h, hf => bind (check E (fun k => (h.2 k).symm) c hf.1.2) fun _ _ => proveAll r _ _ h hf.2
  | .join a b ai bi :: r, hs, W, h, hf => by
    refine bind (join E _ _ _ _ ?_ ?_) fun t ht => proveAll r _ _ ?_ hf.2
    · exact (h.2 a.2).le.trans (hf.1.1 a.2 (by simp)).2
    · exact (h.2 b.2).le.trans (hf.1.1 b.2 (by simp)).2
    · have hla : (tableOf (a.1.map (at' hs), at' hs a.2)).colVals.length = a.1.length := by simp [tableOf]
      rw [hla] at ht
      have := h.append (xs := t.colVals.take a.1.length) (nv := (colAt W b.2).nv)
        (Ts := a.1.map fun c => moved (colAt W c).val (partners (tabData (colAt W) a) (tabData (colAt W) b) ai bi) (colAt W b.2).val) (by simpa using ht.1) fun x hx => (ht.2 x hx).trans (h.2 b.2)
      rw [List.map_map] at this
      exact this

end PFit

/-! ### The largest table -/

/-- A table with `k` variables. -/
def PTracker.Got (k : Nat) (t : PTracker F C) : Prop := ∃ i a, t.mats.lookup i = some a ∧ a.mle.numVars = k
open PTracker (Got)

theorem PTracker.Got.later {k : Nat} {t t' : PTracker F C} (h : Got k t) (o : PTracker.Onward t t') : Got k t' := by
  obtain ⟨i, a, h1, h2⟩ := h
  exact ⟨i, a, o.mats i a h1, h2⟩

/-- Successful runs leave a table with `k` variables. -/
def PTop (k : Nat) (m : Act (PTracker F C) α) : Prop := ∀ t a t', PTracker.Numbered t → m t = (.ok a, t') → Got k t'

/-- Results of successful runs have `R`. -/
def PGives (m : Act (PTracker F C) α) (R : α → Prop) : Prop := ∀ t a t', m t = (.ok a, t') → R a

theorem PGives.last {m : Act (PTracker F C) α} {f : α → Act (PTracker F C) β} {R : β → Prop} (h : ∀ a, PGives (f a) R) : PGives (m >>= f) R := fun t b t' e => by
  obtain ⟨a, t1, -, e2⟩ := Act.bind_eq_ok.1 e
  exact h a t1 b t' e2
theorem PGives.next {m : Act (PTracker F C) α} {f : α → Act (PTracker F C) β} {R : α → Prop} {R' : β → Prop} (h : PGives m R) (hf : ∀ a, R a → PGives (f a) R') : PGives (m >>= f) R' := fun t b t' e => by
  obtain ⟨a, t1, e1, e2⟩ := Act.bind_eq_ok.1 e
  exact hf a (h t a t1 e1) t1 b t' e2
theorem PGives.fromEvals (nv : Nat) (l : List F) : PGives (Act.lift (Mle.fromEvals nv l) : Act (PTracker F C) (Mle F)) fun m => m.numVars = nv := fun t a t' e => by
  have h := (Prod.mk.inj e).1
  unfold Mle.fromEvals at h
  split at h <;> cases h
  rfl

namespace PTop
variable {k : Nat} (E : Env F C)

theorem first {m : Act (PTracker F C) α} {f : α → Act (PTracker F C) β} (hm : Goes m) (h : PTop k m) (hf : ∀ a, Goes (f a)) : PTop k (m >>= f) := fun t b t' hn e => by
  obtain ⟨a, t1, e1, e2⟩ := Act.bind_eq_ok.1 e
  have g1 := hm t hn
  rw [e1] at g1
  have g2 := hf a t1 g1.num
  rw [e2] at g2
  exact (h t a t1 hn e1).later g2
theorem next {R : α → Prop} {m : Act (PTracker F C) α} {f : α → Act (PTracker F C) β} (hm : Goes m) (hr : PGives m R) (hf : ∀ a, R a → PTop k (f a)) : PTop k (m >>= f) := fun t b t' hn e => by
  obtain ⟨a, t1, e1, e2⟩ := Act.bind_eq_ok.1 e
  have g1 := hm t hn
  rw [e1] at g1
  exact hf a (hr t a t1 e1) t1 b t' g1.num e2
theorem then_ {m : Act (PTracker F C) α} {f : α → Act (PTracker F C) β} (hm : Goes m) (hf : ∀ a, PTop k (f a)) : PTop k (m >>= f) := next (R := fun _ => True) hm (fun _ _ _ _ => trivial) fun a _ => hf a
theorem commit (p : Mle F) (h : p.numVars = k) : PTop k (TPoly.trackAndCommit E.commit p) := fun t a t' hn e => by
  unfold TPoly.trackAndCommit at e
  obtain ⟨i, t1, e1, e2⟩ := Act.bind_eq_ok.1 e
  cases e2
  unfold PTracker.trackAndCommit at e1
  obtain ⟨c, s1, e2, e1⟩ := Act.bind_eq_ok.1 e1
  obtain ⟨-, rfl⟩ := Prod.mk.inj e2
  cases e1
  exact ⟨t.idCounter, _, by simp [amInsert]; rfl, h⟩

theorem disjoint (a b r : Bag) (h : max a.numVars b.numVars + 1 = k) : PTop k (Disjoint.prove E a b r) := by
  unfold Disjoint.prove
  refine next (R := fun x => x.1.numVars = k) (disjointAdvice_goes E a b) ?_ fun x hx => first (TPoly.trackAndCommit_goes _ _) (commit E _ hx) fun _ => ?_
  · unfold Disjoint.advice
    refine .last fun _ => .last fun _ => .last fun _ => .next (.fromEvals _ _) fun p hp => .last fun _ => .last fun _ => .last fun _ => ?_
    intro t x t' e
    cases e
    exact hp.trans h
  · have := disjointWith_goes E a b
    goes

theorem setDisjoint (a b r : Bag) (h : max a.numVars b.numVars + 1 = k) : PTop k (SetDisjoint.prove E a b r) := by
  unfold SetDisjoint.prove
  dsimp only
  refine then_ (TPoly.evaluations_goes _) fun _ => then_ (TPoly.evaluations_goes _) fun _ => then_ (.lift _) fun _ => then_ (TPoly.evaluations_goes _) fun _ => then_ (TPoly.evaluations_goes _) fun _ =>
    then_ (.lift _) fun _ => next (.lift _) (.fromEvals _ _) fun x hx => then_ (.lift _) fun _ => first (TPoly.trackAndCommit_goes _ _) (commit E _ (hx.trans h)) fun _ => ?_
  goes

theorem setUnion (a b u r : Bag) (h : max a.numVars b.numVars + 1 = k) : PTop k (SetUnion.prove E a b u r) := by
  unfold SetUnion.prove
  dsimp only
  refine then_ (TPoly.evaluations_goes _) fun _ => then_ (TPoly.evaluations_goes _) fun _ => then_ (.lift _) fun _ => then_ (TPoly.evaluations_goes _) fun _ => then_ (TPoly.evaluations_goes _) fun _ =>
    then_ (.lift _) fun _ => next (.lift _) (.fromEvals _ _) fun x hx => then_ (.lift _) fun _ => first (TPoly.trackAndCommit_goes _ _) (commit E _ (hx.trans h)) fun _ => ?_
  goes

theorem setDiff (a b l m : Bag) (bm : TPoly) (r : Bag) (h : max l.numVars b.numVars + 1 = k) : PTop k (SetDiff.prove E a b l m bm r) := by
  unfold SetDiff.prove
  refine first (setDisjoint_goes E _ _ _) (setDisjoint E _ _ _ h) fun _ => ?_
  goes

theorem setIntersect (a b l m r x : Bag) (h : max l.numVars r.numVars + 1 = k) : PTop k (SetIntersect.prove E a b l m r x) := by
  unfold SetIntersect.prove
  exact then_ (bagSum_goes E _ _ _) fun _ => then_ (bagSum_goes E _ _ _) fun _ => setDisjoint E _ _ _ h

theorem joinReduction (a b : Bag) (l r : TPoly) (x : Bag) (h : max a.numVars b.numVars + 1 = k) : PTop k (JoinReduction.prove E a b l r x) := by
  unfold JoinReduction.prove
  refine then_ (TPoly.mulScalar_goes _ _) fun _ => then_ (TPoly.addScalar_goes _ _) fun _ => then_ (TPoly.mulScalar_goes _ _) fun _ => then_ (TPoly.addScalar_goes _ _) fun _ =>
    then_ (TPoly.mul_goes _ _) fun _ => next (R := fun b => b.numVars = a.numVars) (bagNew_goes _ _ _) ?_ fun y hy => then_ (TPoly.mul_goes _ _) fun _ =>
    next (R := fun c => c.numVars = b.numVars) (bagNew_goes _ _ _) ?_ fun z hz => then_ (TPoly.mul_goes _ _) fun _ => then_ (bagNew_goes _ _ _) fun _ => then_ (TPoly.mul_goes _ _) fun _ =>
    then_ (bagNew_goes _ _ _) fun _ => then_ (selector_goes _) fun _ => then_ (selector_goes _) fun _ => first (disjoint_goes E _ _ _) (disjoint E _ _ _ (by rw [hy, hz]; exact h)) fun _ => ?_
  · unfold Bag.new
    refine .last fun _ => ?_
    intro t x t' e
    cases e
    rfl
  · unfold Bag.new
    refine .last fun _ => ?_
    intro t x t' e
    cases e
    rfl
  · goes

theorem check {K : Type} {φ : K → TPoly} {W : K → Column F} (hW : ∀ i, (W i).nv = (φ i).numVars) (c : Check K) (h : c.Reaches k W) : PTop k ((c.map φ).prove E) := by
  cases c <;> simp only [Check.Reaches, hW] at h
  · exact disjoint E _ _ _ h
  · exact setDisjoint E _ _ _ h
  · exact setUnion E _ _ _ _ h
  · exact setDiff E _ _ _ _ _ _ h
  · exact setIntersect E _ _ _ _ _ _ h
  · exact joinReduction E _ _ _ _ _ h

end PTop

/-- The same from states whose tables are small. -/
def PTopIn (N k : Nat) (m : Act (PTracker F C) α) : Prop := ∀ t a t', PTracker.Numbered t → Small N t → m t = (.ok a, t') → Got k t'

namespace PTopIn
variable {N k : Nat} (E : Env F C)

theorem now {m : Act (PTracker F C) α} {f : α → Act (PTracker F C) β} (hm : Goes m) (h : PTop k m) (hf : ∀ a, Goes (f a)) : PTopIn N k (m >>= f) := fun t b t' hn _ e => PTop.first hm h hf t b t' hn e
theorem later {R : α → Prop} {m : Act (PTracker F C) α} {f : α → Act (PTracker F C) β} (hm : Goes m) (hr : PFit N m R) (hf : ∀ a, R a → PTopIn N k (f a)) : PTopIn N k (m >>= f) :=
  fun t b t' hn hs e => by
    obtain ⟨a, t1, e1, e2⟩ := Act.bind_eq_ok.1 e
    have g1 := hm t hn
    rw [e1] at g1
    obtain ⟨s1, r1⟩ := hr t a t1 hs e1
    exact hf a r1 t1 b t' g1.num s1 e2

theorem proveAll : ∀ (prog : List (Step F)) (hs : List TPoly) (W : List (Column F)), Zksql.Sized hs W → Step.FitsAll N W prog → Step.ReachesAll k W prog → PTopIn N k (Step.proveAll E prog hs)
  | [], _, _, _, _, h => h.elim
  | .commit p :: r, hs, W, h, hf, ht => by
    rcases ht with ht | ht
    · exact now (TPoly.trackAndCommit_goes _ _) (PTop.commit E p ht) fun _ => proveAll_goes E r _
    · exact later (TPoly.trackAndCommit_goes _ _) (PFit.commit _ _ hf.1.2) fun _ hx => proveAll r _ _ (h.push hx) hf.2 ht
  | .add i j :: r, hs, W, h, hf, ht => later (TPoly.add_goes _ _) (PFit.add _ _) fun _ hx => proveAll r _ (Step.next W (.add i j)) (h.push (hx.trans (h.2 i))) hf.2 (ht.resolve_left id)
  | .sub i j :: r, hs, W, h, hf, ht => later (TPoly.sub_goes _ _) (PFit.sub _ _) fun _ hx => proveAll r _ (Step.next W (.sub i j)) (h.push (hx.trans (h.2 i))) hf.2 (ht.resolve_left id)
  | .mul i j :: r, hs, W, h, hf, ht => later (TPoly.mul_goes _ _) (PFit.mul _ _) fun _ hx => proveAll r _ (Step.next W (.mul i j)) (h.push (hx.trans (h.2 i))) hf.2 (ht.resolve_left id)
  | .addScalar i c :: r, hs, W, h, hf, ht =>
    later (TPoly.addScalar_goes _ _) (PFit.addScalar _ _) fun _ hx => proveAll r _ (Step.next W (.addScalar i c)) (h.push (hx.trans (h.2 i))) hf.2 (ht.resolve_left id)
  | .mulScalar i c :: r, hs, W, h, hf, ht =>
    later (TPoly.mulScalar_goes _ _) (PFit.mulScalar _ _) fun _ hx => proveAll r _ (Step.next W (.mulScalar i c)) (h.push (hx.trans (h.2 i))) hf.2 (ht.resolve_left id)
  | .check c :: r, hs, W, h, hf, ht => by
    rcases ht with ht | ht
    · exact now (check_goes E _) (PTop.check E (fun k => (h.2 k).symm) c ht) fun _ => proveAll_goes E r _
    · exact later (check_goes E _) (PFit.check E (fun k => (h.2 k).symm) c hf.1.2) fun _ _ => proveAll r _ _ h hf.2 ht
  | .join a b ai bi :: r, hs, W, h, hf, ht => by
    refine later (join_goes E _ _ _ _) (PFit.join E _ _ _ _ ?_ ?_) fun t hx => proveAll r _ _ ?_ hf.2 (ht.resolve_left id)
    · exact (h.2 a.2).le.trans (hf.1.1 a.2 (by simp)).2
    · exact (h.2 b.2).le.trans (hf.1.1 b.2 (by simp)).2
    · have hla : (tableOf (a.1.map (at' hs), at' hs a.2)).colVals.length = a.1.length := by simp [tableOf]
      rw [hla] at hx
      have := h.append (xs := t.colVals.take a.1.length) (nv := (colAt W b.2).nv)
        (Ts := a.1.map fun c => moved (colAt W c).val (partners (tabData (colAt W) a) (tabData (colAt W) b) ai bi) (colAt W b.2).val) (by simpa using hx.1) fun x hx' => (hx.2 x hx').trans (h.2 b.2)
      rw [List.map_map] at this
      exact this

end PTopIn
end Zksql
