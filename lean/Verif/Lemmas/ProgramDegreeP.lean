import Verif.Lemmas.ProgramDegree
import Verif.Lemmas.Halted
import Verif.Spec.EndToEnd
/-!
The degrees of what the prover claims.
-/
set_option linter.unusedSectionVars false
namespace Zksql
open Spec
open PTracker (Numbered Onward addSumClaim addZeroClaim trackVirt trackMat trackMatArc allocArc materialize increaseNv addSubPolys mulPolys)
variable {F C : Type} [Field F] [DecidableEq F] {α β : Type}

/-- The polynomial is a table or a sum of products of at most `d` tables. -/
def PTracker.Dg (t : PTracker F C) (i d : Nat) : Prop :=
  1 ≤ d ∧ ((∃ a, t.mats.lookup i = some a) ∨ ∃ v, t.virts.lookup i = some v ∧ ∀ q ∈ v, q.2.length ≤ d)

namespace PTracker
variable {t t' : PTracker F C} {i d e : Nat}

theorem Dg.later (h : Dg t i d) (o : Onward t t') : Dg t' i d := by
  obtain ⟨h1, ⟨a, ha⟩ | ⟨v, hv, hd⟩⟩ := h
  · exact ⟨h1, .inl ⟨a, o.mats i a ha⟩⟩
  · rcases o.virts i v hv with ⟨h, -⟩ | ⟨a, h, -⟩
    · exact ⟨h1, .inr ⟨v, h, hd⟩⟩
    · exact ⟨h1, .inl ⟨a, h⟩⟩

theorem Dg.le (h : Dg t i d) (k : d ≤ e) : Dg t i e := ⟨h.1.trans k, h.2.imp id fun ⟨v, hv, hd⟩ => ⟨v, hv, fun q hq => (hd q hq).trans k⟩⟩

/-- Facts about degrees: identifiers and bounds. -/
def Has (t : PTracker F C) (Γ : List (Nat × Nat)) : Prop := ∀ x ∈ Γ, Dg t x.1 x.2

theorem Has.later {Γ : List (Nat × Nat)} (h : Has t Γ) (o : Onward t t') : Has t' Γ := fun x hx => (h x hx).later o

end PTracker
open PTracker (Dg Has)

/-- In successful runs from states with the facts `Γ` new claims have degree at most `D`, and results have `R` and the facts `Q`. -/
def PDeg (D : Nat) (Γ : List (Nat × Nat)) (m : Act (PTracker F C) α) (R : α → Prop) (Q : α → List (Nat × Nat)) : Prop :=
  ∀ t a t', Numbered t → Has t Γ → m t = (.ok a, t') → Onward t t' ∧ (∀ h ∈ t'.zeroClaims, h ∈ t.zeroClaims ∨ Dg t' h D) ∧
    (∀ c ∈ t'.sumClaims, c ∈ t.sumClaims ∨ Dg t' c.1 D) ∧ R a ∧ Has t' (Q a)

namespace PDeg
variable {D D' : Nat} {Γ Γ' : List (Nat × Nat)} {R : α → Prop} {Q : α → List (Nat × Nat)} {R' : β → Prop} {Q' : β → List (Nat × Nat)}

theorem bind {m : Act (PTracker F C) α} {f : α → Act (PTracker F C) β} (h : PDeg D Γ m R Q) (hf : ∀ a, R a → PDeg D (Q a ++ Γ) (f a) R' Q') : PDeg D Γ (m >>= f) R' Q' := by
  intro t b t' hn hg e
  obtain ⟨a, t1, e1, e2⟩ := Act.bind_eq_ok.1 e
  obtain ⟨o1, z1, u1, r1, q1⟩ := h t a t1 hn hg e1
  have hg1 : Has t1 (Q a ++ Γ) := fun x hx => (List.mem_append.1 hx).elim (q1 x) (hg.later o1 x)
  obtain ⟨o2, z2, u2, r2, q2⟩ := hf a r1 t1 b t' o1.num hg1 e2
  refine ⟨o1.trans o2, fun h hh => ?_, fun c hc => ?_, r2, q2⟩
  · rcases z2 h hh with hh | hh
    · exact (z1 h hh).imp id fun k => k.later o2
    · exact .inr hh
  · rcases u2 c hc with hc | hc
    · exact (u1 c hc).imp id fun k => k.later o2
    · exact .inr hc

theorem weaken {R2 : α → Prop} {Q2 : α → List (Nat × Nat)} {m : Act (PTracker F C) α} (h : PDeg D Γ m R Q) (hr : ∀ a, R a → R2 a)
    (hq : ∀ a, R a → ∀ x ∈ Q2 a, x ∈ Γ ∨ ∃ y ∈ Q a, y.1 = x.1 ∧ y.2 ≤ x.2) : PDeg D Γ m R2 Q2 := by
  intro t a t' hn hg e
  obtain ⟨o, z, u, r, q⟩ := h t a t' hn hg e
  refine ⟨o, z, u, hr a r, fun x hx => ?_⟩
  rcases hq a r x hx with h | ⟨y, hy, e1, e2⟩
  · exact (hg x h).later o
  · rw [← e1]
    exact (q y hy).le e2

theorem done {m : Act (PTracker F C) α} (h : PDeg D Γ m R Q) : PDeg D Γ m (fun _ => True) fun _ => [] := h.weaken (fun _ _ => trivial) fun _ _ x hx => by cases hx

theorem upto {m : Act (PTracker F C) α} (h : PDeg D Γ m R Q) (hD : D ≤ D') : PDeg D' Γ m R Q := by
  intro t a t' hn hg e
  obtain ⟨o, z, u, r⟩ := h t a t' hn hg e
  exact ⟨o, fun h hh => (z h hh).imp id fun k => k.le hD, fun c hc => (u c hc).imp id fun k => k.le hD, r⟩

theorem ctx {m : Act (PTracker F C) α} (h : PDeg D Γ m R Q) (hc : ∀ x ∈ Γ, ∃ y ∈ Γ', y.1 = x.1 ∧ y.2 ≤ x.2) : PDeg D Γ' m R Q := by
  intro t a t' hn hg e
  refine h t a t' hn (fun x hx => ?_) e
  obtain ⟨y, hy, e1, e2⟩ := hc x hx
  rw [← e1]
  exact (hg y hy).le e2

theorem quiet {m : Act (PTracker F C) α} (hg : Goes m) (h : ∀ t a t', m t = (.ok a, t') → t'.zeroClaims = t.zeroClaims ∧ t'.sumClaims = t.sumClaims ∧ R a) : PDeg D Γ m R fun _ => [] := by
  intro t a t' hn _ e
  obtain ⟨z, u, r⟩ := h t a t' e
  have o := hg t hn
  rw [e] at o
  exact ⟨o, fun _ h => .inl (z ▸ h), fun _ h => .inl (u ▸ h), r, fun x hx => by cases hx⟩

theorem fail {x : Fail} : PDeg D Γ (Act.lift (.error x) : Act (PTracker F C) α) R Q := fun _ _ _ _ _ e => by cases (Prod.mk.inj e).1
theorem pure (a : α) : PDeg D Γ (Pure.pure a : Act (PTracker F C) α) (· = a) fun _ => [] := quiet (.pure a) fun t b t' e => by cases e; exact ⟨rfl, rfl, rfl⟩
theorem lift (r : Res α) : PDeg D Γ (Act.lift r : Act (PTracker F C) α) (fun a => r = .ok a) fun _ => [] := quiet (Goes.lift r) fun t b t' e => by
  obtain ⟨e1, e2⟩ := Prod.mk.inj e
  subst e2
  exact ⟨rfl, rfl, e1⟩
theorem reads (f : PTracker F C → Res α) : PDeg D Γ (Act.reads f) (fun _ => True) fun _ => [] := quiet (.reads f) fun t b t' e => by
  obtain ⟨e1, e2⟩ := Prod.mk.inj e
  subst e2
  exact ⟨rfl, rfl, trivial⟩
theorem assert (p : Prop) [Decidable p] : PDeg D Γ (Act.assert p : Act (PTracker F C) Unit) (fun _ => True) fun _ => [] := quiet (.assert p) fun t b t' e => by
  unfold Act.assert at e
  split at e <;> cases e
  exact ⟨rfl, rfl, trivial⟩
theorem ite {p : Prop} [Decidable p] {m m' : Act (PTracker F C) α} (h1 : PDeg D Γ m R Q) (h2 : PDeg D Γ m' R Q) : PDeg D Γ (if p then m else m') R Q := by
  split
  · exact h1
  · exact h2
theorem ite' {p : Prop} [Decidable p] {m m' : Act (PTracker F C) α} (h2 : PDeg D Γ m' R Q) (h1 : PDeg D Γ m R Q) : PDeg D Γ (if p then m else m') R Q := ite h1 h2

theorem materialize (i : Nat) : PDeg D Γ (PTracker.materialize i : Act (PTracker F C) Unit) (fun _ => True) fun _ => [] := quiet (PTracker.materialize_goes i) fun t a t' e => by
  rcases hm : t.mats.lookup i with _ | a
  · rcases hv : t.virts.lookup i with _ | v
    · rw [PTracker.materialize_unknown hm hv] at e
      cases e
    · rcases hr : t.materializeRep v with x | m
      · rw [PTracker.materialize_bad hm hv hr] at e
        cases e
      · rw [PTracker.materialize_virt hm hv hr] at e
        cases e
        exact ⟨rfl, rfl, trivial⟩
  · rw [PTracker.materialize_mat hm] at e
    cases e
    exact ⟨rfl, rfl, trivial⟩
theorem evaluations (a : TPoly) : PDeg D Γ (a.evaluations : Act (PTracker F C) (List F)) (fun _ => True) fun _ => [] := bind (materialize _) fun _ _ => bind (reads _) fun _ _ => done (pure _)
theorem allocArc (p : Mle F) : PDeg D Γ (PTracker.allocArc p : Act (PTracker F C) _) (fun _ => True) fun _ => [] := quiet (PTracker.allocArc_goes p) fun t a t' e => by
  cases e
  exact ⟨rfl, rfl, trivial⟩
theorem trackMatArc (p : ArcMle F) : PDeg D Γ (PTracker.trackMatArc p : Act (PTracker F C) Nat) (fun _ => True) fun i => [(i, 1)] := by
  intro t a t' hn _ e
  have o := PTracker.trackMatArc_goes p t hn
  rw [e] at o
  cases e
  refine ⟨o, fun _ h => .inl h, fun _ h => .inl h, trivial, fun x hx => ?_⟩
  cases List.mem_singleton.1 hx
  refine ⟨Nat.le_refl _, .inl ⟨p, ?_⟩⟩
  change (amInsert t.idCounter p t.mats).lookup _ = _
  rw [lookup_amInsert, if_pos rfl]
theorem trackVirt {d : Nat} (v : VRep F) (h1 : 1 ≤ d) (h : ∀ q ∈ v, q.2.length ≤ d) : PDeg D Γ (PTracker.trackVirt v : Act (PTracker F C) Nat) (fun _ => True) fun i => [(i, d)] := by
  intro t a t' hn _ e
  have o := PTracker.trackVirt_goes v t hn
  rw [e] at o
  cases e
  refine ⟨o, fun _ h => .inl h, fun _ h => .inl h, trivial, fun x hx => ?_⟩
  cases List.mem_singleton.1 hx
  refine ⟨h1, .inr ⟨v, ?_, h⟩⟩
  change (amInsert t.idCounter v t.virts).lookup _ = _
  rw [lookup_amInsert, if_pos rfl]
/-- Reading a sum of products and tracking it. -/
theorem virt {d : Nat} (f : PTracker F C → Res (VRep F)) (h1 : ∀ t, Has t Γ → ∀ v, f t = .ok v → 1 ≤ d ∧ ∀ q ∈ v, q.2.length ≤ d) :
    PDeg D Γ (Act.reads f >>= fun v => PTracker.trackVirt v) (fun _ => True) fun i => [(i, d)] := by
  intro t a t' hn hg e
  obtain ⟨v, t1, e1, e2⟩ := Act.bind_eq_ok.1 e
  obtain ⟨e3, e4⟩ := Prod.mk.inj e1
  subst e4
  obtain ⟨k1, k2⟩ := h1 t hg v e3
  exact trackVirt v k1 k2 t a t' hn hg e2

theorem addSub {i j d e : Nat} (s : Bool) (h1 : (i, d) ∈ Γ) (h2 : (j, e) ∈ Γ) : PDeg D Γ (PTracker.addSubPolys i j s : Act (PTracker F C) Nat) (fun _ => True) fun a => [(a, max d e)] := by
  refine virt _ fun t hg v hv => ?_
  obtain ⟨k1, k2⟩ := hg _ h1
  obtain ⟨l1, l2⟩ := hg _ h2
  dsimp only at k1 k2 l1 l2
  refine ⟨by omega, ?_⟩
  have m1 : d ≤ max d e := Nat.le_max_left _ _
  have m2 : e ≤ max d e := Nat.le_max_right _ _
  generalize max d e = M at *
  unfold PTracker.addSubRep at hv
  dsimp only at hv
  split at hv <;> cases hv
  · simp only [List.mem_cons, List.not_mem_nil, or_false]
    rintro q (rfl | rfl) <;> simp <;> omega
  · rename_i hm _ hm2 hv2
    obtain ⟨a, ha⟩ | ⟨v, hv, hd⟩ := l2
    · rw [hm2] at ha; cases ha
    rw [hv2] at hv; cases hv
    simp only [List.mem_cons, List.mem_map]
    rintro q (rfl | ⟨x, hx, rfl⟩)
    · simp; omega
    · exact (hd x hx).trans m2
  · rename_i hm hv2 _ _
    obtain ⟨a, ha⟩ | ⟨v, hv, hd⟩ := k2
    · rw [hm] at ha; cases ha
    rw [hv2] at hv; cases hv
    simp only [List.mem_append, List.mem_singleton]
    rintro q (hx | rfl)
    · exact (hd q hx).trans m1
    · simp; omega
  · rename_i hm hv2 hm3 hv3
    obtain ⟨a, ha⟩ | ⟨v, hv, hd⟩ := k2
    · rw [hm] at ha; cases ha
    rw [hv2] at hv; cases hv
    obtain ⟨a, ha⟩ | ⟨v, hv, hd2⟩ := l2
    · rw [hm3] at ha; cases ha
    rw [hv3] at hv; cases hv
    simp only [List.mem_append, List.mem_map]
    rintro q (hx | ⟨x, hx, rfl⟩)
    · exact (hd q hx).trans m1
    · exact (hd2 x hx).trans m2
theorem mulP {i j d e : Nat} (h1 : (i, d) ∈ Γ) (h2 : (j, e) ∈ Γ) : PDeg D Γ (PTracker.mulPolys i j : Act (PTracker F C) Nat) (fun _ => True) fun a => [(a, d + e)] := by
  refine virt _ fun t hg v hv => ?_
  obtain ⟨k1, k2⟩ := hg _ h1
  obtain ⟨l1, l2⟩ := hg _ h2
  dsimp only at k1 k2 l1 l2
  refine ⟨by omega, ?_⟩
  unfold PTracker.mulRep at hv
  split at hv <;> cases hv
  · simp only [List.mem_cons, List.not_mem_nil, or_false]
    rintro q rfl
    simp; omega
  · rename_i hm _ hm2 hv2
    obtain ⟨a, ha⟩ | ⟨v, hv, hd⟩ := l2
    · rw [hm2] at ha; cases ha
    rw [hv2] at hv; cases hv
    simp only [List.mem_map]
    rintro q ⟨x, hx, rfl⟩
    have := hd x hx
    simp; omega
  · rename_i hm hv2 _ _
    obtain ⟨a, ha⟩ | ⟨v, hv, hd⟩ := k2
    · rw [hm] at ha; cases ha
    rw [hv2] at hv; cases hv
    simp only [List.mem_map]
    rintro q ⟨x, hx, rfl⟩
    have := hd x hx
    simp; omega
  · rename_i hm hv2 hm3 hv3
    obtain ⟨a, ha⟩ | ⟨v, hv, hd⟩ := k2
    · rw [hm] at ha; cases ha
    rw [hv2] at hv; cases hv
    obtain ⟨a, ha⟩ | ⟨v, hv, hd2⟩ := l2
    · rw [hm3] at ha; cases ha
    rw [hv3] at hv; cases hv
    simp only [List.mem_flatMap, List.mem_map]
    rintro q ⟨x, hx, y, hy, rfl⟩
    have := hd x hx
    have := hd2 y hy
    simp; omega
theorem mulS {i d : Nat} (c : F) (h1 : (i, d) ∈ Γ) : PDeg D Γ (PTracker.mulScalar i c : Act (PTracker F C) Nat) (fun _ => True) fun a => [(a, d)] := by
  refine virt _ fun t hg v hv => ?_
  obtain ⟨k1, k2⟩ := hg _ h1
  dsimp only at k1 k2
  refine ⟨k1, ?_⟩
  unfold PTracker.mulScalarRep at hv
  split at hv
  · cases hv
    simp only [List.mem_singleton]
    rintro q rfl
    simpa using k1
  · rename_i hm
    obtain ⟨a, ha⟩ | ⟨v, hv', hd⟩ := k2
    · rw [hm] at ha; cases ha
    rw [hv'] at hv
    cases hv
    simp only [List.mem_map]
    rintro q ⟨x, hx, rfl⟩
    exact hd x hx

theorem trackM (p : Mle F) : PDeg D Γ (PTracker.trackMat p : Act (PTracker F C) Nat) (fun _ => True) fun i => [(i, 1)] := bind (allocArc p) fun _ _ => trackMatArc _
theorem challenge (H : Oracle F C) (l : String) : PDeg D Γ (PTracker.challenge H l) (fun _ => True) fun _ => [] := quiet (PTracker.challenge_goes H l) fun t a t' e => by
  unfold PTracker.challenge at e
  rcases hc : t.transcript.challenge H l with x | ⟨c, tr⟩ <;> rw [hc] at e <;> cases e
  exact ⟨rfl, rfl, trivial⟩
theorem commitP (cm : Mle F → Res C) (p : Mle F) : PDeg D Γ (PTracker.trackAndCommit cm p) (fun _ => True) fun i => [(i, 1)] := by
  intro t a t' hn _ e
  have o := PTracker.trackAndCommit_goes cm p t hn
  rw [e] at o
  unfold PTracker.trackAndCommit at e
  obtain ⟨c, s1, e1, e⟩ := Act.bind_eq_ok.1 e
  obtain ⟨-, rfl⟩ := Prod.mk.inj e1
  cases e
  refine ⟨o, fun _ h => .inl h, fun _ h => .inl h, trivial, fun x hx => ?_⟩
  cases List.mem_singleton.1 hx
  refine ⟨Nat.le_refl _, .inl ⟨⟨t.heap, p⟩, ?_⟩⟩
  change (amInsert t.idCounter ⟨t.heap, p⟩ t.mats).lookup _ = _
  rw [lookup_amInsert, if_pos rfl]
theorem sumClaim {i d : Nat} (v : F) (h : (i, d) ∈ Γ) (hD : d ≤ D) : PDeg D Γ (PTracker.addSumClaim i v : Act (PTracker F C) Unit) (fun _ => True) fun _ => [] := by
  intro t a t' hn hg e
  have o := PTracker.addSumClaim_goes (C := C) i v t hn
  rw [e] at o
  cases e
  refine ⟨o, fun _ h => .inl h, fun c hc => ?_, trivial, fun x hx => by cases hx⟩
  rcases List.mem_append.1 hc with hc | hc
  · exact .inl hc
  · cases List.mem_singleton.1 hc
    exact .inr (((hg _ h).later o).le hD)
theorem zeroClaim {i d : Nat} (h : (i, d) ∈ Γ) (hD : d ≤ D) : PDeg D Γ (PTracker.addZeroClaim i : Act (PTracker F C) Unit) (fun _ => True) fun _ => [] := by
  intro t a t' hn hg e
  have o := PTracker.addZeroClaim_goes (F := F) (C := C) i t hn
  rw [e] at o
  cases e
  refine ⟨o, fun c hc => ?_, fun _ h => .inl h, trivial, fun x hx => by cases hx⟩
  rcases List.mem_append.1 hc with hc | hc
  · exact .inl hc
  · cases List.mem_singleton.1 hc
    exact .inr (((hg _ h).later o).le hD)

/-- A handle instead of an identifier. -/
theorem handle {d nv : Nat} {m : Act (PTracker F C) Nat} (h : PDeg D Γ m (fun _ => True) fun i => [(i, d)]) :
    PDeg D Γ (m >>= fun i => Pure.pure (⟨i, nv⟩ : TPoly)) (fun _ => True) fun a => [(a.id, d)] :=
  bind h fun i _ => (pure _).weaken (fun _ _ => trivial) fun a ha x hx => by
    cases List.mem_singleton.1 hx
    rw [ha]
    exact .inl (.head _)

theorem track (p : Mle F) : PDeg D Γ (TPoly.trackMat p : Act (PTracker F C) TPoly) (fun _ => True) fun a => [(a.id, 1)] := handle (trackM p)
theorem commit (cm : Mle F → Res C) (p : Mle F) : PDeg D Γ (TPoly.trackAndCommit cm p) (fun _ => True) fun a => [(a.id, 1)] := handle (commitP cm p)
theorem add {a b : TPoly} {d e : Nat} (h1 : (a.id, d) ∈ Γ) (h2 : (b.id, e) ∈ Γ) : PDeg D Γ (a.add b : Act (PTracker F C) TPoly) (fun _ => True) fun a => [(a.id, max d e)] :=
  bind (assert _) fun _ _ => handle (addSub false h1 h2)
theorem sub {a b : TPoly} {d e : Nat} (h1 : (a.id, d) ∈ Γ) (h2 : (b.id, e) ∈ Γ) : PDeg D Γ (a.sub b : Act (PTracker F C) TPoly) (fun _ => True) fun a => [(a.id, max d e)] :=
  bind (assert _) fun _ _ => handle (addSub true h1 h2)
theorem mul {a b : TPoly} {d e : Nat} (h1 : (a.id, d) ∈ Γ) (h2 : (b.id, e) ∈ Γ) : PDeg D Γ (a.mul b : Act (PTracker F C) TPoly) (fun _ => True) fun a => [(a.id, d + e)] :=
  bind (assert _) fun _ _ => handle (mulP h1 h2)
theorem mulScalar {a : TPoly} {d : Nat} (c : F) (h1 : (a.id, d) ∈ Γ) : PDeg D Γ (a.mulScalar c : Act (PTracker F C) TPoly) (fun _ => True) fun a => [(a.id, d)] := handle (mulS c h1)
theorem addScalar {a : TPoly} {d : Nat} (c : F) (h1 : (a.id, d) ∈ Γ) : PDeg D Γ (a.addScalar c : Act (PTracker F C) TPoly) (fun _ => True) fun a => [(a.id, d)] := by
  intro t b t' hn hg e
  have := handle (D := D) (nv := a.numVars) (bind (reads fun t : PTracker F C => t.getPolyNv a.id) fun _ _ => bind (lift (Mle.fromEvals _ (List.replicate (2 ^ _) c))) fun _ _ => bind (trackM _) fun _ _ => addSub false (.tail _ h1) (.head _)) t b t' hn hg e
  rwa [Nat.max_eq_left (hg _ h1).1] at this
theorem bagNew (d : Bool) (a b : TPoly) : PDeg D Γ (Bag.new d a b : Act (PTracker F C) Bag) (fun x => x = ⟨a, b⟩) fun _ => [] := bind (assert _) fun _ _ => pure _
theorem tableNew (d : Bool) (a : List TPoly) (b : TPoly) : PDeg D Γ (Table.new d a b : Act (PTracker F C) Table) (fun x => x = ⟨a, b⟩) fun _ => [] := bind (assert _) fun _ _ => pure _

variable (E : Env F C)

syntax "pmem" : tactic
macro_rules | `(tactic| pmem) => `(tactic| first | exact List.Mem.head _ | assumption | (apply List.Mem.tail; pmem))

/-- The side conditions of a call, in order. -/
macro "pside" : tactic => `(tactic| all_goals (first | pmem | ((try simp only [Deg.lg]); omega)))

syntax "pdegs_call" : tactic
macro_rules | `(tactic| pdegs_call) => `(tactic| fail "no rule")

/-- All steps of a call. -/
macro "pdegs" : tactic => `(tactic| (
    repeat (first
    | with_reducible exact fail
    | with_reducible exact challenge _ _ | with_reducible exact track _ | with_reducible exact commit _ _ | with_reducible exact evaluations _
    | with_reducible exact assert _
    | ((with_reducible eapply add) <;> pmem) | ((with_reducible eapply sub) <;> pmem) | ((with_reducible eapply mul) <;> pmem)
    | ((with_reducible eapply mulScalar) <;> pmem) | ((with_reducible eapply addScalar) <;> pmem)
    | ((with_reducible eapply zeroClaim) <;> pside) | ((with_reducible eapply sumClaim) <;> pside)
    | with_reducible exact bagNew _ _ _ | with_reducible exact tableNew _ _ _
    | pdegs_call
    | with_reducible exact done (pure _) | with_reducible exact done (lift _)
    | with_reducible exact pure _ | with_reducible exact lift _
    | (with_reducible apply bind)
    | (with_reducible apply ite')
    | (intro _ h; (try subst h); (try simp only [List.cons_append, List.nil_append])))))

theorem proveSub (b : Bag) (m : TPoly) (γ : F) {p s k : Nat} (h1 : (b.poly.id, p) ∈ Γ) (h2 : (b.selector.id, s) ∈ Γ) (h3 : (m.id, k) ∈ Γ) (hD : Deg.lg p s k ≤ D) :
    PDeg D Γ (Multitool.proveSub E b m γ) (fun _ => True) fun _ => [] := by
  unfold Multitool.proveSub
  unfold Deg.lg at hD
  dsimp only
  pdegs

/-- The facts about a bag with multiplicities. -/
def Fit (D : Nat) (Γ : List (Nat × Nat)) (e : Bag × TPoly) : Prop := ∃ p s k, (e.1.poly.id, p) ∈ Γ ∧ (e.1.selector.id, s) ∈ Γ ∧ (e.2.id, k) ∈ Γ ∧ Deg.lg p s k ≤ D

theorem proveSubs (γ : F) : ∀ (Γ : List (Nat × Nat)) (l : List (Bag × TPoly)), (∀ e ∈ l, Fit D Γ e) → PDeg D Γ (Multitool.proveSubs E γ l) (fun _ => True) fun _ => []
  | _, [], _ => done (pure _)
  | Γ, (b, m) :: r, h => by
    unfold Multitool.proveSubs
    obtain ⟨p, s, k, h1, h2, h3, h4⟩ := h (b, m) (.head _)
    exact bind (proveSub E b m γ h1 h2 h3 h4) fun _ _ => proveSubs γ _ r fun e he => h e (.tail _ he)

theorem multitool (fxs gxs : List Bag) (mf mg : List TPoly) (h : ∀ e ∈ fxs.zip mf ++ gxs.zip mg, Fit D Γ e) :
    PDeg D Γ (Multitool.prove E fxs gxs mf mg) (fun _ => True) fun _ => [] := by
  unfold Multitool.prove
  exact ite fail (ite fail (bind (challenge _ _) fun γ _ => bind (proveSubs E _ _ _ fun e he => h e (List.mem_append_left _ he)) fun _ _ => proveSubs E _ _ _ fun e he =>
    h e (List.mem_append_right _ he)))

theorem bagEq (f g : Bag) {p s p' s' : Nat} (h1 : (f.poly.id, p) ∈ Γ) (h2 : (f.selector.id, s) ∈ Γ) (h3 : (g.poly.id, p') ∈ Γ) (h4 : (g.selector.id, s') ∈ Γ)
    (hD : Deg.lg p s 1 ≤ D ∧ Deg.lg p' s' 1 ≤ D) : PDeg D Γ (BagEq.prove E f g) (fun _ => True) fun _ => [] := by
  unfold BagEq.prove
  refine ite fail (bind (track _) fun a _ => multitool E _ _ _ _ ?_)
  simp only [List.zip_cons_cons, List.zip_nil_left, List.cons_append, List.nil_append, List.mem_cons, List.not_mem_nil, or_false, forall_eq_or_imp, forall_eq]
  exact ⟨⟨p, s, 1, .tail _ h1, .tail _ h2, .head _, hD.1⟩, ⟨p', s', 1, .tail _ h3, .tail _ h4, .head _, hD.2⟩⟩

theorem bagSum (f g k : Bag) {p s p' s' q r : Nat} (h1 : (f.poly.id, p) ∈ Γ) (h2 : (f.selector.id, s) ∈ Γ) (h3 : (g.poly.id, p') ∈ Γ) (h4 : (g.selector.id, s') ∈ Γ)
    (h5 : (k.poly.id, q) ∈ Γ) (h6 : (k.selector.id, r) ∈ Γ) (hD : Deg.lg p s 1 ≤ D ∧ Deg.lg p' s' 1 ≤ D ∧ Deg.lg q r 1 ≤ D) :
    PDeg D Γ (BagSum.prove E f g k) (fun _ => True) fun _ => [] := by
  unfold BagSum.prove
  refine bind (track _) fun a _ => bind (track _) fun b _ => bind (track _) fun c _ => multitool E _ _ _ _ ?_
  simp only [List.zip_cons_cons, List.zip_nil_left, List.cons_append, List.nil_append, List.mem_cons, List.not_mem_nil, or_false, forall_eq_or_imp, forall_eq]
  exact ⟨⟨p, s, 1, by pmem, by pmem, by pmem, hD.1⟩, ⟨p', s', 1, by pmem, by pmem, by pmem, hD.2.1⟩, ⟨q, r, 1, by pmem, by pmem, by pmem, hD.2.2⟩⟩

theorem noZeros (b : Bag) {p s : Nat} (h1 : (b.poly.id, p) ∈ Γ) (h2 : (b.selector.id, s) ∈ Γ) (hD : p + s + 1 ≤ D) : PDeg D Γ (NoZeros.prove E b) (fun _ => True) fun _ => [] := by
  unfold NoZeros.prove
  pdegs

theorem selector (b : TPoly) {p : Nat} (h1 : (b.id, p) ∈ Γ) (hD : 1 ≤ p ∧ p + p ≤ D) : PDeg (F := F) (C := C) D Γ (SelectorValid.prove b) (fun _ => True) fun _ => [] := by
  unfold SelectorValid.prove
  pdegs

theorem incAdvice (a b : Bag) : PDeg (F := F) (C := C) D Γ (Inclusion.advice a b) (fun _ => True) fun _ => [] := by
  unfold Inclusion.advice
  pdegs

theorem inclusionAdvice (f g : Bag) (m : TPoly) {p s p' s' k : Nat} (h1 : (f.poly.id, p) ∈ Γ) (h2 : (f.selector.id, s) ∈ Γ) (h3 : (g.poly.id, p') ∈ Γ) (h4 : (g.selector.id, s') ∈ Γ)
    (h5 : (m.id, k) ∈ Γ) (hD : Deg.lg p s 1 ≤ D ∧ Deg.lg p' s' k ≤ D) : PDeg D Γ (Inclusion.proveWithAdvice E f g m) (fun _ => True) fun _ => [] := by
  unfold Inclusion.proveWithAdvice
  refine bind (track _) fun a _ => multitool E _ _ _ _ ?_
  simp only [List.zip_cons_cons, List.zip_nil_left, List.cons_append, List.nil_append, List.mem_cons, List.not_mem_nil, or_false, forall_eq_or_imp, forall_eq]
  exact ⟨⟨p, s, 1, .tail _ h1, .tail _ h2, .head _, hD.1⟩, ⟨p', s', k, .tail _ h3, .tail _ h4, .tail _ h5, hD.2⟩⟩

theorem inclusion (f g : Bag) {p s p' s' : Nat} (h1 : (f.poly.id, p) ∈ Γ) (h2 : (f.selector.id, s) ∈ Γ) (h3 : (g.poly.id, p') ∈ Γ) (h4 : (g.selector.id, s') ∈ Γ)
    (hD : Deg.lg p s 1 ≤ D ∧ Deg.lg p' s' 1 ≤ D) : PDeg D Γ (Inclusion.prove E f g) (fun _ => True) fun _ => [] := by
  unfold Inclusion.prove
  exact bind (incAdvice _ _) fun _ _ => bind (commit _ _) fun m _ => inclusionAdvice E _ _ _ (p := p) (s := s) (p' := p') (s' := s') (k := 1) (by pmem) (by pmem) (by pmem) (by pmem) (by pmem) hD

macro_rules | `(tactic| pdegs_call) => `(tactic| ((with_reducible eapply PDeg.bagEq) <;> pside))
macro_rules | `(tactic| pdegs_call) => `(tactic| ((with_reducible eapply PDeg.bagSum) <;> pside))
macro_rules | `(tactic| pdegs_call) => `(tactic| ((with_reducible eapply PDeg.noZeros) <;> pside))
macro_rules | `(tactic| pdegs_call) => `(tactic| ((with_reducible eapply PDeg.selector) <;> pside))
macro_rules | `(tactic| pdegs_call) => `(tactic| with_reducible exact PDeg.incAdvice _ _)
macro_rules | `(tactic| pdegs_call) => `(tactic| ((with_reducible eapply PDeg.inclusionAdvice) <;> pside))
macro_rules | `(tactic| pdegs_call) => `(tactic| ((with_reducible eapply PDeg.inclusion) <;> pside))

theorem permutation (f g : Bag) (m : TPoly) {p q k : Nat} (h1 : (f.poly.id, p) ∈ Γ) (h2 : (g.poly.id, q) ∈ Γ) (h3 : (m.id, k) ∈ Γ) (hD : 3 ≤ D ∧ p ≤ D ∧ q ≤ D ∧ k ≤ D) :
    PDeg D Γ (PrescPerm.prove E f g m) (fun _ => True) fun _ => [] := by
  unfold PrescPerm.prove
  dsimp only
  pdegs
macro_rules | `(tactic| pdegs_call) => `(tactic| ((with_reducible eapply PDeg.permutation) <;> pside))

theorem debugDiff (d : Bool) (a : TPoly) (l : List F) : PDeg D Γ (StrictSort.debugDiff d a l : Act (PTracker F C) Unit) (fun _ => True) fun _ => [] := by
  unfold StrictSort.debugDiff
  pdegs
macro_rules | `(tactic| pdegs_call) => `(tactic| with_reducible exact PDeg.debugDiff _ _ _)

theorem sort (f r : Bag) {p s q : Nat} (h1 : (f.poly.id, p) ∈ Γ) (h2 : (f.selector.id, s) ∈ Γ) (h3 : (r.poly.id, q) ∈ Γ) (hD : 2 + max 1 p + s ≤ D ∧ q + 1 ≤ D ∧ 1 ≤ s) :
    PDeg D Γ (StrictSort.prove E f r) (fun _ => True) fun _ => [] := by
  unfold StrictSort.prove
  dsimp only
  pdegs
macro_rules | `(tactic| pdegs_call) => `(tactic| ((with_reducible eapply PDeg.sort) <;> pside))

theorem suppAdvice (b p : Bag) (m : TPoly) (r : Bag) {d s p' s' k q : Nat} (h1 : (b.poly.id, d) ∈ Γ) (h2 : (b.selector.id, s) ∈ Γ) (h3 : (p.poly.id, p') ∈ Γ) (h4 : (p.selector.id, s') ∈ Γ)
    (h5 : (m.id, k) ∈ Γ) (h6 : (r.poly.id, q) ∈ Γ)
    (hD : Deg.lg d s 1 ≤ D ∧ Deg.lg p' s' k ≤ D ∧ 2 + max 1 p' + s' ≤ D ∧ q + 1 ≤ D ∧ 1 ≤ s') : PDeg D Γ (Supp.proveWithAdvice E b p m r) (fun _ => True) fun _ => [] := by
  unfold Supp.proveWithAdvice
  simp only [Deg.lg] at hD
  pdegs
macro_rules | `(tactic| pdegs_call) => `(tactic| ((with_reducible eapply PDeg.suppAdvice) <;> pside))

theorem supp (b p r : Bag) {d s p' s' q : Nat} (h1 : (b.poly.id, d) ∈ Γ) (h2 : (b.selector.id, s) ∈ Γ) (h3 : (p.poly.id, p') ∈ Γ) (h4 : (p.selector.id, s') ∈ Γ) (h6 : (r.poly.id, q) ∈ Γ)
    (hD : Deg.lg d s 1 ≤ D ∧ 2 + max 1 p' + s' ≤ D ∧ q + 1 ≤ D ∧ 1 ≤ s') : PDeg D Γ (Supp.prove E b p r) (fun _ => True) fun _ => [] := by
  unfold Supp.prove
  simp only [Deg.lg] at hD
  pdegs
macro_rules | `(tactic| pdegs_call) => `(tactic| ((with_reducible eapply PDeg.supp) <;> pside))

theorem bagCount (a : Bag) : PDeg (F := F) (C := C) D Γ (Disjoint.bagCount a) (fun _ => True) fun _ => [] := by
  unfold Disjoint.bagCount
  pdegs
macro_rules | `(tactic| pdegs_call) => `(tactic| with_reducible exact PDeg.bagCount _)

theorem disjointAdvice (a b : Bag) : PDeg D Γ (Disjoint.advice E a b) (fun _ => True) fun _ => [] := by
  unfold Disjoint.advice
  dsimp only
  pdegs
macro_rules | `(tactic| pdegs_call) => `(tactic| with_reducible exact PDeg.disjointAdvice _ _ _)

theorem disjoint (a b r : Bag) {p s p' s' q : Nat} (h1 : (a.poly.id, p) ∈ Γ) (h2 : (a.selector.id, s) ∈ Γ) (h3 : (b.poly.id, p') ∈ Γ) (h4 : (b.selector.id, s') ∈ Γ) (h6 : (r.poly.id, q) ∈ Γ)
    (hD : Deg.lg p s 1 ≤ D ∧ Deg.lg p' s' 1 ≤ D ∧ 4 ≤ D ∧ q + 1 ≤ D) : PDeg D Γ (Disjoint.prove E a b r) (fun _ => True) fun _ => [] := by
  unfold Disjoint.prove Disjoint.proveWithAdvice
  simp only [Deg.lg] at hD
  pdegs
macro_rules | `(tactic| pdegs_call) => `(tactic| ((with_reducible eapply PDeg.disjoint) <;> pside))

theorem setDisjoint (a b r : Bag) {p s p' s' q : Nat} (h1 : (a.poly.id, p) ∈ Γ) (h2 : (a.selector.id, s) ∈ Γ) (h3 : (b.poly.id, p') ∈ Γ) (h4 : (b.selector.id, s') ∈ Γ) (h6 : (r.poly.id, q) ∈ Γ)
    (hD : Deg.lg p s 1 ≤ D ∧ Deg.lg p' s' 1 ≤ D ∧ 4 ≤ D ∧ q + 1 ≤ D) : PDeg D Γ (SetDisjoint.prove E a b r) (fun _ => True) fun _ => [] := by
  unfold SetDisjoint.prove
  dsimp only
  simp only [Deg.lg] at hD
  pdegs
macro_rules | `(tactic| pdegs_call) => `(tactic| ((with_reducible eapply PDeg.setDisjoint) <;> pside))

theorem setUnion (a b u r : Bag) {d : Nat} (h1 : (a.poly.id, d) ∈ Γ) (h2 : (a.selector.id, d) ∈ Γ) (h3 : (b.poly.id, d) ∈ Γ) (h4 : (b.selector.id, d) ∈ Γ) (h5 : (u.poly.id, d) ∈ Γ)
    (h6 : (u.selector.id, d) ∈ Γ) (h7 : (r.poly.id, d) ∈ Γ) (hD : 1 ≤ d ∧ 2 * d + 2 ≤ D) : PDeg D Γ (SetUnion.prove E a b u r) (fun _ => True) fun _ => [] := by
  unfold SetUnion.prove
  dsimp only
  pdegs

theorem setDiff (a b l m : Bag) (bm : TPoly) (r : Bag) {d : Nat} (h1 : (a.poly.id, d) ∈ Γ) (h2 : (a.selector.id, d) ∈ Γ) (h3 : (b.poly.id, d) ∈ Γ) (h4 : (b.selector.id, d) ∈ Γ)
    (h5 : (l.poly.id, d) ∈ Γ) (h6 : (l.selector.id, d) ∈ Γ) (h7 : (m.poly.id, d) ∈ Γ) (h8 : (m.selector.id, d) ∈ Γ) (h9 : (bm.id, d) ∈ Γ) (h10 : (r.poly.id, d) ∈ Γ)
    (hD : 1 ≤ d ∧ 2 * d + 1 ≤ D ∧ 4 ≤ D) : PDeg D Γ (SetDiff.prove E a b l m bm r) (fun _ => True) fun _ => [] := by
  unfold SetDiff.prove
  pdegs

theorem setIntersect (a b l m k r : Bag) {d : Nat} (h1 : (a.poly.id, d) ∈ Γ) (h2 : (a.selector.id, d) ∈ Γ) (h3 : (b.poly.id, d) ∈ Γ) (h4 : (b.selector.id, d) ∈ Γ)
    (h5 : (l.poly.id, d) ∈ Γ) (h6 : (l.selector.id, d) ∈ Γ) (h7 : (m.poly.id, d) ∈ Γ) (h8 : (m.selector.id, d) ∈ Γ) (h9 : (k.poly.id, d) ∈ Γ) (h10 : (k.selector.id, d) ∈ Γ)
    (h11 : (r.poly.id, d) ∈ Γ) (hD : 1 ≤ d ∧ d + 2 ≤ D ∧ 4 ≤ D) : PDeg D Γ (SetIntersect.prove E a b l m k r) (fun _ => True) fun _ => [] := by
  unfold SetIntersect.prove
  pdegs

theorem joinReduction (a b : Bag) (l r : TPoly) (k : Bag) {d : Nat} (h1 : (a.poly.id, d) ∈ Γ) (h2 : (a.selector.id, d) ∈ Γ) (h3 : (b.poly.id, d) ∈ Γ) (h4 : (b.selector.id, d) ∈ Γ)
    (h5 : (l.id, d) ∈ Γ) (h6 : (r.id, d) ∈ Γ) (h7 : (k.poly.id, d) ∈ Γ) (hD : 1 ≤ d ∧ 2 * d + 2 ≤ D) : PDeg D Γ (JoinReduction.prove E a b l r k) (fun _ => True) fun _ => [] := by
  unfold JoinReduction.prove
  pdegs

theorem aggLoop {d : Nat} : ∀ (Γ : List (Nat × Nat)) (acc : TPoly) (e : Nat) (cs : List TPoly) (rs : List F), (acc.id, e) ∈ Γ → (∀ c ∈ cs, (c.id, d) ∈ Γ) →
    PDeg D Γ (IndexTransform.proverAggLoop acc cs rs : Act (PTracker F C) TPoly) (fun _ => True) fun a => [(a.id, e + cs.length * d)]
  | _, _, _, [], _, he, _ => (pure _).weaken (fun _ _ => trivial) fun a ha x hx => by
      cases List.mem_singleton.1 hx
      rw [ha]
      exact .inl (by simpa using he)
  | _, _, _, _ :: _, [], _, _ => fail
  | Γ, acc, e, c :: cs, r :: rs, he, hc => by
    unfold IndexTransform.proverAggLoop
    refine bind (mulScalar _ (hc c (.head _))) fun x _ => bind (mul (by pmem) (by pmem)) fun y _ => (aggLoop (d := d) _ _ (e + d) cs rs (.head _) fun c h => ?_).weaken (fun _ _ => trivial) fun a _ x hx => .inr ?_
    · exact .tail _ (.tail _ (hc c (.tail _ h)))
    · cases List.mem_singleton.1 hx
      refine ⟨_, .head _, rfl, le_of_eq ?_⟩
      dsimp only
      rw [List.length_cons, Nat.succ_mul]
      omega

theorem indexTransform (a b : Table) {d : Nat} (h1 : ∀ c ∈ a.colVals, (c.id, d) ∈ Γ) (h2 : (a.selector.id, d) ∈ Γ) (h3 : ∀ c ∈ b.colVals, (c.id, d) ∈ Γ) (h4 : (b.selector.id, d) ∈ Γ)
    (hd : d + 2 ≤ D ∧ (max a.colVals.length b.colVals.length + 1) * d + 1 ≤ D) : PDeg D Γ (IndexTransform.prove E a b) (fun _ => True) fun _ => [] := by
  unfold IndexTransform.prove IndexTransform.proverPowers IndexTransform.proverAgg
  have k1 := Nat.mul_le_mul_right d (Nat.le_max_left a.colVals.length b.colVals.length)
  have k2 := Nat.mul_le_mul_right d (Nat.le_max_right a.colVals.length b.colVals.length)
  have hd2 := hd.2
  rw [Nat.succ_mul] at hd2
  refine bind (bind (challenge _ _) fun _ _ => done (pure _)) fun co _ => bind (R := fun x => x.selector = a.selector) (Q := fun x => [(x.poly.id, d + a.colVals.length * d)]) ?_
    fun x hx => bind (R := fun x => x.selector = b.selector) (Q := fun x => [(x.poly.id, d + b.colVals.length * d)]) ?_ fun y hy => ?_
  · refine bind (aggLoop (d := d) _ _ d _ _ h2 h1) fun p _ => (bagNew _ _ _).weaken (fun z hz => by rw [hz]) fun z hz x hx => .inl ?_
    rw [hz] at hx
    cases List.mem_singleton.1 hx
    exact .head _
  · refine bind (aggLoop (d := d) _ _ d _ _ (.tail _ h4) fun c hc => .tail _ (h3 c hc)) fun p _ => (bagNew _ _ _).weaken (fun z hz => by rw [hz]) fun z hz x hx => .inl ?_
    rw [hz] at hx
    cases List.mem_singleton.1 hx
    exact .head _
  · refine inclusion E _ _ (p := d + b.colVals.length * d) (s := d) (p' := d + a.colVals.length * d) (s' := d) (.head _) ?_ (.tail _ (.head _)) ?_ ?_
    · rw [hy]
      exact .tail _ (.tail _ h4)
    · rw [hx]
      exact .tail _ (.tail _ h2)
    · simp only [Deg.lg]
      omega

theorem debugKeys (a : Table) (i : Nat) : PDeg D Γ (FinalJoin.debugKeys E a i) (fun _ => True) fun _ => [] := by
  unfold FinalJoin.debugKeys
  exact ite (bind (lift _) fun _ _ => bind (evaluations _) fun _ _ => ite (done (pure _)) fail) (done (pure _))

theorem joinAdvice (a b : Table) (ai bi : Nat) (ta : List TPoly) {d : Nat} (hd : 1 ≤ d ∧ d + 2 ≤ D ∧ 2 * d ≤ D ∧ (a.colVals.length + 1) * d + 1 ≤ D)
    (h1 : ∀ c ∈ a.colVals, (c.id, d) ∈ Γ) (h2 : (a.selector.id, d) ∈ Γ) (h3 : ∀ c ∈ b.colVals, (c.id, d) ∈ Γ) (h4 : (b.selector.id, d) ∈ Γ) (h5 : ∀ c ∈ ta, (c.id, d) ∈ Γ) :
    PDeg D Γ (FinalJoin.proveWithAdvice E a b ai bi ta) (fun t => t.colVals = ta ++ b.colVals) fun _ => [] := by
  unfold FinalJoin.proveWithAdvice
  have all : ∀ c ∈ ta ++ b.colVals, (c.id, d) ∈ Γ := fun c hc => (List.mem_append.1 hc).elim (h5 c) (h3 c)
  refine bind (debugKeys E _ _) fun _ _ => bind (tableNew _ _ _) fun res hres => ?_
  subst hres
  refine bind (lift _) fun cols hc => bind (tableNew _ _ _) fun tr htr => ?_
  subst htr
  have hc' : cols = (ta ++ b.colVals).take a.colVals.length ∧ cols.length = a.colVals.length := by
    unfold FinalJoin.prefixOf at hc
    split at hc <;> cases hc
    exact ⟨rfl, List.length_take_of_le (by omega)⟩
  refine bind (indexTransform E _ _ (d := d) h1 h2 (fun c hm => all c ?_) h4 ?_) fun _ _ => bind (lift _) fun ja e1 => bind (lift _) fun jb e2 =>
    bind (sub (d := d) (e := d) (all ja (idx_mem e1)) (all jb (idx_mem e2))) fun x _ => bind (mul (.head _) (.tail _ h4)) fun y _ => bind (zeroClaim (.head _) ?_) fun _ _ => (pure _).weaken (fun t ht => by rw [ht]) fun t _ x hx => by cases hx
  · dsimp only at hm
    rw [hc'.1] at hm
    exact List.mem_of_mem_take hm
  · dsimp only
    rw [hc'.2, Nat.max_self]
    exact ⟨hd.2.1, hd.2.2.2⟩
  · omega

theorem transform (a b : Table) (i j : Nat) : PDeg (F := F) (C := C) D Γ (FinalJoin.transform a b i j) (fun _ => True) fun _ => [] := by
  unfold FinalJoin.transform
  pdegs

theorem applyTransform (ks : List Nat) (o a : TPoly) : PDeg D Γ (FinalJoin.applyTransform E ks o a) (fun _ => True) fun _ => [] := by
  unfold FinalJoin.applyTransform
  pdegs

theorem applyAll (ks : List Nat) (a : TPoly) : ∀ (Γ : List (Nat × Nat)) (l : List TPoly), PDeg D Γ (FinalJoin.applyAll E ks a l) (fun r => r.length = l.length) fun _ => []
  | _, [] => (pure _).weaken (fun a h => by rw [h]; rfl) fun _ _ x hx => by cases hx
  | _, _ :: r => bind (applyTransform E _ _ _) fun _ _ => bind (applyAll ks a _ r) fun _ h => (pure _).weaken (fun a ha => by rw [ha, List.length_cons, h, List.length_cons]) fun _ _ x hx => by cases hx

theorem commitAll : ∀ (Γ : List (Nat × Nat)) (l : List (Mle F)), PDeg D Γ (FinalJoin.commitAll E l) (fun r => r.length = l.length) fun r => r.map fun x => (x.id, 1)
  | _, [] => (pure _).weaken (fun a h => by rw [h]; rfl) fun a ha x hx => by rw [ha] at hx; cases hx
  | _, _ :: r => bind (commit _ _) fun x _ => bind (commitAll _ r) fun y h => (pure _).weaken (fun a ha => by rw [ha, List.length_cons, h, List.length_cons]) fun a ha z hz => by
      rw [ha, List.map_cons] at hz
      rcases List.mem_cons.1 hz with rfl | hz
      · exact .inl (List.mem_append_right _ (.head _))
      · exact .inl (List.mem_append_left _ hz)

theorem join (a b : Table) (ai bi : Nat) {d : Nat} (hd : 1 ≤ d ∧ d + 2 ≤ D ∧ 2 * d ≤ D ∧ (a.colVals.length + 1) * d + 1 ≤ D)
    (h1 : ∀ c ∈ a.colVals, (c.id, d) ∈ Γ) (h2 : (a.selector.id, d) ∈ Γ) (h3 : ∀ c ∈ b.colVals, (c.id, d) ∈ Γ) (h4 : (b.selector.id, d) ∈ Γ) :
    PDeg D Γ (FinalJoin.prove E a b ai bi) (fun t => (t.colVals.take a.colVals.length).length = a.colVals.length) fun t => (t.colVals.take a.colVals.length).map fun x => (x.id, 1) := by
  unfold FinalJoin.prove
  refine bind (transform _ _ _ _) fun ks _ => bind (applyAll E _ _ _ _) fun ms hm => bind (commitAll E _ _) fun ta ht => ?_
  have hl : ta.length = a.colVals.length := ht.trans hm
  refine ((joinAdvice E _ _ _ _ _ (d := d) (Γ := (ta.map fun x => (x.id, d)) ++ Γ) hd (fun c h => List.mem_append_right _ (h1 c h)) (List.mem_append_right _ h2)
    (fun c h => List.mem_append_right _ (h3 c h)) (List.mem_append_right _ h4) fun c h => List.mem_append_left _ (List.mem_map.2 ⟨c, h, rfl⟩)).ctx ?_).weaken ?_ ?_
  · intro x hx
    rcases List.mem_append.1 hx with hx | hx
    · obtain ⟨c, hc, rfl⟩ := List.mem_map.1 hx
      exact ⟨(c.id, 1), List.mem_append_left _ (List.mem_map.2 ⟨c, hc, rfl⟩), rfl, hd.1⟩
    · exact ⟨x, List.mem_append_right _ hx, rfl, Nat.le_refl _⟩
  · intro t h
    rw [h, List.take_append_of_le_length hl.ge, ← hl, List.take_length]
  · intro t h x hx
    rw [h, List.take_append_of_le_length hl.ge, ← hl, List.take_length] at hx
    exact .inl (List.mem_append_left _ hx)

theorem aggs (inp : Table) (pre grp : Bag) (mult : TPoly) {d : Nat} (hd : 1 ≤ d ∧ 2 * d + 1 ≤ D) : ∀ (Γ : List (Nat × Nat)) (l : List (Nat × AggType × TPoly)) (cols : List TPoly),
    (∀ c ∈ inp.colVals, (c.id, d) ∈ Γ) → (pre.poly.id, d) ∈ Γ → (pre.selector.id, d) ∈ Γ → (grp.poly.id, d) ∈ Γ → (grp.selector.id, d) ∈ Γ → (∀ e ∈ l, (e.2.2.id, d) ∈ Γ) →
    PDeg D Γ (GroupBy.proveAggs E inp pre grp mult l cols) (fun _ => True) fun _ => []
  | _, [], _, _, _, _, _, _, _ => done (pure _)
  | Γ, (_, .count, _) :: r, cols, h1, h2, h3, h4, h5, h6 => by
    unfold GroupBy.proveAggs
    exact aggs inp pre grp mult hd Γ r _ h1 h2 h3 h4 h5 fun e he => h6 e (.tail _ he)
  | Γ, (c, .sum, p) :: r, cols, h1, h2, h3, h4, h5, h6 => by
    unfold GroupBy.proveAggs
    refine bind (lift _) fun x hx => bind (multitool E _ _ _ _ ?_) fun _ _ => aggs inp pre grp mult hd _ r _ h1 h2 h3 h4 h5 fun e he => h6 e (.tail _ he)
    have k := h6 _ (.head _)
    simp only [List.zip_cons_cons, List.zip_nil_left, List.cons_append, List.nil_append, List.mem_cons, List.not_mem_nil, or_false, forall_eq_or_imp, forall_eq]
    exact ⟨⟨d, d, d, h2, h3, h1 x (idx_mem hx), by simp only [Deg.lg]; omega⟩, ⟨d, d, d, h4, h5, k, by simp only [Deg.lg]; omega⟩⟩
  | _, (_, .avg, _) :: _, _, _, _, _, _, _, _ => fail
  | _, (_, .min, _) :: _, _, _, _, _, _, _, _ => fail
  | _, (_, .max, _) :: _, _, _, _, _, _, _, _ => fail

theorem groupBy (inp : Table) (i : GroupInstr TPoly) (r : Bag) {d : Nat} (hd : 1 ≤ d ∧ 2 * d + 2 ≤ D) (h1 : ∀ c ∈ inp.colVals, (c.id, d) ∈ Γ) (h2 : (inp.selector.id, d) ∈ Γ)
    (h3 : ∀ c ∈ i.supportCols, (c.id, d) ∈ Γ) (h4 : (i.supportSel.id, d) ∈ Γ) (h5 : (i.supportMult.id, d) ∈ Γ) (h6 : ∀ e ∈ i.aggs, (e.2.2.id, d) ∈ Γ) (h7 : (r.poly.id, d) ∈ Γ) :
    PDeg D Γ (GroupBy.proveWithAdvice E inp i r) (fun _ => True) fun _ => [] := by
  unfold GroupBy.proveWithAdvice
  refine bind (lift _) fun gs hg => ?_
  obtain ⟨g, sp⟩ := gs
  dsimp only
  refine bind (lift _) fun c hc => bind (bagNew _ _ _) fun pre hp => ?_
  subst hp
  refine bind (bagNew _ _ _) fun grp hq => ?_
  subst hq
  have k1 := h1 c (idx_mem hc)
  have k2 := h3 sp (validate_mem hg)
  exact bind (suppAdvice E _ _ _ _ (d := d) (s := d) (p' := d) (s' := d) (k := d) (q := d) k1 h2 k2 h4 h5 h7 (by simp only [Deg.lg]; omega)) fun _ _ => bind (tableNew _ _ _) fun _ _ =>
    bind (aggs E _ _ _ _ (d := d) (by omega) _ _ _ h1 k1 h2 k2 h4 h6) fun _ _ => done (pure _)

theorem check (c : Check TPoly) {d : Nat} (hd : 1 ≤ d) (h : ∀ k ∈ c.names, (k.id, d) ∈ Γ) : PDeg (c.degree d) Γ (c.prove E) (fun _ => True) fun _ => [] := by
  cases c with
  | multiset fs gs =>
    refine multitool E _ _ _ _ fun e he => ?_
    have key : ∀ l : List ((TPoly × TPoly) × TPoly), (∀ x ∈ l, x ∈ fs ++ gs) → e ∈ (l.map fun e => bagOf e.1).zip (l.map (·.2)) → Fit (2 * d + 1) Γ e := fun l hl hm => by
      rw [List.zip_map', List.mem_map] at hm
      obtain ⟨x, hx, rfl⟩ := hm
      have h1 := h x.1.1 (List.mem_flatMap.2 ⟨x, hl x hx, by simp⟩)
      have h2 := h x.1.2 (List.mem_flatMap.2 ⟨x, hl x hx, by simp⟩)
      have h3 := h x.2 (List.mem_flatMap.2 ⟨x, hl x hx, by simp⟩)
      exact ⟨d, d, d, h1, h2, h3, by simp only [Deg.lg]; omega⟩
    rcases List.mem_append.1 he with he | he
    · exact key fs (fun x hx => List.mem_append_left _ hx) he
    · exact key gs (fun x hx => List.mem_append_right _ hx) he
  | indexTransform a b =>
    refine indexTransform E _ _ (d := d) ?_ (h _ (by simp [Check.names, tableOf])) ?_ (h _ (by simp [Check.names, tableOf])) ?_
    · exact fun c hc => h c (List.mem_append_left _ hc)
    · exact fun c hc => h c (List.mem_append_right _ (.tail _ (List.mem_append_left _ hc)))
    · exact ⟨Nat.le_max_left _ _, Nat.le_max_right _ _⟩
  | joinAdvice a b ai bi ta =>
    refine bind (joinAdvice E _ _ _ _ _ (d := d) ?_ ?_ (h _ (by simp [Check.names, tableOf])) ?_ (h _ (by simp [Check.names, tableOf])) ?_) fun _ _ => done (pure _)
    · simp only [tableOf, Check.degree]
      omega
    · exact fun c hc => h c (List.mem_append_left _ hc)
    · exact fun c hc => h c (List.mem_append_right _ (.tail _ (List.mem_append_left _ hc)))
    · exact fun c hc => h c (List.mem_append_right _ (.tail _ (List.mem_append_right _ (.tail _ hc))))
  | groupBy inp key grp mult as range =>
    refine bind (groupBy E _ _ _ (d := d) ⟨hd, Nat.le_refl _⟩ ?_ (h _ (by simp [Check.names, tableOf])) ?_ (h _ (by simp [Check.names, requestOf])) (h _ (by simp [Check.names, requestOf])) ?_
      (h _ (by simp [Check.names, bagOf]))) fun _ _ => done (pure _)
    · exact fun c hc => h c (List.mem_append_left _ hc)
    · intro c hc
      simp only [requestOf, List.mem_singleton] at hc
      subst hc
      exact h _ (by simp [Check.names])
    · intro e he
      refine h e.2.2 (List.mem_append_right _ ?_)
      simp only [List.mem_cons]
      exact .inr (.inr (.inr (.inr (.inr (.inr (List.mem_map.2 ⟨e, he, rfl⟩))))))
  | bagEq f g => ?_
  | bagSum f g k => ?_
  | inclusion f g => ?_
  | inclusionAdvice f g m => ?_
  | noZeros f => ?_
  | selector m => ?_
  | permutation f g p => ?_
  | sort f r => ?_
  | support f g r => ?_
  | supportAdvice f g m r => ?_
  | disjoint f g r => ?_
  | setDisjoint f g r => ?_
  | union f g u r => ?_
  | diff f g l m k r => ?_
  | intersect f g l m k r => ?_
  | joinReduction f g l m r => ?_
  all_goals
    simp only [Check.names, List.mem_cons, List.not_mem_nil, or_false, forall_eq_or_imp, forall_eq] at h
  · exact bagEq E _ _ (p := d) (s := d) (p' := d) (s' := d) h.1 h.2.1 h.2.2.1 h.2.2.2 (by simp only [Deg.lg, Check.degree]; omega)
  · exact bagSum E _ _ _ (p := d) (s := d) (p' := d) (s' := d) (q := d) (r := d) h.1 h.2.1 h.2.2.1 h.2.2.2.1 h.2.2.2.2.1 h.2.2.2.2.2 (by simp only [Deg.lg, Check.degree]; omega)
  · exact inclusion E _ _ (p := d) (s := d) (p' := d) (s' := d) h.1 h.2.1 h.2.2.1 h.2.2.2 (by simp only [Deg.lg, Check.degree]; omega)
  · exact inclusionAdvice E _ _ _ (p := d) (s := d) (p' := d) (s' := d) (k := d) h.1 h.2.1 h.2.2.1 h.2.2.2.1 h.2.2.2.2 (by simp only [Deg.lg, Check.degree]; omega)
  · exact noZeros E _ (p := d) (s := d) h.1 h.2 (by simp only [Check.degree]; omega)
  · exact selector _ (p := d) h (by simp only [Check.degree]; omega)
  · exact permutation E _ _ _ (p := d) (q := d) (k := d) h.1 h.2.2.1 h.2.2.2.2 (by simp only [Check.degree]; omega)
  · exact sort E _ _ (p := d) (s := d) (q := d) h.1 h.2.1 h.2.2.1 (by simp only [Check.degree]; omega)
  · exact supp E _ _ _ (d := d) (s := d) (p' := d) (s' := d) (q := d) h.1 h.2.1 h.2.2.1 h.2.2.2.1 h.2.2.2.2.1 (by simp only [Deg.lg, Check.degree]; omega)
  · exact suppAdvice E _ _ _ _ (d := d) (s := d) (p' := d) (s' := d) (k := d) (q := d) h.1 h.2.1 h.2.2.1 h.2.2.2.1 h.2.2.2.2.1 h.2.2.2.2.2.1 (by simp only [Deg.lg, Check.degree]; omega)
  · exact disjoint E _ _ _ (p := d) (s := d) (p' := d) (s' := d) (q := d) h.1 h.2.1 h.2.2.1 h.2.2.2.1 h.2.2.2.2.1 (by simp only [Deg.lg, Check.degree]; omega)
  · exact setDisjoint E _ _ _ (p := d) (s := d) (p' := d) (s' := d) (q := d) h.1 h.2.1 h.2.2.1 h.2.2.2.1 h.2.2.2.2.1 (by simp only [Deg.lg, Check.degree]; omega)
  · obtain ⟨h1, h2, h3, h4, h5, h6, h7, h8⟩ := h
    exact setUnion E _ _ _ _ (d := d) h1 h2 h3 h4 h5 h6 h7 (by simp only [Check.degree]; omega)
  · obtain ⟨h1, h2, h3, h4, h5, h6, h7, h8, h9, h10, h11⟩ := h
    exact setDiff E _ _ _ _ _ _ (d := d) h1 h2 h3 h4 h5 h6 h7 h8 h9 h10 (by simp only [Check.degree]; omega)
  · obtain ⟨h1, h2, h3, h4, h5, h6, h7, h8, h9, h10, h11, h12⟩ := h
    exact setIntersect E _ _ _ _ _ _ (d := d) h1 h2 h3 h4 h5 h6 h7 h8 h9 h10 h11 (by simp only [Check.degree]; omega)
  · obtain ⟨h1, h2, h3, h4, h5, h6, h7, h8⟩ := h
    exact joinReduction E _ _ _ _ _ (d := d) h1 h2 h3 h4 h5 h6 h7 (by simp only [Check.degree]; omega)

/-- The columns have the degrees of the list. -/
def Cols (Γ : List (Nat × Nat)) (hs : List TPoly) (L : List Nat) : Prop := hs.length = L.length ∧ ∀ i, i < hs.length → ((at' hs i).id, L.getD i 0) ∈ Γ

theorem Cols.at {hs : List TPoly} {L : List Nat} (h : Cols Γ hs L) {i : Nat} (hi : i < L.length) : ((at' hs i).id, L.getD i 0) ∈ Γ := h.2 i (h.1.symm ▸ hi)

theorem Cols.more {hs : List TPoly} {L : List Nat} (h : Cols Γ hs L) (Δ : List (Nat × Nat)) : Cols (Δ ++ Γ) hs L := ⟨h.1, fun i hi => List.mem_append_right _ (h.2 i hi)⟩

theorem Cols.snoc {hs : List TPoly} {L : List Nat} (h : Cols Γ hs L) {x : TPoly} {d : Nat} (hx : (x.id, d) ∈ Γ) : Cols Γ (hs ++ [x]) (L ++ [d]) := by
  refine ⟨by simp [h.1], fun i hi => ?_⟩
  rw [List.length_append, List.length_singleton] at hi
  unfold at'
  by_cases he : i < hs.length
  · rw [List.getD_append _ _ _ _ he, List.getD_append _ _ _ _ (h.1 ▸ he)]
    exact h.2 i he
  · have : i = hs.length := by omega
    subst this
    rw [List.getD_append_right _ _ _ _ (Nat.le_refl _), h.1, List.getD_append_right _ _ _ _ (Nat.le_refl _)]
    simpa using hx

theorem Cols.append : ∀ {xs : List TPoly} {hs : List TPoly} {L : List Nat}, Cols Γ hs L → (∀ c ∈ xs, (c.id, 1) ∈ Γ) → Cols Γ (hs ++ xs) (L ++ List.replicate xs.length 1)
  | [], hs, L, h, _ => by simpa using h
  | x :: xs, hs, L, h, hx => by
    have := Cols.append (xs := xs) (h.snoc (hx x (.head _))) fun c hc => hx c (.tail _ hc)
    simpa [List.replicate_succ] using this

theorem proveAll {N : Nat} : ∀ (Γ : List (Nat × Nat)) (prog : List (Step F)) (hs : List TPoly) (L : List Nat) (W : List (Column F)), W.length = L.length → Step.FitsAll N W prog →
    Cols Γ hs L → PDeg (Step.degreeAll L prog) Γ (Step.proveAll E prog hs) (fun _ => True) fun _ => [] := by
  intro Γ prog
  induction prog generalizing Γ with
  | nil => exact fun hs L W _ _ _ => done (pure _)
  | cons st r ih =>
    intro hs L W hl hf h
    have hl' := Deg.next_len hl st
    have hr := hf.2
    have h1 := hf.1
    have hD : Step.degreeAll (st.degreesNext L) r ≤ Step.degreeAll L (st :: r) := Nat.le_max_right _ _
    have hD' : st.degree L ≤ Step.degreeAll L (st :: r) := Nat.le_max_left _ _
    cases st with
    | commit p => exact bind (commit _ _) fun x _ => (ih _ _ _ _ hl' hr ((h.more _).snoc (.head _))).upto hD
    | add i j => exact bind (add (h.at (hl ▸ h1.1)) (h.at (hl ▸ h1.2.1))) fun x _ => (ih _ _ _ _ hl' hr ((h.more _).snoc (.head _))).upto hD
    | sub i j => exact bind (sub (h.at (hl ▸ h1.1)) (h.at (hl ▸ h1.2.1))) fun x _ => (ih _ _ _ _ hl' hr ((h.more _).snoc (.head _))).upto hD
    | mul i j => exact bind (mul (h.at (hl ▸ h1.1)) (h.at (hl ▸ h1.2.1))) fun x _ => (ih _ _ _ _ hl' hr ((h.more _).snoc (.head _))).upto hD
    | addScalar i c => exact bind (addScalar _ (h.at (hl ▸ h1))) fun x _ => (ih _ _ _ _ hl' hr ((h.more _).snoc (.head _))).upto hD
    | mulScalar i c => exact bind (mulScalar _ (h.at (hl ▸ h1))) fun x _ => (ih _ _ _ _ hl' hr ((h.more _).snoc (.head _))).upto hD
    | check c =>
      refine bind ((ctx (check E (Γ := (c.map (at' hs)).names.map fun k => (k.id, topDegree L c.names)) (c.map (at' hs)) (Deg.one_le_top L c.names) fun k hk =>
        List.mem_map.2 ⟨k, hk, rfl⟩) ?_).upto ?_) fun _ _ => (ih _ _ _ _ hl' hr h).upto hD
      · intro x hx
        obtain ⟨k, hk, rfl⟩ := List.mem_map.1 hx
        rw [check_names_map, List.mem_map] at hk
        obtain ⟨i, hi, rfl⟩ := hk
        exact ⟨_, h.at (hl ▸ h1.1 i hi), rfl, Deg.le_top L hi⟩
      · rw [Deg.degree_map]
        exact hD'
    | join a b ai bi =>
      have h0 := Deg.one_le_top L (a.1 ++ a.2 :: (b.1 ++ [b.2]))
      have ht : ∀ i ∈ a.1 ++ a.2 :: (b.1 ++ [b.2]), ((at' hs i).id, topDegree L (a.1 ++ a.2 :: (b.1 ++ [b.2]))) ∈ (a.1 ++ a.2 :: (b.1 ++ [b.2])).map fun i => ((at' hs i).id, topDegree L (a.1 ++ a.2 :: (b.1 ++ [b.2]))) :=
        fun i hi => List.mem_map.2 ⟨i, hi, rfl⟩
      have hla : (tableOf (a.1.map (at' hs), at' hs a.2)).colVals.length = a.1.length := by simp [tableOf]
      refine bind (ctx (join E _ _ _ _ (d := topDegree L (a.1 ++ a.2 :: (b.1 ++ [b.2]))) (Γ := (a.1 ++ a.2 :: (b.1 ++ [b.2])).map fun i => ((at' hs i).id, topDegree L (a.1 ++ a.2 :: (b.1 ++ [b.2])))) ?_ ?_
        (ht _ (by simp)) ?_ (ht _ (by simp))) ?_) fun t hlen => (ih _ _ _ _ hl' hr ?_).upto hD
      · rw [hla]
        simp only [Step.degree, Check.degree] at hD'
        omega
      · intro c hc
        obtain ⟨k, hk, rfl⟩ := List.mem_map.1 hc
        exact ht k (List.mem_append_left _ hk)
      · intro c hc
        obtain ⟨k, hk, rfl⟩ := List.mem_map.1 hc
        exact ht k (List.mem_append_right _ (.tail _ (List.mem_append_left _ hk)))
      · intro x hx
        obtain ⟨i, hi, rfl⟩ := List.mem_map.1 hx
        exact ⟨_, h.at (hl ▸ (h1.1 i hi).1), rfl, Deg.le_top L hi⟩
      · rw [hla] at hlen
        have := (h.more ((t.colVals.take a.1.length).map fun x => (x.id, 1))).append (xs := t.colVals.take a.1.length) fun c hc => List.mem_append_left _ (List.mem_map.2 ⟨c, hc, rfl⟩)
        rw [hlen] at this
        rw [hla]
        exact this

end PDeg
end Zksql
