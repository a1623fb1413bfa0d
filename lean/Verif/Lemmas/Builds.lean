import Verif.Lemmas.Halted
import Verif.Lemmas.Joint
import Verif.Spec.Builds
/-! Runs of the prover in the two builds. -/
set_option linter.unusedSectionVars false
namespace Zksql
open Spec VirtPoly PTracker
variable {F C : Type} [Field F]

/-! ### Two states that differ in which polynomials are tables -/

/-- Two well-formed trackers with the same log, in which every identifier has the same size and the same values on the hypercube. -/
structure PTracker.Even (R : Mle F → C → Prop) (t t' : PTracker F C) : Prop where
  inv : Inv R t
  inv' : Inv R t'
  transcript : t.transcript = t'.transcript
  counter : t.idCounter = t'.idCounter
  comms : t.comms = t'.comms
  sums : t.sumClaims = t'.sumClaims
  zeros : t.zeroClaims = t'.zeroClaims
  known : ∀ id < t.idCounter, ∃ nv, t.HasNv id nv ∧ t'.HasNv id nv ∧ ∀ b < 2 ^ nv, t.gval (fun p => p.tbl b) id = t'.gval (fun p => p.tbl b) id

/-- The sizes of the identifiers that are in use are these. -/
def PTracker.Sized (g : Nat → Nat) (t : PTracker F C) : Prop := ∀ id nv, t.getPolyNv id = .ok nv → g id = nv

namespace PTracker
variable {R : Mle F → C → Prop} {t t' u u' : PTracker F C} {g : Nat → Nat}

theorem Inv.numbered (h : Inv R t) : Numbered t :=
  ⟨fun id a e => (h.matOk id a e).1, fun id v e => ⟨(h.virtOk id v e).1, (h.virtOk id v e).2.1⟩, fun id c e => by
    obtain ⟨a, ha, _⟩ := h.commOk id c e
    exact (h.matOk id a ha).1⟩

theorem Sized.back (h : Sized g u) (ho : Onward t u) : Sized g t := fun id nv e => h id nv (ho.keeps.sizes id nv e)

theorem lt_of_known (hI : Inv R t) {i : Nat} (h : ¬ (t.mats.lookup i = none ∧ t.virts.lookup i = none)) : i < t.idCounter := by
  rcases e : t.mats.lookup i with _ | a
  · rcases e2 : t.virts.lookup i with _ | v
    · exact absurd ⟨e, e2⟩ h
    · exact (hI.virtOk i v e2).1
  · exact (hI.matOk i a e).1

theorem Even.new (h : Even R t t') {nv : Nat} (hI : Inv R u) (hI' : Inv R u') (hp : Pres t u) (hp' : Pres t' u') (hc : u.idCounter = t.idCounter + 1)
    (hc' : u'.idCounter = t'.idCounter + 1) (tr : u.transcript = u'.transcript) (cm : u.comms = u'.comms) (sm : u.sumClaims = u'.sumClaims)
    (zr : u.zeroClaims = u'.zeroClaims) (hn : u.HasNv t.idCounter nv) (hn' : u'.HasNv t'.idCounter nv)
    (hv : ∀ b < 2 ^ nv, u.gval (fun p => p.tbl b) t.idCounter = u'.gval (fun p => p.tbl b) t'.idCounter) : Even R u u' := by
  refine ⟨hI, hI', tr, by rw [hc, hc', h.counter], cm, sm, zr, fun id hid => ?_⟩
  rw [hc] at hid
  rcases Nat.lt_succ_iff_lt_or_eq.1 hid with hlt | rfl
  · obtain ⟨n, h1, h2, h3⟩ := h.known id hlt
    exact ⟨n, hp.nv _ _ h1, hp'.nv _ _ h2, fun b hb => by rw [hp.cube _ _ b h1 hb, hp'.cube _ _ b h2 hb, h3 b hb]⟩
  · refine ⟨nv, hn, h.counter ▸ hn', fun b hb => ?_⟩
    rw [hv b hb, h.counter]

theorem Even.same (h : Even R t t') (hI : Inv R u) (hI' : Inv R u') (hp : Pres t u) (hp' : Pres t' u') (hc : u.idCounter = t.idCounter)
    (hc' : u'.idCounter = t'.idCounter) (tr : u.transcript = u'.transcript) (cm : u.comms = u'.comms) (sm : u.sumClaims = u'.sumClaims)
    (zr : u.zeroClaims = u'.zeroClaims) : Even R u u' := by
  refine ⟨hI, hI', tr, by rw [hc, hc', h.counter], cm, sm, zr, fun id hid => ?_⟩
  rw [hc] at hid
  obtain ⟨n, h1, h2, h3⟩ := h.known id hid
  exact ⟨n, hp.nv _ _ h1, hp'.nv _ _ h2, fun b hb => by rw [hp.cube _ _ b h1 hb, hp'.cube _ _ b h2 hb, h3 b hb]⟩

/-- A change of the log alone. -/
theorem Even.log (h : Even R t t') (hm : u.mats = t.mats) (hm' : u'.mats = t'.mats) (hv : u.virts = t.virts) (hv' : u'.virts = t'.virts)
    (hh : u.heap = t.heap) (hh' : u'.heap = t'.heap) (hcm : u.comms = t.comms) (hcm' : u'.comms = t'.comms) (hc : u.idCounter = t.idCounter)
    (hc' : u'.idCounter = t'.idCounter) (tr : u.transcript = u'.transcript) (sm : u.sumClaims = u'.sumClaims) (zr : u.zeroClaims = u'.zeroClaims) :
    Even R u u' := by
  have key : ∀ {t u : PTracker F C}, Inv R t → u.mats = t.mats → u.virts = t.virts → u.heap = t.heap → u.comms = t.comms → u.idCounter = t.idCounter →
      Inv R u ∧ Pres t u := by
    rintro ⟨_, _, _, _, _, _, _, _⟩ ⟨_, _, _, _, _, _, _, _⟩ hI h1 h2 h3 h4 h5
    dsimp only at h1 h2 h3 h4 h5
    subst h1 h2 h3 h4 h5
    exact ⟨⟨hI.matOk, hI.virtOk, hI.ptrs, hI.commOk⟩, ⟨le_refl _, fun _ _ h => h, fun _ _ _ _ _ => rfl, fun _ _ h => h⟩⟩
  obtain ⟨h1, h2⟩ := key h.inv hm hv hh hcm hc
  obtain ⟨h3, h4⟩ := key h.inv' hm' hv' hh' hcm' hc'
  exact h.same h1 h3 h2 h4 hc hc' tr (by rw [hcm, hcm', h.comms]) sm zr

theorem Even.pushVirt (h : Even R t t') {nv : Nat} {v v' : VRep F} (hv : t.AllNv nv v) (hv' : t'.AllNv nv v')
    (he : ∀ b < 2 ^ nv, prodsVal (t.matVal fun p => p.tbl b) v = prodsVal (t'.matVal fun p => p.tbl b) v') : Even R (t.pushVirt v) (t'.pushVirt v') :=
  h.new (inv_pushVirt h.inv v hv) (inv_pushVirt h.inv' v' hv') ((keep_pushVirt h.inv v).pres h.inv) ((keep_pushVirt h.inv' v').pres h.inv') rfl rfl
    h.transcript h.comms h.sums h.zeros (hasNv_pushVirt h.inv hv) (hasNv_pushVirt h.inv' hv') fun b hb => by
      rw [gval_pushVirt h.inv, gval_pushVirt h.inv', he b hb]

theorem Even.pushMat (h : Even R t t') {p : Mle F} (hp : p.WF) : Even R (t.pushMat p) (t'.pushMat p) :=
  h.new (inv_pushMat h.inv p hp) (inv_pushMat h.inv' p hp) ((keep_pushMat h.inv p).pres h.inv) ((keep_pushMat h.inv' p).pres h.inv') rfl rfl
    h.transcript h.comms h.sums h.zeros (hasNv_pushMat t p) (hasNv_pushMat t' p) fun b hb => by rw [gval_pushMat, gval_pushMat]

theorem Even.pushComm (h : Even R t t') {p : Mle F} (hp : p.WF) {c : C} (hc : R p c) : Even R (t.pushComm p c) (t'.pushComm p c) := by
  have n1 := newOk_pushComm h.inv hp hc
  have n2 := newOk_pushComm h.inv' hp hc
  refine h.new n1.inv n2.inv n1.pres n2.pres rfl rfl ?_ ?_ h.sums h.zeros n1.nv n2.nv fun b hb => ?_
  · change t.transcript.append _ _ = t'.transcript.append _ _
    rw [h.transcript]
  · change amInsert t.idCounter c t.comms = amInsert t'.idCounter c t'.comms
    rw [h.counter, h.comms]
  · exact (gval_pushMat t p (fun p => p.tbl b)).trans (gval_pushMat t' p (fun p => p.tbl b)).symm

theorem matSt_log (t : PTracker F C) (i nv : Nat) : (t.matSt i nv).idCounter = t.idCounter ∧ (t.matSt i nv).transcript = t.transcript ∧
    (t.matSt i nv).comms = t.comms ∧ (t.matSt i nv).sumClaims = t.sumClaims ∧ (t.matSt i nv).zeroClaims = t.zeroClaims := by
  unfold matSt
  split
  · exact ⟨rfl, rfl, rfl, rfl, rfl⟩
  · split <;> exact ⟨rfl, rfl, rfl, rfl, rfl⟩

/-- One of the two reads a table. -/
theorem Even.readLeft (h : Even R t t') {i nv : Nat} (hi : t.HasNv i nv) : Even R (t.matSt i nv) t' := by
  obtain ⟨h1, h2, _⟩ := matSt_spec h.inv hi
  obtain ⟨l1, l2, l3, l4, l5⟩ := matSt_log t i nv
  exact h.same h1 h.inv' h2 (Pres.refl _) l1 rfl (l2.trans h.transcript) (l3.trans h.comms) (l4.trans h.sums) (l5.trans h.zeros)

theorem Even.symm (h : Even R t t') : Even R t' t :=
  ⟨h.inv', h.inv, h.transcript.symm, h.counter.symm, h.comms.symm, h.sums.symm, h.zeros.symm, fun id hid => by
    obtain ⟨n, h1, h2, h3⟩ := h.known id (h.counter ▸ hid)
    exact ⟨n, h2, h1, fun b hb => (h3 b hb).symm⟩⟩

theorem Even.forUser (h : Even R t t') : SameForUser t t' := by
  have key : ∀ id, t.getPolyNv id = t'.getPolyNv id ∧ (evaluations id t).1 = (evaluations id t').1 := by
    intro id
    by_cases hid : id < t.idCounter
    · obtain ⟨n, h1, h2, h3⟩ := h.known id hid
      refine ⟨by rw [getPolyNv_spec h1, getPolyNv_spec h2], ?_⟩
      rw [evaluations_run h.inv h1, evaluations_run h.inv' h2]
      refine congrArg Except.ok (List.map_congr_left fun b hb => h3 b (List.mem_range.1 hb))
    · have hn : ∀ {s : PTracker F C}, Inv R s → ¬ id < s.idCounter → s.mats.lookup id = none ∧ s.virts.lookup id = none := by
        intro s hs hlt
        by_contra hc
        exact hlt (lt_of_known hs hc)
      obtain ⟨a1, a2⟩ := hn h.inv hid
      obtain ⟨b1, b2⟩ := hn h.inv' (h.counter ▸ hid)
      refine ⟨by unfold getPolyNv; simp only [a1, a2, b1, b2], ?_⟩
      rw [evaluations_result, evaluations_result]
      simp only [a1, a2, b1, b2]
  exact ⟨h.transcript, h.counter, h.comms, h.sums, h.zeros, fun id => (key id).1, fun id => (key id).2⟩

theorem even_new (hI : Inv R (PTracker.new : PTracker F C)) : Even R (PTracker.new : PTracker F C) PTracker.new :=
  ⟨hI, hI, rfl, rfl, rfl, rfl, rfl, fun _ h => absurd h (Nat.not_lt_zero _)⟩

end PTracker

/-! ### Calls in the two builds -/

/-- A handle whose size is that of its identifier. -/
def FitP (g : Nat → Nat) (a : TPoly) : Prop := g a.id = a.numVars

/-- If the first call succeeds, the second one succeeds with the same result, and the states stay even. -/
def Built {α : Type} (g : Nat → Nat) (R : Mle F → C → Prop) (Q : α → Prop) (m m' : Act (PTracker F C) α) : Prop :=
  Goes m ∧ ∀ t t' a u, Even R t t' → m t = (.ok a, u) → Sized g u → ∃ u', m' t' = (.ok a, u') ∧ Even R u u' ∧ Q a

namespace Built
variable {α β : Type} {g : Nat → Nat} {R : Mle F → C → Prop}

theorem bind {Q : α → Prop} {Q' : β → Prop} {m m' : Act (PTracker F C) α} {f f' : α → Act (PTracker F C) β} (hm : Built g R Q m m')
    (hg : ∀ a, Goes (f a)) (hf : ∀ a, Q a → Built g R Q' (f a) (f' a)) : Built g R Q' (m >>= f) (m' >>= f') := by
  refine ⟨hm.1.bind hg, fun t t' b u he e hs => ?_⟩
  obtain ⟨a, t1, e1, e2⟩ := Act.bind_eq_ok.1 e
  have h1 := hm.1 t he.inv.numbered
  rw [e1] at h1
  have h2 := hg a t1 h1.num
  rw [e2] at h2
  obtain ⟨t1', e1', he1, hq⟩ := hm.2 t t' a t1 he e1 (hs.back h2)
  obtain ⟨u', e2', he2, hq'⟩ := (hf a hq).2 t1 t1' b u he1 e2 hs
  exact ⟨u', by rw [Act.bind_ok e1', e2'], he2, hq'⟩

theorem pure {Q : α → Prop} {a : α} (h : Q a) : Built g R Q (Pure.pure a : Act (PTracker F C) α) (Pure.pure a) :=
  ⟨.pure a, fun t t' b u he e _ => by
    obtain ⟨e1, rfl⟩ := Prod.mk.inj e
    obtain rfl := Except.ok.inj e1
    exact ⟨t', rfl, he, h⟩⟩

theorem lift (r : Res α) : Built g R (fun a => r = .ok a) (Act.lift r : Act (PTracker F C) α) (Act.lift r) :=
  ⟨.lift r, fun t t' b u he e _ => by
    obtain ⟨e1, rfl⟩ := Prod.mk.inj e
    exact ⟨t', by rw [Act.lift_run, e1], he, e1⟩⟩

theorem fails (e : Fail) {Q : α → Prop} (m' : Act (PTracker F C) α) : Built g R Q (Act.lift (.error e) : Act (PTracker F C) α) m' :=
  ⟨.lift _, fun t t' b u he h _ => by cases (Prod.mk.inj h).1⟩

theorem assert {p q : Prop} [Decidable p] [Decidable q] (h : p → q) :
    Built g R (fun _ => p) (Act.assert p : Act (PTracker F C) Unit) (Act.assert q) :=
  ⟨.assert p, fun t t' b u he e _ => by
    by_cases hp : p
    · rw [Act.assert_true hp] at e
      obtain ⟨_, rfl⟩ := Prod.mk.inj e
      exact ⟨t', by rw [Act.assert_true (h hp)], he, hp⟩
    · rw [assert_false_run hp] at e
      cases (Prod.mk.inj e).1⟩

theorem ite {Q : α → Prop} {p : Prop} [Decidable p] {m m' n n' : Act (PTracker F C) α} (h1 : p → Built g R Q m m') (h2 : ¬ p → Built g R Q n n') :
    Built g R Q (if p then m else n) (if p then m' else n') := by
  by_cases hp : p
  · rw [if_pos hp, if_pos hp]; exact h1 hp
  · rw [if_neg hp, if_neg hp]; exact h2 hp

theorem mono {Q Q' : α → Prop} {m m' : Act (PTracker F C) α} (h : Built g R Q m m') (hq : ∀ a, Q a → Q' a) : Built g R Q' m m' :=
  ⟨h.1, fun t t' a u he e hs => by
    obtain ⟨u', h1, h2, h3⟩ := h.2 t t' a u he e hs
    exact ⟨u', h1, h2, hq a h3⟩⟩

end Built

/-! ### Handles -/
section handles
variable {g : Nat → Nat} {R : Mle F → C → Prop} {t t' u : PTracker F C}

theorem PTracker.Even.has (h : Even R t t') (hs : Sized g t) {a : TPoly} (ha : FitP g a) (hk : a.id < t.idCounter) :
    t.HasNv a.id a.numVars ∧ t'.HasNv a.id a.numVars ∧ ∀ b < 2 ^ a.numVars, t.gval (fun p => p.tbl b) a.id = t'.gval (fun p => p.tbl b) a.id := by
  obtain ⟨n, h1, h2, h3⟩ := h.known a.id hk
  have : n = a.numVars := by rw [← hs a.id n (getPolyNv_spec h1)]; exact ha
  subst this
  exact ⟨h1, h2, h3⟩

theorem FitP.of_hasNv {a : TPoly} (hs : Sized g u) (h : u.HasNv a.id a.numVars) : FitP g a := hs _ _ (getPolyNv_spec h)

/-- Making a handle. -/
theorem built_handle {m : Act (PTracker F C) TPoly} {m' : Act (PTracker F C) TPoly} (hg : Goes m)
    (h : ∀ t t' a u, Even R t t' → Sized g t → m t = (.ok a, u) → ∃ u', m' t' = (.ok a, u') ∧ Even R u u' ∧ u.HasNv a.id a.numVars) :
    Built g R (FitP g) m m' :=
  ⟨hg, fun t t' a u he e hs => by
    have h1 := hg t he.inv.numbered
    rw [e] at h1
    obtain ⟨u', h2, h3, h4⟩ := h t t' a u he (hs.back h1) e
    exact ⟨u', h2, h3, .of_hasNv hs h4⟩⟩

theorem built_trackMat {p : Mle F} (hp : p.WF) : Built g R (FitP g) (TPoly.trackMat p) (TPoly.trackMat p) := by
  refine built_handle (TPoly.trackMat_goes p) fun t t' a u he _ e => ?_
  have run : ∀ s : PTracker F C, TPoly.trackMat p s = (.ok ⟨s.idCounter, p.numVars⟩, s.pushMat p) := fun s => rfl
  rw [run] at e
  obtain ⟨e1, rfl⟩ := Prod.mk.inj e
  obtain rfl := Except.ok.inj e1
  exact ⟨t'.pushMat p, by rw [run, he.counter], he.pushMat hp, hasNv_pushMat t p⟩

theorem built_trackAndCommit {commit : Mle F → Res C} {p : Mle F} (hp : p.WF) :
    Built g (commR commit) (FitP g) (TPoly.trackAndCommit commit p) (TPoly.trackAndCommit commit p) := by
  refine built_handle (TPoly.trackAndCommit_goes commit p) fun t t' a u he _ e => ?_
  rcases hc : commit p with er | c
  · unfold TPoly.trackAndCommit at e
    rw [Act.bind_error (trackAndCommit_error hc)] at e
    cases (Prod.mk.inj e).1
  · have run : ∀ s : PTracker F C, TPoly.trackAndCommit commit p s = (.ok ⟨s.idCounter, p.numVars⟩, s.pushComm p c) := by
      intro s
      unfold TPoly.trackAndCommit
      rw [Act.bind_ok (trackAndCommit_ok hc)]
      rfl
    rw [run] at e
    obtain ⟨e1, rfl⟩ := Prod.mk.inj e
    obtain rfl := Except.ok.inj e1
    exact ⟨t'.pushComm p c, by rw [run, he.counter], he.pushComm hp hc, (newOk_pushComm he.inv hp hc).nv⟩

theorem addSubPolys_known {i j : Nat} {s : Bool} {k : Nat} (h : addSubPolys i j s t = (.ok k, u)) :
    ¬ (t.mats.lookup i = none ∧ t.virts.lookup i = none) ∧ ¬ (t.mats.lookup j = none ∧ t.virts.lookup j = none) := by
  obtain ⟨v, t1, e1, _⟩ := Act.bind_eq_ok.1 h
  have e2 : t.addSubRep i j s = .ok v := (Prod.mk.inj e1).1
  refine ⟨fun hc => ?_, fun hc => ?_⟩
  · unfold addSubRep at e2
    simp [hc.1, hc.2] at e2
  · unfold addSubRep at e2
    rw [hc.1, hc.2] at e2
    rcases e3 : t.mats.lookup i with _ | a <;> rcases e4 : t.virts.lookup i with _ | w <;> rw [e3, e4] at e2 <;> cases e2

theorem mulPolys_known {i j k : Nat} (h : mulPolys i j t = (.ok k, u)) :
    ¬ (t.mats.lookup i = none ∧ t.virts.lookup i = none) ∧ ¬ (t.mats.lookup j = none ∧ t.virts.lookup j = none) := by
  obtain ⟨v, t1, e1, _⟩ := Act.bind_eq_ok.1 h
  have e2 : t.mulRep i j = .ok v := (Prod.mk.inj e1).1
  refine ⟨fun hc => ?_, fun hc => ?_⟩
  · unfold mulRep at e2
    simp [hc.1, hc.2] at e2
  · unfold mulRep at e2
    rw [hc.1, hc.2] at e2
    rcases e3 : t.mats.lookup i with _ | a <;> rcases e4 : t.virts.lookup i with _ | w <;> rw [e3, e4] at e2 <;> cases e2

theorem mulScalar_known {i k : Nat} {c : F} (h : PTracker.mulScalar i c t = (.ok k, u)) : ¬ (t.mats.lookup i = none ∧ t.virts.lookup i = none) := by
  obtain ⟨v, t1, e1, _⟩ := Act.bind_eq_ok.1 h
  have e2 : t.mulScalarRep i c = .ok v := (Prod.mk.inj e1).1
  intro hc
  unfold mulScalarRep at e2
  rw [hc.1, hc.2] at e2
  cases e2

theorem addScalar_known {i k : Nat} {c : F} (h : PTracker.addScalar i c t = (.ok k, u)) : ¬ (t.mats.lookup i = none ∧ t.virts.lookup i = none) := by
  obtain ⟨v, t1, e1, _⟩ := Act.bind_eq_ok.1 h
  have e2 : t.getPolyNv i = .ok v := (Prod.mk.inj e1).1
  intro hc
  unfold getPolyNv at e2
  rw [hc.1, hc.2] at e2
  cases e2

theorem materialize_known {i : Nat} (h : materialize i t = (.ok (), u)) : ¬ (t.mats.lookup i = none ∧ t.virts.lookup i = none) := by
  intro hc
  rw [materialize_unknown hc.1 hc.2] at h
  cases (Prod.mk.inj h).1

/-- A handle made by a call that returns an identifier. -/
theorem handle_eq_ok {m : Act (PTracker F C) Nat} {n : Nat} {a : TPoly} (h : (m >>= fun id => (pure ⟨id, n⟩ : Act (PTracker F C) TPoly)) t = (.ok a, u)) :
    m t = (.ok a.id, u) ∧ a.numVars = n := by
  obtain ⟨i, t1, e1, e2⟩ := Act.bind_eq_ok.1 h
  obtain ⟨e3, rfl⟩ := Prod.mk.inj e2
  obtain rfl := Except.ok.inj e3
  exact ⟨e1, rfl⟩

theorem handle_ok {m : Act (PTracker F C) Nat} {n i : Nat} (h : m t = (.ok i, u)) :
    (m >>= fun id => (pure ⟨id, n⟩ : Act (PTracker F C) TPoly)) t = (.ok ⟨i, n⟩, u) := by
  rw [Act.bind_ok h]; rfl

theorem built_addSub {a b : TPoly} (s : Bool) (ha : FitP g a) (hb : FitP g b) (hg : ∀ n : Nat, Goes (do
      Act.assert (a.numVars = b.numVars)
      let id ← addSubPolys a.id b.id s
      pure ⟨id, n⟩ : Act (PTracker F C) TPoly)) :
    Built g R (FitP g) (do
      Act.assert (a.numVars = b.numVars)
      let id ← addSubPolys a.id b.id s
      pure ⟨id, a.numVars⟩ : Act (PTracker F C) TPoly) (do
      Act.assert (a.numVars = b.numVars)
      let id ← addSubPolys a.id b.id s
      pure ⟨id, a.numVars⟩) := by
  refine built_handle (hg _) fun t t' c u he hs e => ?_
  by_cases hn : a.numVars = b.numVars
  · rw [Act.bind_ok (Act.assert_true hn t)] at e
    obtain ⟨e1, e2⟩ := handle_eq_ok e
    obtain ⟨k1, k2⟩ := addSubPolys_known e1
    obtain ⟨a1, a2, a3⟩ := he.has hs ha (lt_of_known he.inv k1)
    obtain ⟨b1, b2, b3⟩ := he.has hs hb (lt_of_known he.inv k2)
    rw [← hn] at b1 b2 b3
    obtain ⟨v, r1, r2, r3⟩ := addSubPolys_run he.inv a1 b1 s
    obtain ⟨v', r1', r2', r3'⟩ := addSubPolys_run he.inv' a2 b2 s
    rw [r1] at e1
    obtain ⟨e3, rfl⟩ := Prod.mk.inj e1
    have e4 := Except.ok.inj e3
    refine ⟨t'.pushVirt v', ?_, he.pushVirt r2 r2' fun x hx => ?_, ?_⟩
    · rw [Act.bind_ok (Act.assert_true hn t'), handle_ok r1', ← he.counter, e4, ← e2]
    · rw [r3, r3', a3 x hx, b3 x hx]
    · rw [← e4, e2]
      exact hasNv_pushVirt he.inv r2
  · rw [assert_panic hn] at e
    cases (Prod.mk.inj e).1

theorem built_add {a b : TPoly} (ha : FitP g a) (hb : FitP g b) : Built g R (FitP g) (a.add b) (a.add b) :=
  built_addSub false ha hb fun _ => Goes.bind (.assert _) fun _ => Goes.bind (addSubPolys_goes _ _ _) fun _ => .pure _
theorem built_sub {a b : TPoly} (ha : FitP g a) (hb : FitP g b) : Built g R (FitP g) (a.sub b) (a.sub b) :=
  built_addSub true ha hb fun _ => Goes.bind (.assert _) fun _ => Goes.bind (addSubPolys_goes _ _ _) fun _ => .pure _

theorem built_mul {a b : TPoly} (ha : FitP g a) (hb : FitP g b) : Built g R (FitP g) (a.mul b) (a.mul b) := by
  refine built_handle (TPoly.mul_goes a b) fun t t' c u he hs e => ?_
  unfold TPoly.mul at e ⊢
  by_cases hn : a.numVars = b.numVars
  · rw [Act.bind_ok (Act.assert_true hn t)] at e
    obtain ⟨e1, e2⟩ := handle_eq_ok e
    obtain ⟨k1, k2⟩ := mulPolys_known e1
    obtain ⟨a1, a2, a3⟩ := he.has hs ha (lt_of_known he.inv k1)
    obtain ⟨b1, b2, b3⟩ := he.has hs hb (lt_of_known he.inv k2)
    rw [← hn] at b1 b2 b3
    obtain ⟨v, r1, r2, r3⟩ := mulPolys_run he.inv a1 b1
    obtain ⟨v', r1', r2', r3'⟩ := mulPolys_run he.inv' a2 b2
    rw [r1] at e1
    obtain ⟨e3, rfl⟩ := Prod.mk.inj e1
    have e4 := Except.ok.inj e3
    refine ⟨t'.pushVirt v', ?_, he.pushVirt r2 r2' fun x hx => ?_, ?_⟩
    · rw [Act.bind_ok (Act.assert_true hn t'), handle_ok r1', ← he.counter, e4, ← e2]
    · rw [r3, r3', a3 x hx, b3 x hx]
    · rw [← e4, e2]
      exact hasNv_pushVirt he.inv r2
  · rw [assert_panic hn] at e
    cases (Prod.mk.inj e).1

theorem built_mulScalar {a : TPoly} {x : F} (ha : FitP g a) : Built g R (FitP g) (a.mulScalar x) (a.mulScalar x) := by
  refine built_handle (TPoly.mulScalar_goes a x) fun t t' c u he hs e => ?_
  unfold TPoly.mulScalar at e ⊢
  obtain ⟨e1, e2⟩ := handle_eq_ok e
  obtain ⟨a1, a2, a3⟩ := he.has hs ha (lt_of_known he.inv (mulScalar_known e1))
  obtain ⟨v, r1, r2, r3⟩ := mulScalar_run he.inv a1 x
  obtain ⟨v', r1', r2', r3'⟩ := mulScalar_run he.inv' a2 x
  rw [r1] at e1
  obtain ⟨e3, rfl⟩ := Prod.mk.inj e1
  have e4 := Except.ok.inj e3
  refine ⟨t'.pushVirt v', ?_, he.pushVirt r2 r2' fun x hx => ?_, ?_⟩
  · rw [handle_ok r1', ← he.counter, e4, ← e2]
  · rw [r3, r3', a3 x hx]
  · rw [← e4, e2]
    exact hasNv_pushVirt he.inv r2

theorem built_addScalar {a : TPoly} {x : F} (ha : FitP g a) : Built g R (FitP g) (a.addScalar x) (a.addScalar x) := by
  refine built_handle (TPoly.addScalar_goes a x) fun t t' c u he hs e => ?_
  unfold TPoly.addScalar at e ⊢
  obtain ⟨e1, e2⟩ := handle_eq_ok e
  obtain ⟨a1, a2, a3⟩ := he.has hs ha (lt_of_known he.inv (addScalar_known e1))
  obtain ⟨v, r1, r2, r3⟩ := addScalar_run he.inv a1 x
  obtain ⟨v', r1', r2', r3'⟩ := addScalar_run he.inv' a2 x
  rw [r1] at e1
  obtain ⟨e3, rfl⟩ := Prod.mk.inj e1
  have e4 := Except.ok.inj e3
  have he1 := he.pushMat (constMle_wf a.numVars x)
  refine ⟨_, ?_, he1.pushVirt r2 r2' fun y hy => ?_, ?_⟩
  · rw [handle_ok r1', ← he.counter, e4, ← e2]
  · rw [r3, r3', a3 y hy]
  · rw [← e4, e2]
    exact hasNv_pushVirt he1.inv r2

theorem built_inc {a : TPoly} {k : Nat} {inc : Mle F → Nat → Res (Mle F)} (ha : FitP g a) (hinc0 : ∀ p : Mle F, inc p p.numVars = .ok p)
    (hinc : ∀ p : Mle F, p.WF → ∃ q, inc p (p.numVars + k) = .ok q ∧ q.WF ∧ q.numVars = p.numVars + k) :
    Built g R (FitP g) (increaseNv inc a.id k >>= fun id => (pure ⟨id, a.numVars + k⟩ : Act (PTracker F C) TPoly))
      (increaseNv inc a.id k >>= fun id => (pure ⟨id, a.numVars + k⟩ : Act (PTracker F C) TPoly)) := by
  refine built_handle (Goes.bind (increaseNv_goes _ _ _) fun _ => .pure _) fun t t' c u he hs e => ?_
  obtain ⟨e1, e2⟩ := handle_eq_ok e
  have hk : a.id < t.idCounter := by
    obtain ⟨_, t1, x1, _⟩ := Act.bind_eq_ok.1 e1
    exact lt_of_known he.inv (materialize_known x1)
  obtain ⟨a1, a2, a3⟩ := he.has hs ha hk
  obtain ⟨s, p, q, r1, r2, r3, r4, r5, _, r6, r7, r8, r9, r10, l1, l2, l3, l4⟩ := increaseNv_run he.inv a1 inc k hinc0 hinc
  obtain ⟨s', p', q', r1', r2', r3', r4', r5', _, r6', r7', r8', r9', r10', l1', l2', l3', l4'⟩ := increaseNv_run he.inv' a2 inc k hinc0 hinc
  rw [r1] at e1
  obtain ⟨e3, rfl⟩ := Prod.mk.inj e1
  have e4 := Except.ok.inj e3
  have hpp : p = p' := by
    have he1 : p.evals = p'.evals := by
      rw [evals_eq_range p r2, evals_eq_range p' r2', r3, r3']
      exact List.map_congr_left fun b hb => by rw [r4 b (List.mem_range.1 hb), r4' b (List.mem_range.1 hb), a3 b (List.mem_range.1 hb)]
    cases p; cases p'
    dsimp only at r3 r3' he1
    rw [r3, r3', he1]
  subst hpp
  obtain rfl : q = q' := Except.ok.inj (r5.symm.trans r5')
  refine ⟨s', ?_, ?_, ?_⟩
  · rw [handle_ok r1', ← he.counter, e4, ← e2]
  · obtain ⟨i1, i2, _⟩ := matSt_spec he.inv a1
    obtain ⟨i1', i2', _⟩ := matSt_spec he.inv' a2
    exact he.new r6 r6' (i2.trans (r7.pres i1)) (i2'.trans (r7'.pres i1')) r8 r8' (by rw [l1, l1', he.transcript]) (by rw [l2, l2', he.comms])
      (by rw [l3, l3', he.sums]) (by rw [l4, l4', he.zeros]) r9 r9' fun b _ => by rw [r10, r10']
  · rw [← e4, e2]
    exact r9

theorem built_incFront {a : TPoly} {k : Nat} (ha : FitP g a) : Built g R (FitP g) (a.incFront k) (a.incFront k) :=
  built_inc ha incFront_ok (incFront_wf k)
theorem built_incBack {a : TPoly} {k : Nat} (ha : FitP g a) : Built g R (FitP g) (a.incBack k) (a.incBack k) :=
  built_inc ha incBack_ok (incBack_wf k)

theorem evaluations_known {i : Nat} {l : List F} (h : PTracker.evaluations i t = (.ok l, u)) : ¬ (t.mats.lookup i = none ∧ t.virts.lookup i = none) := by
  obtain ⟨_, t1, x1, _⟩ := Act.bind_eq_ok.1 h
  exact materialize_known x1

theorem built_evaluations {a : TPoly} (ha : FitP g a) : Built g R (fun _ => True) a.evaluations a.evaluations := by
  refine ⟨TPoly.evaluations_goes a, fun t t' l u he e hs => ?_⟩
  have h1 := TPoly.evaluations_goes a t he.inv.numbered
  rw [e] at h1
  obtain ⟨a1, a2, a3⟩ := he.has (hs.back h1) ha (lt_of_known he.inv (evaluations_known e))
  unfold TPoly.evaluations at e ⊢
  rw [evaluations_run he.inv a1] at e
  obtain ⟨e1, rfl⟩ := Prod.mk.inj e
  obtain rfl := Except.ok.inj e1
  refine ⟨t'.matSt a.id a.numVars, ?_, (he.readLeft a1).symm.readLeft a2 |>.symm, trivial⟩
  rw [evaluations_run he.inv' a2]
  exact congrArg (fun l => (Except.ok l, _)) (List.map_congr_left fun b hb => (a3 b (List.mem_range.1 hb)).symm)

/-- Reading a table in one of the two builds only. -/
theorem built_read {a : TPoly} (ha : FitP g a) {k : List F → Act (PTracker F C) Unit} (hk : ∀ l, k l = Pure.pure () ∨ ∃ e, k l = Act.lift (.error e)) :
    Built g R (fun _ => True) (a.evaluations >>= k) (Pure.pure ()) := by
  refine ⟨Goes.bind (TPoly.evaluations_goes a) fun l => ?_, fun t t' x u he e hs => ?_⟩
  · rcases hk l with h | ⟨e, h⟩ <;> rw [h]
    · exact .pure _
    · exact .lift _
  · obtain ⟨l, t1, e1, e2⟩ := Act.bind_eq_ok.1 e
    rcases hk l with h | ⟨er, h⟩ <;> rw [h] at e2
    · obtain ⟨_, rfl⟩ := Prod.mk.inj e2
      have h1 := TPoly.evaluations_goes a t he.inv.numbered
      rw [e1] at h1
      obtain ⟨a1, a2, a3⟩ := he.has (hs.back h1) ha (lt_of_known he.inv (evaluations_known e1))
      unfold TPoly.evaluations at e1
      rw [evaluations_run he.inv a1] at e1
      obtain ⟨_, rfl⟩ := Prod.mk.inj e1
      exact ⟨t', rfl, he.readLeft a1, trivial⟩
    · cases (Prod.mk.inj e2).1

theorem built_challenge {H : Oracle F C} {l : String} : Built g R (fun _ => True) (PTracker.challenge H l) (PTracker.challenge H l) := by
  refine ⟨challenge_goes H l, fun t t' x u he e hs => ?_⟩
  unfold PTracker.challenge at e ⊢
  rw [← he.transcript]
  rcases hc : t.transcript.challenge H l with er | ⟨c, tr⟩
  · rw [hc] at e
    cases (Prod.mk.inj e).1
  · rw [hc] at e
    obtain ⟨e1, rfl⟩ := Prod.mk.inj e
    obtain rfl := Except.ok.inj e1
    exact ⟨_, rfl, he.log rfl rfl rfl rfl rfl rfl rfl rfl rfl rfl rfl he.sums he.zeros, trivial⟩

theorem built_addSumClaim {i : Nat} {s : F} : Built g R (fun _ => True) (PTracker.addSumClaim i s) (PTracker.addSumClaim i s) := by
  refine ⟨addSumClaim_goes i s, fun t t' x u he e hs => ?_⟩
  obtain ⟨_, rfl⟩ := Prod.mk.inj e
  exact ⟨_, rfl, he.log rfl rfl rfl rfl rfl rfl rfl rfl rfl rfl he.transcript (congrArg (· ++ [(i, s)]) he.sums) he.zeros, trivial⟩

theorem built_addZeroClaim {i : Nat} : Built g R (fun _ => True) (PTracker.addZeroClaim i) (PTracker.addZeroClaim i) := by
  refine ⟨addZeroClaim_goes i, fun t t' x u he e hs => ?_⟩
  obtain ⟨_, rfl⟩ := Prod.mk.inj e
  exact ⟨_, rfl, he.log rfl rfl rfl rfl rfl rfl rfl rfl rfl rfl he.transcript he.sums (congrArg (· ++ [i]) he.zeros), trivial⟩

end handles
end Zksql
