import Verif.Lemmas.ProverTracker2
import Verif.Lemmas.BagSound
import Verif.Spec.Honest
/-! Running the two sides of a check together. -/
set_option linter.unusedSectionVars false
namespace Zksql
open Spec
variable {F C B : Type} [Field F] [DecidableEq F]
variable {E : Env F C} {P : C → List F → F} {N : Nat} {Sz : Prop} {t t1 t2 t' : PTracker F C} {s s1 s' : VSt F C B}

/-- What is known of the verifier's handles: identifier, number of variables, table. -/
abbrev Facts (F : Type) := Nat → Nat → (Nat → F) → Prop

/-- One more fact. -/
def Facts.ins (Γ : Facts F) (i nv : Nat) (T : Nat → F) : Facts F := fun j m U => Γ j m U ∨ (j = i ∧ m = nv ∧ U = T)

theorem Facts.le_ins (Γ : Facts F) (i nv : Nat) (T : Nat → F) : Γ ≤ Γ.ins i nv T := fun _ _ _ h => .inl h
theorem Facts.mem_ins (Γ : Facts F) (i nv : Nat) (T : Nat → F) : Γ.ins i nv T i nv T := .inr ⟨rfl, rfl, rfl⟩

/-- The prover's handle has this table. -/
structure PH (t : PTracker F C) (a : TPoly) (T : Nat → F) : Prop where
  nv : t.HasNv a.id a.numVars
  val : ∀ b < 2 ^ a.numVars, t.gval (fun p => p.tbl b) a.id = T b

theorem PH.congr {a : TPoly} {T T' : Nat → F} (h : PH t a T) (e : ∀ b < 2 ^ a.numVars, T b = T' b) : PH t a T' :=
  ⟨h.nv, fun b hb => by rw [h.val b hb, e b hb]⟩

theorem Spec.HoldsP.ph (hr : Ready E.commit t) {a : TPoly} {T : Nat → F} (h : HoldsP t a T) : PH t a T := by
  have hn : t.HasNv a.id a.numVars := by
    have h1 := h.1
    unfold PTracker.getPolyNv at h1
    rcases hm : t.mats.lookup a.id with _ | x
    · rw [hm] at h1
      rcases hv : t.virts.lookup a.id with _ | v
      · rw [hv] at h1; simp at h1
      · rw [hv] at h1
        obtain ⟨-, -, nv, hA⟩ := hr.inv.virtOk _ _ hv
        have := PTracker.getPolyNv_spec (t := t) (id := a.id) (nv := nv) (.inr ⟨hm, v, hv, hA⟩)
        unfold PTracker.getPolyNv at this
        rw [hm, hv] at this
        have e : nv = a.numVars := Except.ok.inj (this.symm.trans h1)
        rw [← e]
        exact .inr ⟨hm, v, hv, hA⟩
    · rw [hm] at h1
      exact .inl ⟨x, hm, Except.ok.inj h1⟩
  refine ⟨hn, fun b hb => ?_⟩
  have h2 := h.2
  unfold TPoly.evaluations at h2
  rw [PTracker.evaluations_run hr.inv hn] at h2
  have := congrArg (fun l : List F => l.getD b 0) (Except.ok.inj h2)
  simpa [hb] using this

theorem PH.holdsP (hr : Ready E.commit t) {a : TPoly} {T : Nat → F} (h : PH t a T) : HoldsP t a T := by
  refine ⟨PTracker.getPolyNv_spec h.nv, ?_⟩
  unfold TPoly.evaluations
  rw [PTracker.evaluations_run hr.inv h.nv]
  refine congrArg Except.ok (List.map_congr_left fun b hb => ?_)
  exact h.val b (List.mem_range.1 hb)

theorem PH.pres {a : TPoly} {T : Nat → F} (h : PH t a T) (p : PTracker.Pres t t') : PH t' a T :=
  ⟨p.nv _ _ h.nv, fun b hb => by rw [p.cube _ _ _ h.nv hb, h.val b hb]⟩

theorem holdsP_pres (hr : Ready E.commit t) (hr' : Ready E.commit t') (p : PTracker.Pres t t') {a : TPoly} {T : Nat → F} (h : HoldsP t a T) : HoldsP t' a T :=
  ((h.ph hr).pres p).holdsP hr'

/-- Truth of claims is kept. -/
theorem sumsP_pres (hr : Ready E.commit t) (hr' : Ready E.commit t') (p : PTracker.Pres t t') (e : t'.sumClaims = t.sumClaims) (h : SumsTrueP t) : SumsTrueP t' := by
  intro c hc
  rw [e] at hc
  obtain ⟨a, T, h1, h2, h3⟩ := h c hc
  exact ⟨a, T, h1, holdsP_pres hr hr' p h2, h3⟩

theorem zerosP_pres (hr : Ready E.commit t) (hr' : Ready E.commit t') (p : PTracker.Pres t t') (e : t'.zeroClaims = t.zeroClaims) (h : ZerosTrueP t) : ZerosTrueP t' := by
  intro c hc
  rw [e] at hc
  obtain ⟨a, T, h1, h2, h3⟩ := h c hc
  exact ⟨a, T, h1, holdsP_pres hr hr' p h2, h3⟩

/-- A state that follows. -/
structure Ext (E : Env F C) (t t' : PTracker F C) : Prop where
  inv : t'.Inv (commR E.commit)
  pres : PTracker.Pres t t'
  comms : ∀ id c, t.comms.lookup id = some c → t'.comms.lookup id = some c
  sums : ∀ e ∈ t.sumClaims, e ∈ t'.sumClaims
  zeros : ∀ i ∈ t.zeroClaims, i ∈ t'.zeroClaims
  known : ∀ i ∈ t'.zeroClaims, i ∈ t.zeroClaims ∨ ∃ nv, t'.HasNv i nv
  sumsOk : SumsTrueP t → SumsTrueP t'
  events : t.transcript.events <+: t'.transcript.events
  label : t'.transcript.label = t.transcript.label
  started : t'.transcript.isEmpty = false

theorem Ext.trans (h1 : Ext E t t1) (h2 : Ext E t1 t2) : Ext E t t2 :=
  ⟨h2.inv, h1.pres.trans h2.pres, fun i c h => h2.comms i c (h1.comms i c h), fun e h => h2.sums e (h1.sums e h), fun e h => h2.zeros e (h1.zeros e h),
    fun e h => (h2.known e h).elim (fun h => (h1.known e h).imp_right fun ⟨nv, k⟩ => ⟨nv, h2.pres.nv _ _ k⟩) .inr, fun h => h2.sumsOk (h1.sumsOk h), h1.events.trans h2.events,
    h2.label.trans h1.label, h2.started⟩

theorem Spec.Ready.ext (h : Ready E.commit t) : Ext E t t :=
  ⟨h.inv, PTracker.Pres.refl t, fun _ _ h => h, fun _ h => h, fun _ h => h, fun _ h => .inl h, id, List.prefix_refl _, rfl, h.started⟩

theorem Ext.ready (h : Ext E t t') : Ready E.commit t' := ⟨h.inv, h.started⟩

theorem Ext.ph (h : Ext E t t') {a : TPoly} {T : Nat → F} (k : PH t a T) : PH t' a T :=
  ⟨h.pres.nv _ _ k.nv, fun b hb => by rw [h.pres.cube _ _ _ k.nv hb, k.val b hb]⟩

/-- Prover and verifier in step. -/
structure Match (Γ : Facts F) (t : PTracker F C) (s : VSt F C B) : Prop where
  sane : Sane s
  tog : Together t s
  known : ∀ i nv T, Γ i nv T → Known s i

/-- What the verifier is told is true. -/
structure Truth (E : Env F C) (P : C → List F → F) (N : Nat) (Sz : Prop) (Γ : Facts F) (s : VSt F C B) : Prop where
  sized : Sz
  holds : ∀ i nv T, Γ i nv T → Holds s P N i nv T
  claims : ClaimsTrue P N s

/-- The sums in the proof are true. -/
def TS (N : Nat) (pf : CompiledProof F C B) (t : PTracker F C) : Prop :=
  ∀ e ∈ t.sumClaims, ∀ nv, t.HasNv e.1 nv → pf.sumcheckClaims.lookup e.1 = some (2 ^ (N - nv) * e.2)

theorem TS.back {pf : CompiledProof F C B} (h : TS N pf t') (x : Ext E t t') : TS N pf t := fun e he nv hn => h e (x.sums e he) nv (x.pres.nv _ _ hn)

/-- What is claimed to vanish does, as far as it is known. -/
def ZT (t : PTracker F C) : Prop := ∀ i ∈ t.zeroClaims, ∀ nv, t.HasNv i nv → ∀ b < 2 ^ nv, t.gval (fun p => p.tbl b) i = 0

theorem ZT.back (h : ZT t') (x : Ext E t t') : ZT t := fun i hi nv hn b hb => by
  rw [← x.pres.cube i nv b hn hb]
  exact h i (x.zeros i hi) nv (x.pres.nv _ _ hn) b hb

/-- `P` opens the commitments made so far. -/
def OT (P : C → List F → F) (N : Nat) (t : PTracker F C) : Prop := ∀ id c a, t.comms.lookup id = some c → t.mats.lookup id = some a → a.mle.numVars ≤ N →
  ∀ b < 2 ^ N, P c (boolPt N b) = a.mle.tbl (b % 2 ^ a.mle.numVars)

theorem OT.back (h : OT P N t') (x : Ext E t t') : OT P N t := fun id c a hc ha => h id c a (x.comms id c hc) (x.pres.mats _ _ ha)

theorem Spec.Opens.ot (h : Opens E.commit P N) (hi : t.Inv (commR E.commit)) : OT P N t := fun id c a hc ha hn b hb => by
  obtain ⟨a', ha', hc'⟩ := hi.commOk id c hc
  obtain rfl : a = a' := Option.some.inj (ha.symm.trans ha')
  exact h a.mle c (hi.matOk id a ha).2.1 hn hc' b hb

theorem Spec.TrueSums.ts {pf : CompiledProof F C B} (h : TrueSums N pf t) : TS N pf t := fun e he nv hn =>
  h e he nv (PTracker.getPolyNv_spec hn)

theorem Spec.Carries.back {pf : CompiledProof F C B} (h : Carries pf t') (x : Ext E t t') : Carries pf t :=
  ⟨fun i c hc => h.comms i c (x.comms i c hc), fun e he => h.sums e (x.sums e he)⟩

theorem drawn_of {ev : List (TEvent F C)} (h : t'.transcript.events = t.transcript.events ++ ev) : drawn t t' = squeezes t.transcript.events ev := by
  unfold drawn
  rw [h, List.drop_left]

theorem drawn_trans (h1 : t.transcript.events <+: t1.transcript.events) (h2 : t1.transcript.events <+: t2.transcript.events) :
    drawn t t2 = drawn t t1 ++ drawn t1 t2 := by
  obtain ⟨a, ha⟩ := h1
  obtain ⟨b, hb⟩ := h2
  rw [drawn_of ha.symm, drawn_of hb.symm, drawn_of (ev := a ++ b) (by rw [← hb, ← ha, List.append_assoc]), squeezes_append, ha]

section
variable {α β α0 β0 : Type} {Γ Γ1 : Facts F} {bounds b1 b2 : List Nat} {Φ Φ' : Prop}

/-- The two sides of a check, with the states they lead to. -/
def GFB (bad : List (TEvent F C) → Finset F) (E : Env F C) (P : C → List F → F) (N : Nat) (Sz : Prop) (m : Oracle F C → Act (PTracker F C) α)
    (v : CompiledProof F C B → Oracle F C → Act (VSt F C B) β) (Γ : Facts F) (t : PTracker F C) (bounds : List Nat) (Φ : Prop) : Prop :=
  ∀ H : Oracle F C, ∃ (a : α) (t' : PTracker F C), m H t = (.ok a, t') ∧ Ext E t t' ∧
    (drawn t t').length = bounds.length ∧ (∀ k h, (drawn t t')[k]? = some h → (bad h).card ≤ bounds.getD k 0) ∧
    (Φ → (∀ h ∈ drawn t t', H t.transcript.label h ∉ bad h) → ZerosTrueP t → ZerosTrueP t') ∧
    ∀ s : VSt F C B, Match Γ t s → Carries s.own.proof t' →
      (∃ b s', v s.own.proof H s = (.ok b, s') ∧ Match Γ t' s' ∧ Later s s' ∧
        (Truth E P N Sz Γ s → TS N s.own.proof t' → ((Φ ∧ ∀ h ∈ drawn t t', H t.transcript.label h ∉ bad h) ∨ ZT t') ∧ OT P N t' → ClaimsTrue P N s')) ∨
      (∃ s', v s.own.proof H s = (.error (.err .invalidVerifier), s') ∧
        ¬ (TS N s.own.proof t' ∧ Φ ∧ ∀ h ∈ drawn t t', H t.transcript.label h ∉ bad h))

/-- For some exceptional challenges. -/
def GF (E : Env F C) (P : C → List F → F) (N : Nat) (Sz : Prop) (m : Oracle F C → Act (PTracker F C) α)
    (v : CompiledProof F C B → Oracle F C → Act (VSt F C B) β) (Γ : Facts F) (t : PTracker F C) (bounds : List Nat) (Φ : Prop) : Prop :=
  ∃ bad : List (TEvent F C) → Finset F, GFB bad E P N Sz m v Γ t bounds Φ

/-- Without challenges none is exceptional. -/
theorem GF.nil {m : Oracle F C → Act (PTracker F C) α} {v : CompiledProof F C B → Oracle F C → Act (VSt F C B) β}
    (h : GF E P N Sz m v Γ t [] Φ) (bad' : List (TEvent F C) → Finset F) : GFB bad' E P N Sz m v Γ t [] Φ := by
  obtain ⟨bad, h⟩ := h
  intro H
  obtain ⟨a, t', h1, h2, h3, h4, hz5, h5⟩ := h H
  have h3' : drawn t t' = [] := List.length_eq_zero_iff.1 h3
  rw [h3'] at h4 hz5 h5
  refine ⟨a, t', h1, h2, h3, by rw [h3']; simp, fun a3 _ => hz5 a3 (by simp), fun s hm hc => ?_⟩
  rw [h3']
  rcases h5 s hm hc with ⟨b, s', k1, k2, k3, k4⟩ | ⟨s', k1, k2⟩
  · exact .inl ⟨b, s', k1, k2, k3, fun a1 a2 a3 => k4 a1 a2 ⟨a3.1.imp (fun h => ⟨h.1, by simp⟩) id, a3.2⟩⟩
  · exact .inr ⟨s', k1, fun ⟨a2, a3, _⟩ => k2 ⟨a2, a3, by simp⟩⟩

theorem GF.weaken {m : Oracle F C → Act (PTracker F C) α} {v : CompiledProof F C B → Oracle F C → Act (VSt F C B) β}
    (h : GF E P N Sz m v Γ t bounds Φ) (hΦ : Φ' → Φ) : GF E P N Sz m v Γ t bounds Φ' := by
  obtain ⟨bad, h⟩ := h
  refine ⟨bad, fun H => ?_⟩
  obtain ⟨a, t', h1, h2, h3, h4, hz5, h5⟩ := h H
  refine ⟨a, t', h1, h2, h3, h4, fun a3 => hz5 (hΦ a3), fun s hm hc => ?_⟩
  rcases h5 s hm hc with ⟨b, s', k1, k2, k3, k4⟩ | ⟨s', k1, k2⟩
  · exact .inl ⟨b, s', k1, k2, k3, fun a1 a2 a3 => k4 a1 a2 ⟨a3.1.imp (fun h => ⟨hΦ h.1, h.2⟩) id, a3.2⟩⟩
  · exact .inr ⟨s', k1, fun ⟨a2, a3, a4⟩ => k2 ⟨a2, hΦ a3, a4⟩⟩

/-- The end. -/
theorem GF.pure {a : α} {b : CompiledProof F C B → β} (hr : Ready E.commit t) :
    GF E P N Sz (fun _ => (Pure.pure a : Act (PTracker F C) α)) (fun pf _ => (Pure.pure (b pf) : Act (VSt F C B) β)) Γ t [] Φ := by
  refine ⟨fun _ => ∅, fun H => ⟨a, t, rfl, hr.ext, ?_, ?_, fun _ _ => id, fun s hm _ => .inl ⟨_, s, rfl, hm, Later.refl hm.sane, fun h _ _ => h.claims⟩⟩⟩
  · rw [drawn_of (ev := []) (by simp)]; rfl
  · rw [drawn_of (ev := []) (by simp)]; simp [squeezes]

/-- A step of both sides that draws no challenge. -/
theorem GF.step {m0 : Act (PTracker F C) α0} {v0 : Act (VSt F C B) β0} {f : α0 → Oracle F C → Act (PTracker F C) α}
    {g : β0 → CompiledProof F C B → Oracle F C → Act (VSt F C B) β} {a : α0} {b : CompiledProof F C B → β0}
    (hm : m0 t = (.ok a, t1)) (hx : Ext E t t1) (hd : drawn t t1 = []) (hΓ : Γ ≤ Γ1) (hzs : Φ → ZerosTrueP t → ZerosTrueP t1)
    (hv : ∀ s : VSt F C B, Match Γ t s → Carries s.own.proof t1 → ∃ s1, v0 s = (.ok (b s.own.proof), s1) ∧ Match Γ1 t1 s1 ∧ Later s s1 ∧
      (Truth E P N Sz Γ s → TS N s.own.proof t1 → (Φ ∨ ZT t1) ∧ OT P N t1 → Truth E P N Sz Γ1 s1))
    (h : GF E P N Sz (f a) (fun pf => g (b pf) pf) Γ1 t1 bounds Φ) :
    GF E P N Sz (fun H => m0 >>= fun a => f a H) (fun pf H => v0 >>= fun b => g b pf H) Γ t bounds Φ := by
  obtain ⟨bad, h⟩ := h
  refine ⟨bad, fun H => ?_⟩
  obtain ⟨a', t', h1, h2, h3, h4, hz5, h5⟩ := h H
  have hn := drawn_trans hx.events h2.events
  rw [hd, List.nil_append] at hn
  refine ⟨a', t', by beta_reduce; rw [Act.bind_ok hm, h1], hx.trans h2, by rw [hn, h3], by rw [hn]; exact h4,
    fun a3 a4 a5 => hz5 a3 (by rw [hn, ← hx.label] at a4; exact a4) (hzs a3 a5), fun s hs hc => ?_⟩
  obtain ⟨s1, e1, m1, l1, tr1⟩ := hv s hs (hc.back h2)
  have hp : s1.own.proof = s.own.proof := l1.proof
  have h6 := h5 s1 m1 (by rw [hp]; exact hc)
  rw [hp] at h6
  rw [hn, ← hx.label]
  rcases h6 with ⟨b', s', k1, k2, k3, k4⟩ | ⟨s', k1, k2⟩
  · refine .inl ⟨b', s', by beta_reduce; rw [Act.bind_ok e1]; exact k1, ⟨k2.sane, k2.tog, fun i nv T hi => k2.known i nv T (hΓ _ _ _ hi)⟩, l1.trans k3,
      fun a1 a2 a3 => k4 (tr1 a1 (a2.back h2) ⟨a3.1.imp (fun h => h.1) fun h => h.back h2, a3.2.back h2⟩) a2 a3⟩
  · exact .inr ⟨s', by beta_reduce; rw [Act.bind_ok e1]; exact k1, fun ⟨a2, a3, a4⟩ => k2 ⟨a2, a3, a4⟩⟩

/-- A step of the prover alone. -/
theorem GF.pstep {m0 : Act (PTracker F C) α0} {v : CompiledProof F C B → Oracle F C → Act (VSt F C B) β}
    {f : α0 → Oracle F C → Act (PTracker F C) α} {a : α0}
    (hm : m0 t = (.ok a, t1)) (hx : Ext E t t1) (hd : t1.transcript = t.transcript) (hcnt : t1.idCounter = t.idCounter) (hco : t1.comms = t.comms)
    (hsu : t1.sumClaims = t.sumClaims) (hze : t1.zeroClaims = t.zeroClaims) (hr : Ready E.commit t)
    (h : GF E P N Sz (f a) v Γ t1 bounds Φ) : GF E P N Sz (fun H => m0 >>= fun a => f a H) v Γ t bounds Φ := by
  obtain ⟨bad, h⟩ := h
  refine ⟨bad, fun H => ?_⟩
  obtain ⟨a', t', h1, h2, h3, h4, hz5, h5⟩ := h H
  have hn : drawn t t' = drawn t1 t' := by unfold drawn; rw [hd]
  refine ⟨a', t', by beta_reduce; rw [Act.bind_ok hm, h1], hx.trans h2, by rw [hn, h3], by rw [hn]; exact h4,
    fun a3 a4 a5 => hz5 a3 (by rw [hn, ← hd] at a4; exact a4) (zerosP_pres hr hx.ready hx.pres hze a5), fun s hs hc => ?_⟩
  have hs1 : Match Γ t1 s := ⟨hs.sane, ⟨by rw [hcnt, hs.tog.counter], by rw [hd, hs.tog.transcript], by rw [hco, hs.tog.comms],
    by rw [hsu, hs.tog.sums], by rw [hze, hs.tog.zeros], hs.tog.read⟩, hs.known⟩
  rw [hn, ← hd]
  exact h5 s hs1 hc

/-! ### Steps -/

section rules
variable {f : TPoly → Oracle F C → Act (PTracker F C) α} {g : Nat → CompiledProof F C B → Oracle F C → Act (VSt F C B) β}

/-- Nothing but polynomials changed. -/
structure SameLog (t t' : PTracker F C) : Prop where
  tr : t'.transcript = t.transcript
  co : t'.comms = t.comms
  su : t'.sumClaims = t.sumClaims
  ze : t'.zeroClaims = t.zeroClaims

theorem SameLog.ext (h : SameLog t t') (hr : Ready E.commit t) (hi : t'.Inv (commR E.commit)) (hp : PTracker.Pres t t') : Ext E t t' :=
  ⟨hi, hp, by rw [h.co]; exact fun _ _ h => h, by rw [h.su]; exact fun _ h => h, by rw [h.ze]; exact fun _ h => h, by rw [h.ze]; exact fun _ h => .inl h,
    sumsP_pres hr ⟨hi, by rw [h.tr]; exact hr.started⟩ hp h.su, by rw [h.tr], by rw [h.tr], by rw [h.tr]; exact hr.started⟩

theorem SameLog.drawn (h : SameLog t t') : drawn t t' = [] := by rw [drawn_of (ev := []) (by rw [h.tr]; simp)]; rfl

theorem Truth.later (h : Truth E P N Sz Γ s) (hm : Match Γ t s) (l : Later s s') : ∀ i nv T, Γ i nv T → Holds s' P N i nv T := fun i nv T hi =>
  (l.holds hm.sane (hm.known i nv T hi)).2 (h.holds i nv T hi)

theorem ClaimsTrue.later (hs : Sane s) (h : ClaimsTrue P N s) (l : Later s s') (hz : s'.own.zeroClaims = s.own.zeroClaims)
    (hc : s'.own.sumClaims = s.own.sumClaims) : ClaimsTrue P N s' := by
  refine ⟨fun i hi => ?_, fun c hi => ?_⟩
  · rw [hz] at hi
    exact (l.vals hs (hs.zeros i hi)).2 (h.1 i hi)
  · rw [hc] at hi
    obtain ⟨T, h1, h2⟩ := h.2 c hi
    exact ⟨T, (l.vals hs (hs.sums c hi)).2 h1, h2⟩

/-- The verifier's half of a virtual operation. -/
theorem match_push {c : VComm F} {nv : Nat} {T : Nat → F} (hm : Match Γ t s) (hx : SameLog t t1) (hcnt : t1.idCounter = t.idCounter + 1)
    (hr : ∀ r ∈ c.refs, Known s r) (hq : ∀ i, c ≠ .query i) :
    Match (Γ.ins t.idCounter nv T) t1 (s.push c) ∧ Later s (s.push c) ∧ (s.push c).sh.comms.lookup t.idCounter = some c := by
  have q := quiet_push hm.sane hr hq
  have hl : (s.push c).sh.comms.lookup t.idCounter = some c := by rw [VSt.push_lookup, if_pos hm.tog.counter.symm]
  refine ⟨⟨q.sane, ⟨?_, ?_, ?_, ?_, ?_, hm.tog.read⟩, ?_⟩, q.toLater, hl⟩
  · rw [hcnt, ← hm.tog.counter]; rfl
  · rw [hx.tr, ← hm.tog.transcript]; rfl
  · rw [hx.co, ← hm.tog.comms]; rfl
  · rw [hx.su, ← hm.tog.sums]; rfl
  · rw [hx.ze, ← hm.tog.zeros]; rfl
  · rintro i nv U (hi | ⟨rfl, rfl, rfl⟩)
    · exact q.known (hm.known i nv U hi)
    · exact known_look hl

theorem truth_push {c : VComm F} {nv : Nat} {T : Nat → F} (hm : Match Γ t s) (l : Later s (s.push c)) (htr : Truth E P N Sz Γ s)
    (hT : Holds (s.push c) P N t.idCounter nv T) : Truth E P N Sz (Γ.ins t.idCounter nv T) (s.push c) := by
  refine ⟨htr.sized, ?_, ClaimsTrue.later hm.sane htr.claims l rfl rfl⟩
  rintro i nv U (hi | ⟨rfl, rfl, rfl⟩)
  · exact htr.later hm l i nv U hi
  · exact hT

/-- A virtual operation on both sides. -/
theorem GF.virt {m0 : Act (PTracker F C) TPoly} {c : VComm F} {nv : Nat} {T U : Nat → F} (hr : Ready E.commit t)
    (hm : m0 t = (.ok ⟨t.idCounter, nv⟩, t1)) (hl : SameLog t t1) (hcnt : t1.idCounter = t.idCounter + 1)
    (hi : t1.Inv (commR E.commit)) (hp : PTracker.Pres t t1)
    (hph : PH t1 ⟨t.idCounter, nv⟩ T)
    (hrf : ∀ r ∈ c.refs, ∃ nv T, Γ r nv T) (hq : ∀ i, c ≠ .query i)
    (hval : ∀ s : VSt F C B, Sane s → s.sh.comms.lookup t.idCounter = some c → (∀ i nv T, Γ i nv T → Holds s P N i nv T) → Sz →
      Holds s P N t.idCounter nv U)
    (h : ∀ x t1 Γ1, Ext E t t1 → Γ ≤ Γ1 → x.numVars = nv → PH t1 x T → Γ1 x.id nv U → GF E P N Sz (f x) (g x.id) Γ1 t1 bounds Φ) :
    GF E P N Sz (fun H => m0 >>= fun x => f x H) (fun pf H => VSt.trackVirtual c >>= fun x => g x pf H) Γ t bounds Φ := by
  refine GF.step (b := fun _ => t.idCounter) hm (hl.ext hr hi hp) hl.drawn (Facts.le_ins Γ t.idCounter nv U)
    (fun _ => zerosP_pres hr (hl.ext hr hi hp).ready hp hl.ze) ?_
    (h ⟨t.idCounter, nv⟩ _ _ (hl.ext hr hi hp) (Facts.le_ins Γ _ nv U) rfl hph (Facts.mem_ins ..))
  intro s hs _
  obtain ⟨h1, h2, h3⟩ := match_push (nv := nv) (T := U) hs hl hcnt
    (fun r hr => by obtain ⟨nv, T, k⟩ := hrf r hr; exact hs.known _ _ _ k) hq
  refine ⟨_, ?_, h1, h2, fun htr _ _ => truth_push hs h2 htr (hval _ h2.sane h3 (htr.later hs h2) htr.sized)⟩
  rw [VSt.trackVirtual_run, hs.tog.counter]

variable {a b : TPoly} {i j nv : Nat} {Ta Tb Ua Ub : Nat → F}

theorem sameLog_pushVirt (t : PTracker F C) (v : VRep F) : SameLog t (t.pushVirt v) := ⟨rfl, rfl, rfl, rfl⟩
theorem sameLog_pushMat (t : PTracker F C) (p : Mle F) : SameLog t (t.pushMat p) := ⟨rfl, rfl, rfl, rfl⟩

theorem c_addSub (sg : Bool) (hr : Ready E.commit t) (ha : PH t a Ta) (hb : PH t b Tb) (hab : a.numVars = b.numVars) (hi : Γ i a.numVars Ua) (hj : Γ j a.numVars Ub)
    (h : ∀ x t1 Γ1, Ext E t t1 → Γ ≤ Γ1 → x.numVars = a.numVars → PH t1 x (fun b => if sg then Ta b - Tb b else Ta b + Tb b) →
      Γ1 x.id a.numVars (fun b => if sg then Ua b - Ub b else Ua b + Ub b) → GF E P N Sz (f x) (g x.id) Γ1 t1 bounds Φ) :
    GF E P N Sz (fun H => (if sg then a.sub b else a.add b) >>= fun x => f x H)
      (fun pf H => VSt.trackVirtual (if sg then .sub i j else .add i j) >>= fun x => g x pf H) Γ t bounds Φ := by
  obtain ⟨v, h1, h2, h3⟩ := PTracker.addSubPolys_run hr.inv ha.nv (hab ▸ hb.nv) sg
  have hn := PTracker.newOk_pushVirt hr.inv h2
  refine GF.virt (t1 := t.pushVirt v) (T := fun b => if sg then Ta b - Tb b else Ta b + Tb b) hr ?_ (sameLog_pushVirt t v) rfl hn.inv hn.pres ⟨hn.nv, ?_⟩ ?_ ?_ ?_ h
  · cases sg
    · simp only [Bool.false_eq_true, if_false]
      unfold TPoly.add
      rw [Act.bind_ok (Act.assert_true hab t), Act.bind_ok h1]; rfl
    · simp only [if_true]
      unfold TPoly.sub
      rw [Act.bind_ok (Act.assert_true hab t), Act.bind_ok h1]; rfl
  · intro b' hb'
    dsimp only at hb'
    show (t.pushVirt v).gval _ t.idCounter = _
    rw [PTracker.gval_pushVirt hr.inv, h3]
    rw [ha.val b' hb', hb.val b' (hab ▸ hb')]
  · intro r hr
    cases sg <;> simp [VComm.refs] at hr <;> rcases hr with rfl | rfl <;> exact ⟨_, _, by assumption⟩
  · cases sg <;> exact fun i => nofun
  · intro s hs hl hΓ _
    refine ⟨(hΓ _ _ _ hi).1, ?_⟩
    cases sg
    · exact vals_add hs hl (hΓ _ _ _ hi).2 (hΓ _ _ _ hj).2
    · exact vals_sub hs hl (hΓ _ _ _ hi).2 (hΓ _ _ _ hj).2

theorem c_add (hr : Ready E.commit t) (ha : PH t a Ta) (hb : PH t b Tb) (hab : a.numVars = b.numVars) (hi : Γ i a.numVars Ua) (hj : Γ j a.numVars Ub)
    (h : ∀ x t1 Γ1, Ext E t t1 → Γ ≤ Γ1 → x.numVars = a.numVars → PH t1 x (fun b => Ta b + Tb b) →
      Γ1 x.id a.numVars (fun b => Ua b + Ub b) → GF E P N Sz (f x) (g x.id) Γ1 t1 bounds Φ) :
    GF E P N Sz (fun H => a.add b >>= fun x => f x H) (fun pf H => VSt.addComms i j >>= fun x => g x pf H) Γ t bounds Φ :=
  c_addSub false hr ha hb hab hi hj h

theorem c_sub (hr : Ready E.commit t) (ha : PH t a Ta) (hb : PH t b Tb) (hab : a.numVars = b.numVars) (hi : Γ i a.numVars Ua) (hj : Γ j a.numVars Ub)
    (h : ∀ x t1 Γ1, Ext E t t1 → Γ ≤ Γ1 → x.numVars = a.numVars → PH t1 x (fun b => Ta b - Tb b) →
      Γ1 x.id a.numVars (fun b => Ua b - Ub b) → GF E P N Sz (f x) (g x.id) Γ1 t1 bounds Φ) :
    GF E P N Sz (fun H => a.sub b >>= fun x => f x H) (fun pf H => VSt.subComms i j >>= fun x => g x pf H) Γ t bounds Φ :=
  c_addSub true hr ha hb hab hi hj h

theorem c_mul (hr : Ready E.commit t) (ha : PH t a Ta) (hb : PH t b Tb) (hab : a.numVars = b.numVars) (hi : Γ i a.numVars Ua) (hj : Γ j a.numVars Ub)
    (h : ∀ x t1 Γ1, Ext E t t1 → Γ ≤ Γ1 → x.numVars = a.numVars → PH t1 x (fun b => Ta b * Tb b) →
      Γ1 x.id a.numVars (fun b => Ua b * Ub b) → GF E P N Sz (f x) (g x.id) Γ1 t1 bounds Φ) :
    GF E P N Sz (fun H => a.mul b >>= fun x => f x H) (fun pf H => VSt.mulComms i j >>= fun x => g x pf H) Γ t bounds Φ := by
  obtain ⟨v, h1, h2, h3⟩ := PTracker.mulPolys_run hr.inv ha.nv (hab ▸ hb.nv)
  have hn := PTracker.newOk_pushVirt hr.inv h2
  refine GF.virt (t1 := t.pushVirt v) (T := fun b => Ta b * Tb b) hr ?_ (sameLog_pushVirt t v) rfl hn.inv hn.pres ⟨hn.nv, ?_⟩ ?_ nofun ?_ h
  · unfold TPoly.mul
    rw [Act.bind_ok (Act.assert_true hab t), Act.bind_ok h1]; rfl
  · intro b' hb'
    show (t.pushVirt v).gval _ t.idCounter = _
    rw [PTracker.gval_pushVirt hr.inv, h3, ha.val b' hb', hb.val b' (hab ▸ hb')]
  · intro r hr
    simp [VComm.refs] at hr
    rcases hr with rfl | rfl <;> exact ⟨_, _, by assumption⟩
  · exact fun s hs hl hΓ _ => ⟨(hΓ _ _ _ hi).1, vals_mul hs hl (hΓ _ _ _ hi).2 (hΓ _ _ _ hj).2⟩

theorem c_mulScalar {c : F} (hr : Ready E.commit t) (ha : PH t a Ta) (hi : Γ i a.numVars Ua)
    (h : ∀ x t1 Γ1, Ext E t t1 → Γ ≤ Γ1 → x.numVars = a.numVars → PH t1 x (fun b => c * Ta b) →
      Γ1 x.id a.numVars (fun b => c * Ua b) → GF E P N Sz (f x) (g x.id) Γ1 t1 bounds Φ) :
    GF E P N Sz (fun H => a.mulScalar c >>= fun x => f x H) (fun pf H => VSt.mulScalar i c >>= fun x => g x pf H) Γ t bounds Φ := by
  obtain ⟨v, h1, h2, h3⟩ := PTracker.mulScalar_run hr.inv ha.nv c
  have hn := PTracker.newOk_pushVirt hr.inv h2
  refine GF.virt (t1 := t.pushVirt v) (T := fun b => c * Ta b) hr ?_ (sameLog_pushVirt t v) rfl hn.inv hn.pres ⟨hn.nv, ?_⟩ ?_ nofun ?_ h
  · unfold TPoly.mulScalar
    rw [Act.bind_ok h1]; rfl
  · intro b' hb'
    show (t.pushVirt v).gval _ t.idCounter = _
    rw [PTracker.gval_pushVirt hr.inv, h3, ha.val b' hb']
  · intro r hr
    simp [VComm.refs] at hr
    subst hr; exact ⟨_, _, hi⟩
  · exact fun s hs hl hΓ _ => ⟨(hΓ _ _ _ hi).1, vals_mulScalar hs hl (hΓ _ _ _ hi).2⟩

/-- A public table, for which the verifier has a closed form. -/
theorem c_pub {p : Mle F} {fn : List F → Res F} {U : Nat → F} (hr : Ready E.commit t) (hp : p.WF) (hN : p.numVars ≤ N)
    (hfn : Sz → ∀ b < 2 ^ N, fn (boolPt N b) = .ok (U (b % 2 ^ p.numVars)))
    (h : ∀ x t1 Γ1, Ext E t t1 → Γ ≤ Γ1 → x.numVars = p.numVars → PH t1 x p.tbl →
      Γ1 x.id p.numVars U → GF E P N Sz (f x) (g x.id) Γ1 t1 bounds Φ) :
    GF E P N Sz (fun H => TPoly.trackMat p >>= fun x => f x H) (fun pf H => VSt.trackVirtual (.fn fn) >>= fun x => g x pf H) Γ t bounds Φ := by
  have hn := PTracker.newOk_pushMat (R := commR E.commit) hr.inv hp
  refine GF.virt (t1 := t.pushMat p) (T := p.tbl) hr rfl (sameLog_pushMat t p) rfl hn.inv hn.pres ⟨hn.nv, ?_⟩ (by simp [VComm.refs]) nofun ?_ h
  · intro b' _
    show (t.pushMat p).gval _ t.idCounter = _
    rw [PTracker.gval_pushMat]
  · exact fun s hs hl hΓ hS => ⟨hN, vals_fn hs hl (hfn hS)⟩

theorem c_addScalar {c : F} (hr : Ready E.commit t) (ha : PH t a Ta) (hi : Γ i a.numVars Ua)
    (h : ∀ x t1 Γ1, Ext E t t1 → Γ ≤ Γ1 → x.numVars = a.numVars → PH t1 x (fun b => Ta b + c) →
      Γ1 x.id a.numVars (fun b => Ua b + c) → GF E P N Sz (f x) (g x.id) Γ1 t1 bounds Φ) :
    GF E P N Sz (fun H => a.addScalar c >>= fun x => f x H) (fun pf H => VSt.addScalar i c >>= fun x => g x pf H) Γ t bounds Φ := by
  obtain ⟨v, h1, h2, h3⟩ := PTracker.addScalar_run hr.inv ha.nv c
  have hn0 := PTracker.newOk_pushMat (R := commR E.commit) hr.inv (PTracker.constMle_wf a.numVars c)
  have hn := PTracker.newOk_pushVirt hn0.inv h2
  have hl : SameLog t ((t.pushMat (PTracker.constMle a.numVars c)).pushVirt v) := ⟨rfl, rfl, rfl, rfl⟩
  have hx := hl.ext hr hn.inv (hn0.pres.trans hn.pres)
  refine GF.step (b := fun _ => t.idCounter + 1) (a := ⟨t.idCounter + 1, a.numVars⟩) ?_ hx hl.drawn
    (Facts.le_ins Γ (t.idCounter + 1) a.numVars fun b => Ua b + c) (fun _ => zerosP_pres hr hx.ready hx.pres hl.ze) ?_
    (h ⟨t.idCounter + 1, a.numVars⟩ _ _ hx (Facts.le_ins Γ _ _ _) rfl ⟨hn.nv, fun b hb => ?_⟩ (Facts.mem_ins ..))
  · unfold TPoly.addScalar
    rw [Act.bind_ok h1]; rfl
  · intro s hs _
    have q0 := quiet_skip hs.sane
    have hs0 : Match Γ (t.pushMat (PTracker.constMle a.numVars c)) s.skip :=
      ⟨q0.sane, ⟨by show _ + 1 = _ + 1; rw [hs.tog.counter], hs.tog.transcript, hs.tog.comms, hs.tog.sums, hs.tog.zeros, hs.tog.read⟩,
        fun i nv T k => q0.known (hs.known i nv T k)⟩
    obtain ⟨k1, k2, k3⟩ := match_push (c := .addScalar i c) (nv := a.numVars) (T := fun b => Ua b + c) hs0 (sameLog_pushVirt _ v) rfl
      (refs1 (P := fun r => Known s.skip r) (hs0.known _ _ _ hi)) nofun
    refine ⟨_, ?_, k1, q0.toLater.trans k2, fun htr _ _ => ?_⟩
    · rw [VSt.addScalar_run, hs.tog.counter]
    · have htr0 : Truth E P N Sz Γ s.skip := ⟨htr.sized, htr.later hs q0.toLater, ClaimsTrue.later hs.sane htr.claims q0.toLater rfl rfl⟩
      have hU := htr0.later hs0 k2 _ _ _ hi
      exact truth_push hs0 k2 htr0 ⟨hU.1, vals_addScalar k2.sane k3 hU.2⟩
  · show ((t.pushMat (PTracker.constMle a.numVars c)).pushVirt v).gval _ (t.pushMat (PTracker.constMle a.numVars c)).idCounter = _
    rw [PTracker.gval_pushVirt hn0.inv, h3, ha.val b hb, PTracker.constMle_tbl _ _ _ hb]

/-- Committing to a table. -/
theorem commit_step {p : Mle F} {c : C} {d : Bool} (hi : t.Inv (commR E.commit)) (hp : p.WF) (hN : p.numVars ≤ N) (hc : E.commit p = .ok c) :
    TPoly.trackAndCommit E.commit p t = (.ok ⟨t.idCounter, p.numVars⟩, t.pushComm p c) ∧ PTracker.Pres t (t.pushComm p c) ∧
      Ready E.commit (t.pushComm p c) ∧ PH (t.pushComm p c) ⟨t.idCounter, p.numVars⟩ p.tbl ∧
      (∀ id c', t.comms.lookup id = some c' → (t.pushComm p c).comms.lookup id = some c') ∧
      ∀ s : VSt F C B, Match Γ t s → Carries s.own.proof (t.pushComm p c) →
        (VSt.getNextId >>= fun id => VSt.transferComm d id) s = (.ok t.idCounter, s.pushMat c) ∧
        Match (Γ.ins t.idCounter p.numVars p.tbl) (t.pushComm p c) (s.pushMat c) ∧ Later s (s.pushMat c) ∧
        (OT P N (t.pushComm p c) → Truth E P N Sz Γ s → Truth E P N Sz (Γ.ins t.idCounter p.numVars p.tbl) (s.pushMat c)) := by
  have hn := PTracker.newOk_pushComm (R := commR E.commit) hi hp hc
  refine ⟨?_, hn.pres, ⟨hn.inv, rfl⟩, ⟨hn.nv, fun b hb => ?_⟩, fun id c' hl => ?_, fun s hs hcar => ?_⟩
  · unfold TPoly.trackAndCommit
    rw [Act.bind_ok (PTracker.trackAndCommit_ok hc)]; rfl
  · show (t.pushComm p c).gval _ t.idCounter = _
    unfold PTracker.gval
    rw [show (t.pushComm p c).mats.lookup t.idCounter = _ from PTracker.pushMat_lookup p t]
  · obtain ⟨x, hx, -⟩ := hi.commOk id c' hl
    have := (hi.matOk id x hx).1
    simp only [PTracker.pushComm, lookup_amInsert]
    rw [if_neg (by omega)]
    exact hl
  · have hlk : s.own.proof.comms.lookup s.own.idCounter = some c := by
      rw [hs.tog.counter]
      apply hcar.comms
      simp [PTracker.pushComm, lookup_amInsert]
    have q := quiet_pushMat hs.sane c
    have hl : (s.pushMat c).sh.comms.lookup t.idCounter = some (.query t.idCounter) := by
      rw [VSt.pushMat_lookup, if_pos hs.tog.counter.symm, hs.tog.counter]
    refine ⟨?_, ⟨q.sane, ⟨?_, ?_, ?_, hs.tog.sums, hs.tog.zeros, hs.tog.read⟩, ?_⟩, q.toLater, fun hot htr => ⟨htr.sized, ?_, ?_⟩⟩
    · show (VSt.getNextId >>= fun id => VSt.transferComm d id) s = _
      rw [Act.bind_ok (m := VSt.getNextId) (a := s.own.idCounter) (s' := s) rfl, transferComm_run hlk (fun _ => rfl), hs.tog.counter]
    · show _ + 1 = _ + 1
      rw [hs.tog.counter]
    · show s.own.transcript.append _ _ = _
      rw [hs.tog.transcript]; rfl
    · show amInsert _ _ _ = _
      rw [hs.tog.comms, hs.tog.counter]; rfl
    · rintro i nv U (hi | ⟨rfl, rfl, rfl⟩)
      · exact q.known (hs.known i nv U hi)
      · exact known_look hl
    · rintro i nv U (hi | ⟨rfl, rfl, rfl⟩)
      · exact htr.later hs q.toLater i nv U hi
      · refine ⟨hN, fun b hb => ?_⟩
        have hm : (s.pushMat c).own.matComms.lookup t.idCounter = some c := by
          simp [VSt.pushMat, lookup_amInsert, hs.tog.counter]
        rw [vals_query (P := P) (N := N) q.sane hl hm b hb]
        beta_reduce
        rw [hot t.idCounter c _ (by simp [PTracker.pushComm, lookup_amInsert]) (PTracker.pushMat_lookup p t) hN b hb]
    · exact ClaimsTrue.later hs.sane htr.claims q.toLater rfl rfl

theorem c_commit {p : Mle F} {d : Bool} (hr : Ready E.commit t) (hp : p.WF) (hN : p.numVars ≤ N) (hC : CanCommit E.commit N)
    (h : ∀ x t1 Γ1, Ext E t t1 → Γ ≤ Γ1 → x.numVars = p.numVars → PH t1 x p.tbl →
      Γ1 x.id p.numVars p.tbl → GF E P N Sz (f x) (g x.id) Γ1 t1 bounds Φ) :
    GF E P N Sz (fun H => TPoly.trackAndCommit E.commit p >>= fun x => f x H)
      (fun pf H => VSt.getNextId >>= fun id => VSt.transferComm d id >>= fun x => g x pf H) Γ t bounds Φ := by
  obtain ⟨c, hc⟩ := hC p hp hN
  obtain ⟨s1, s2, s3, s4, s5, s6⟩ := commit_step (B := B) (P := P) (N := N) (d := d) (Γ := Γ) hr.inv hp hN hc
  have hx : Ext E t (t.pushComm p c) := ⟨s3.inv, s2, s5, fun _ h => h, fun _ h => h, fun _ h => .inl h, sumsP_pres hr s3 s2 rfl, List.prefix_append _ _, rfl, rfl⟩
  have hd : drawn t (t.pushComm p c) = [] := by
    rw [drawn_of (ev := [.absorb "comm" (.comm c)]) rfl]; rfl
  have hfin := GF.step (v0 := VSt.getNextId >>= fun id => VSt.transferComm d id) (m0 := TPoly.trackAndCommit E.commit p) (f := f) (g := g)
    (b := fun _ => t.idCounter) (a := ⟨t.idCounter, p.numVars⟩) (bounds := bounds) (Φ := Φ) (P := P) (N := N) s1 hx hd
    (Facts.le_ins Γ t.idCounter p.numVars p.tbl) (fun _ => zerosP_pres hr hx.ready hx.pres rfl)
    (fun s hs hcar => ⟨_, (s6 s hs hcar).1, (s6 s hs hcar).2.1, (s6 s hs hcar).2.2.1, fun htr _ ho => (s6 s hs hcar).2.2.2 ho.2 htr⟩)
    (h ⟨t.idCounter, p.numVars⟩ _ _ hx (Facts.le_ins Γ _ _ _) rfl s4 (Facts.mem_ins ..))
  have e : (fun (pf : CompiledProof F C B) (H : Oracle F C) => VSt.getNextId >>= fun id => VSt.transferComm d id >>= fun x => g x pf H) =
      fun pf H => (VSt.getNextId >>= fun id => VSt.transferComm d id) >>= fun x => g x pf H := by
    funext pf H
    rw [Act.bind_assoc]
  rw [e]
  exact hfin

end rules

/-- Reading a table. -/
theorem c_eval {a : TPoly} {T : Nat → F} {f : List F → Oracle F C → Act (PTracker F C) α}
    {v : CompiledProof F C B → Oracle F C → Act (VSt F C B) β} (hr : Ready E.commit t) (ha : PH t a T)
    (h : ∀ t1, Ext E t t1 → GF E P N Sz (f ((List.range (2 ^ a.numVars)).map T)) v Γ t1 bounds Φ) :
    GF E P N Sz (fun H => a.evaluations >>= fun l => f l H) v Γ t bounds Φ := by
  have e := PTracker.evaluations_run hr.inv ha.nv
  have e2 : (List.range (2 ^ a.numVars)).map (fun b => t.gval (fun p => p.tbl b) a.id) = (List.range (2 ^ a.numVars)).map T :=
    List.map_congr_left fun b hb => ha.val b (List.mem_range.1 hb)
  rw [e2] at e
  obtain ⟨h1, h2, -⟩ := PTracker.matSt_spec hr.inv ha.nv
  have hl : SameLog t (t.matSt a.id a.numVars) ∧ (t.matSt a.id a.numVars).idCounter = t.idCounter := by
    unfold PTracker.matSt
    rcases t.mats.lookup a.id with _ | x
    · rcases t.virts.lookup a.id with _ | y
      · exact ⟨⟨rfl, rfl, rfl, rfl⟩, rfl⟩
      · exact ⟨⟨rfl, rfl, rfl, rfl⟩, rfl⟩
    · exact ⟨⟨rfl, rfl, rfl, rfl⟩, rfl⟩
  have hx := hl.1.ext hr h1 h2
  exact GF.pstep (m0 := a.evaluations) e hx hl.1.tr hl.2 hl.1.co hl.1.su hl.1.ze hr (h _ hx)

/-- A computation of the prover. -/
theorem c_lift {r : Res α0} {x : α0} {f : α0 → Oracle F C → Act (PTracker F C) α}
    {v : CompiledProof F C B → Oracle F C → Act (VSt F C B) β} (hr : Ready E.commit t) (hx : r = .ok x)
    (h : GF E P N Sz (f x) v Γ t bounds Φ) : GF E P N Sz (fun H => Act.lift r >>= fun a => f a H) v Γ t bounds Φ :=
  GF.pstep (m0 := Act.lift r) (a := x) (by rw [hx]; rfl) hr.ext rfl rfl rfl rfl rfl hr h

theorem c_assert {p : Prop} [Decidable p] {f : Unit → Oracle F C → Act (PTracker F C) α}
    {v : CompiledProof F C B → Oracle F C → Act (VSt F C B) β} (hr : Ready E.commit t) (hp : p)
    (h : GF E P N Sz (f ()) v Γ t bounds Φ) : GF E P N Sz (fun H => Act.assert p >>= fun a => f a H) v Γ t bounds Φ :=
  GF.pstep (m0 := Act.assert p) (a := ()) (Act.assert_true hp t) hr.ext rfl rfl rfl rfl rfl hr h

/-- A computation of the verifier. -/
theorem c_vlift {r : CompiledProof F C B → Res β0} {x : CompiledProof F C B → β0} {m : Oracle F C → Act (PTracker F C) α}
    {g : β0 → CompiledProof F C B → Oracle F C → Act (VSt F C B) β} (hx : ∀ pf, r pf = .ok (x pf))
    (h : GF E P N Sz m (fun pf => g (x pf) pf) Γ t bounds Φ) : GF E P N Sz m (fun pf H => Act.lift (r pf) >>= fun a => g a pf H) Γ t bounds Φ := by
  have : (fun (pf : CompiledProof F C B) (H : Oracle F C) => Act.lift (r pf) >>= fun a => g a pf H) = fun pf => g (x pf) pf := by
    funext pf H s
    rw [hx]; rfl
  rw [this]
  exact h

/-- Claiming that a polynomial vanishes. -/
theorem c_zero {a : TPoly} {nv : Nat} {T : Nat → F} {f : Unit → Oracle F C → Act (PTracker F C) α}
    {g : Unit → CompiledProof F C B → Oracle F C → Act (VSt F C B) β} (hr : Ready E.commit t) (hn : a.numVars = nv) (hp : PH t a T) (hi : Γ a.id nv T) (hT : Φ → ∀ b < 2 ^ nv, T b = 0)
    (h : ∀ t1, Ext E t t1 → GF E P N Sz (f ()) (g ()) Γ t1 bounds Φ) :
    GF E P N Sz (fun H => PTracker.addZeroClaim a.id >>= fun x => f x H) (fun pf H => VSt.addZeroClaim a.id >>= fun x => g x pf H) Γ t bounds Φ := by
  have hx : Ext E t { t with zeroClaims := t.zeroClaims ++ [a.id] } :=
    ⟨⟨hr.inv.matOk, hr.inv.virtOk, hr.inv.ptrs, hr.inv.commOk⟩, ⟨le_refl _, fun _ _ h => h, fun _ _ _ _ _ => rfl, fun _ _ h => h⟩,
      fun _ _ h => h, fun _ h => h, fun _ h => List.mem_append_left _ h,
      fun i h => (List.mem_append.1 h).imp_right fun h => ⟨_, (show i = a.id by simpa using h) ▸ hp.nv⟩,
      sumsP_pres hr ⟨⟨hr.inv.matOk, hr.inv.virtOk, hr.inv.ptrs, hr.inv.commOk⟩, hr.started⟩
        ⟨le_refl _, fun _ _ h => h, fun _ _ _ _ _ => rfl, fun _ _ h => h⟩ rfl, List.prefix_refl _, rfl, hr.started⟩
  refine GF.step (b := fun _ => ()) (a := ()) rfl hx (by rw [drawn_of (ev := []) (by simp)]; rfl) (le_refl _) ?_ ?_ (h _ hx)
  · intro hφ hz c hc
    rcases List.mem_append.1 hc with hc | hc
    · obtain ⟨a, T, h1, h2, h3⟩ := hz c hc
      exact ⟨a, T, h1, holdsP_pres hr hx.ready hx.pres h2, h3⟩
    · obtain rfl : c = a.id := by simpa using hc
      exact ⟨a, T, rfl, (hx.ph hp).holdsP hx.ready, by rw [hn]; exact hT hφ⟩
  intro s hs _
  have q := quiet_zeroClaim hs.sane (hs.known _ _ _ hi)
  refine ⟨_, rfl, ⟨q.sane, ⟨hs.tog.counter, hs.tog.transcript, hs.tog.comms, hs.tog.sums, ?_, hs.tog.read⟩, fun i nv T k => q.known (hs.known i nv T k)⟩,
    q.toLater, fun htr _ hΦ => ⟨htr.sized, htr.later hs q.toLater, ?_, ?_⟩⟩
  · show _ ++ _ = _ ++ _
    rw [hs.tog.zeros]
  · intro k hk
    rcases List.mem_append.1 hk with hk | hk
    · exact (q.vals hs.sane (hs.sane.zeros k hk)).2 (htr.claims.1 k hk)
    · obtain rfl : k = a.id := by simpa using hk
      refine (htr.later hs q.toLater _ _ _ hi).2.congr fun b _ => ?_
      have hm := Nat.mod_lt b (Nat.two_pow_pos nv)
      rcases hΦ.1 with hΦ | hz
      · exact hT hΦ _ hm
      · rw [← (hx.ph hp).val _ (by rw [hn]; exact hm)]
        exact hz a.id (by simp) a.numVars (hx.ph hp).nv _ (by rw [hn]; exact hm)
  · intro c hc
    obtain ⟨T, h1, h2⟩ := htr.claims.2 c hc
    exact ⟨T, (q.vals hs.sane (hs.sane.sums c hc)).2 h1, h2⟩

/-- The value a proof carries for a sum. -/
def claimOf (pf : CompiledProof F C B) (id : Nat) : F := (pf.sumcheckClaims.lookup id).getD 0

theorem TS.claim {pf : CompiledProof F C B} (h : TS N pf t) {id nv : Nat} {v : F} (hm : (id, v) ∈ t.sumClaims) (hn : t.HasNv id nv) :
    claimOf pf id = 2 ^ (N - nv) * v := by
  unfold claimOf
  rw [h _ hm nv hn]; rfl

/-- Claiming a sum. -/
theorem c_sum {a : TPoly} {v : F} {U : Nat → F} {f : Unit → Oracle F C → Act (PTracker F C) α}
    {g : F → CompiledProof F C B → Oracle F C → Act (VSt F C B) β} (hr : Ready E.commit t) (hp : PH t a U) (hi : Γ a.id a.numVars U)
    (hT : cubeSum a.numVars U = v)
    (h : ∀ t1, Ext E t t1 → (a.id, v) ∈ t1.sumClaims → GF E P N Sz (f ()) (fun pf => g (claimOf pf a.id) pf) Γ t1 bounds Φ) :
    GF E P N Sz (fun H => PTracker.addSumClaim a.id v >>= fun x => f x H)
      (fun pf H => VSt.claimedSum a.id >>= fun w => VSt.addSumClaim a.id w >>= fun _ => g w pf H) Γ t bounds Φ := by
  have hx : Ext E t { t with sumClaims := t.sumClaims ++ [(a.id, v)] } := by
    refine ⟨⟨hr.inv.matOk, hr.inv.virtOk, hr.inv.ptrs, hr.inv.commOk⟩, ⟨le_refl _, fun _ _ h => h, fun _ _ _ _ _ => rfl, fun _ _ h => h⟩,
      fun _ _ h => h, fun _ h => List.mem_append_left _ h, fun _ h => h, fun _ h => .inl h, ?_, List.prefix_refl _, rfl, hr.started⟩
    intro hz c hc
    have hr' : Ready E.commit { t with sumClaims := t.sumClaims ++ [(a.id, v)] } := ⟨⟨hr.inv.matOk, hr.inv.virtOk, hr.inv.ptrs, hr.inv.commOk⟩, hr.started⟩
    have hpr : PTracker.Pres t { t with sumClaims := t.sumClaims ++ [(a.id, v)] } := ⟨le_refl _, fun _ _ h => h, fun _ _ _ _ _ => rfl, fun _ _ h => h⟩
    rcases List.mem_append.1 hc with hc | hc
    · obtain ⟨a, T, h1, h2, h3⟩ := hz c hc
      exact ⟨a, T, h1, holdsP_pres hr hr' hpr h2, h3⟩
    · obtain rfl : c = (a.id, v) := by simpa using hc
      exact ⟨a, U, rfl, (hp.pres hpr).holdsP hr', hT⟩
  have hn := hp.nv
  have hmem : (a.id, v) ∈ t.sumClaims ++ [(a.id, v)] := by simp
  have hfin := GF.step (m0 := PTracker.addSumClaim a.id v) (v0 := VSt.claimedSum a.id >>= fun w => VSt.addSumClaim a.id w >>= fun _ => Pure.pure w)
    (f := f) (g := g) (b := fun pf => claimOf pf a.id) (a := ()) (P := P) (N := N) rfl hx (by rw [drawn_of (ev := []) (by simp)]; rfl) (le_refl Γ)
    (fun _ => zerosP_pres hr hx.ready hx.pres rfl) ?_ (h _ hx hmem)
  · have e : (fun (pf : CompiledProof F C B) (H : Oracle F C) => VSt.claimedSum a.id >>= fun w => VSt.addSumClaim a.id w >>= fun _ => g w pf H) =
        fun pf H => (VSt.claimedSum a.id >>= fun w => VSt.addSumClaim a.id w >>= fun _ => Pure.pure w) >>= fun w => g w pf H := by
      funext pf H
      rw [Act.bind_assoc]
      rfl
    rw [e]
    exact hfin
  · intro s hs hcar
    obtain ⟨w, hw⟩ := hcar.sums (a.id, v) hmem
    have hcl : claimOf s.own.proof a.id = w := by unfold claimOf; dsimp only at hw; rw [hw]; rfl
    have q := quiet_sumClaim (v := w) hs.sane (hs.known _ _ _ hi)
    refine ⟨_, ?_, ⟨q.sane, ⟨hs.tog.counter, hs.tog.transcript, hs.tog.comms, ?_, hs.tog.zeros, ?_⟩, fun i nv T k => q.known (hs.known i nv T k)⟩,
      q.toLater, fun htr hts hΦ => ⟨htr.sized, htr.later hs q.toLater, ?_, ?_⟩⟩
    · rw [Act.bind_ok (a := w) (s' := s) (by unfold VSt.claimedSum; rw [Act.reads_run, hw]; rfl), hcl]; rfl
    · show List.map _ (_ ++ _) = List.map _ (_ ++ _)
      rw [List.map_append, List.map_append, hs.tog.sums]; rfl
    · intro k hk
      rcases List.mem_append.1 hk with hk | hk
      · exact hs.tog.read k hk
      · obtain rfl : k = (a.id, w) := by simpa using hk
        exact hw
    · intro k hk
      exact (q.vals hs.sane (hs.sane.zeros k hk)).2 (htr.claims.1 k hk)
    · intro c hc
      rcases List.mem_append.1 hc with hc | hc
      · obtain ⟨T, h1, h2⟩ := htr.claims.2 c hc
        exact ⟨T, (q.vals hs.sane (hs.sane.sums c hc)).2 h1, h2⟩
      · obtain rfl : c = (a.id, w) := by simpa using hc
        have hU := htr.later hs q.toLater _ _ _ hi
        refine ⟨_, hU.2, ?_⟩
        rw [cubeSum_mod hU.1, hT, ← hcl, hts.claim hmem hn]

open Classical in
theorem c_chalB {l : String} {D : Nat} {f : F → Oracle F C → Act (PTracker F C) α} {g : F → CompiledProof F C B → Oracle F C → Act (VSt F C B) β}
    (hr : Ready E.commit t) (bad0 : Finset F) (hb : bad0.card ≤ D) (fb : F → List (TEvent F C) → Finset F)
    (h : ∀ c t1, Ext E t t1 →
      t1 = { t with transcript := { t.transcript with events := t.transcript.events ++ [TEvent.squeeze l] ++ [.absorb l (.elem c)], isEmpty := false } } →
      GFB (fb c) E P N Sz (f c) (g c) Γ t1 bounds (Φ ∧ c ∉ bad0)) :
    GFB (fun h => if h = t.transcript.events ++ [TEvent.squeeze l] then bad0 else fb (elemAfter (t.transcript.events ++ [TEvent.squeeze l]) h) h) E P N Sz
      (fun H => PTracker.challenge H l >>= fun c => f c H) (fun pf H => VSt.challenge H l >>= fun c => g c pf H) Γ t (D :: bounds) Φ := by
  set h0 := t.transcript.events ++ [TEvent.squeeze l] with hh0
  let tr : F → Transcript F C := fun c => { t.transcript with events := h0 ++ [.absorb l (.elem c)], isEmpty := false }
  let st : F → PTracker F C := fun c => { t with transcript := tr c }
  have hst : ∀ c, Ext E t (st c) := fun c => ⟨⟨hr.inv.matOk, hr.inv.virtOk, hr.inv.ptrs, hr.inv.commOk⟩,
    ⟨le_refl _, fun _ _ h => h, fun _ _ _ _ _ => rfl, fun _ _ h => h⟩, fun _ _ h => h, fun _ h => h, fun _ h => h, fun _ h => .inl h,
    sumsP_pres hr ⟨⟨hr.inv.matOk, hr.inv.virtOk, hr.inv.ptrs, hr.inv.commOk⟩, rfl⟩ ⟨le_refl _, fun _ _ h => h, fun _ _ _ _ _ => rfl, fun _ _ h => h⟩ rfl, ⟨[.squeeze l, .absorb l (.elem c)], by simp [st, tr, hh0]⟩, rfl, rfl⟩
  have hnc : ∀ c, drawn t (st c) = [h0] := fun c => by
    rw [drawn_of (ev := [.squeeze l, .absorb l (.elem c)]) (by simp [st, tr, hh0])]; rfl
  have hf := fun c => h c (st c) (hst c) rfl
  intro H
  set c := H t.transcript.label h0 with hc
  obtain ⟨a, t', h1, h2, h3, h4, hz5, h5⟩ := hf c H
  have hch : t.transcript.challenge H l = .ok (c, tr c) := by
    unfold Transcript.challenge
    rw [if_neg (by rw [hr.started]; simp)]
    rfl
  have hn := drawn_trans (hst c).events h2.events
  rw [hnc, List.singleton_append] at hn
  have hlate : ∀ h ∈ drawn (st c) t', h ≠ h0 ∧ elemAfter h0 h = c := by
    intro h hh
    obtain ⟨⟨r, rfl⟩, b⟩ := squeezes_longer _ _ h hh
    constructor
    · intro he
      rw [he] at b
      simp [st, tr] at b
    · show elemAfter h0 ((h0 ++ [.absorb l (.elem c)]) ++ r) = c
      unfold elemAfter
      rw [List.append_assoc, List.drop_left]
      rfl
  have havoid : (∀ h ∈ drawn t t', H t.transcript.label h ∉ (if h = h0 then bad0 else fb (elemAfter h0 h) h)) →
      c ∉ bad0 ∧ ∀ h ∈ drawn (st c) t', H (st c).transcript.label h ∉ fb c h := by
    intro ha
    rw [hn] at ha
    constructor
    · have := ha h0 (List.mem_cons_self ..)
      rwa [if_pos rfl] at this
    · intro h hh
      have := ha h (List.mem_cons_of_mem _ hh)
      obtain ⟨a1, a2⟩ := hlate h hh
      rw [if_neg a1, a2] at this
      exact this
  refine ⟨a, t', ?_, (hst c).trans h2, by rw [hn]; simp [h3], ?_,
    fun a3 a4 a5 => hz5 ⟨a3, (havoid a4).1⟩ (havoid a4).2 (zerosP_pres hr (hst c).ready (hst c).pres rfl a5), ?_⟩
  · show (PTracker.challenge H l >>= fun c => f c H) t = _
    rw [Act.bind_ok (a := c) (s' := st c) (by unfold PTracker.challenge; rw [hch]), h1]
  · intro k h hk
    rw [hn] at hk
    cases k with
    | zero =>
      obtain rfl : h0 = h := by simpa using hk
      simpa using hb
    | succ k =>
      have hk' : (drawn (st c) t')[k]? = some h := by simpa using hk
      obtain ⟨a1, a2⟩ := hlate h (List.mem_of_getElem? hk')
      simp only [if_neg a1, a2]
      simpa using h4 k h hk'
  · intro s hs hcar
    let s1 : VSt F C B := { s with own := { s.own with transcript := tr c } }
    have l1 : Later s s1 := ⟨⟨⟨hs.sane.wf.refs, hs.sane.wf.lt⟩, hs.sane.queries, hs.sane.mats, fun i d h => by
        have := hs.sane.absorbed i d h
        rw [hs.tog.transcript] at this
        show _ ∈ (t.transcript.events ++ [TEvent.squeeze l]) ++ _
        exact List.mem_append_left _ (List.mem_append_left _ this), hs.sane.sums, hs.sane.zeros⟩, ⟨le_refl _, fun _ _ h => h⟩, fun _ _ h => h,
      fun _ h => h, fun _ h => h, by rw [hs.tog.transcript]; exact (hst c).events, by rw [hs.tog.transcript], rfl⟩
    have m1 : Match Γ (st c) s1 := ⟨l1.sane, ⟨hs.tog.counter, rfl, hs.tog.comms, hs.tog.sums, hs.tog.zeros, hs.tog.read⟩, hs.known⟩
    have hrun : VSt.challenge H l s = (.ok c, s1) := by
      unfold VSt.challenge
      rw [hs.tog.transcript, hch]
    have htr : Truth E P N Sz Γ s → Truth E P N Sz Γ s1 := fun h => ⟨h.sized, h.later hs l1, ClaimsTrue.later hs.sane h.claims l1 rfl rfl⟩
    rcases h5 s1 m1 hcar with ⟨b, s', k1, k2, k3, k4⟩ | ⟨s', k1, k2⟩
    · refine .inl ⟨b, s', ?_, k2, l1.trans k3, fun a1 a2 a3 => k4 (htr a1) a2 ⟨a3.1.imp (fun h => ⟨⟨h.1, (havoid h.2).1⟩, (havoid h.2).2⟩) id, a3.2⟩⟩
      show (VSt.challenge H l >>= _) s = _
      rw [Act.bind_ok hrun]
      exact k1
    · refine .inr ⟨s', ?_, fun ⟨a2, a3, a4⟩ => k2 ⟨a2, ⟨a3, (havoid a4).1⟩, (havoid a4).2⟩⟩
      show (VSt.challenge H l >>= _) s = _
      rw [Act.bind_ok hrun]
      exact k1

/-- Drawing a challenge. -/
theorem c_chal {l : String} {D : Nat} {f : F → Oracle F C → Act (PTracker F C) α} {g : F → CompiledProof F C B → Oracle F C → Act (VSt F C B) β}
    (hr : Ready E.commit t) (bad0 : Finset F) (hb : bad0.card ≤ D)
    (h : ∀ c t1, Ext E t t1 → GF E P N Sz (f c) (g c) Γ t1 bounds (Φ ∧ c ∉ bad0)) :
    GF E P N Sz (fun H => PTracker.challenge H l >>= fun c => f c H) (fun pf H => VSt.challenge H l >>= fun c => g c pf H) Γ t (D :: bounds) Φ := by
  classical
  let st : F → PTracker F C := fun c =>
    { t with transcript := { t.transcript with events := t.transcript.events ++ [TEvent.squeeze l] ++ [.absorb l (.elem c)], isEmpty := false } }
  have hst : ∀ c, Ext E t (st c) := fun c => ⟨⟨hr.inv.matOk, hr.inv.virtOk, hr.inv.ptrs, hr.inv.commOk⟩,
    ⟨le_refl _, fun _ _ h => h, fun _ _ _ _ _ => rfl, fun _ _ h => h⟩, fun _ _ h => h, fun _ h => h, fun _ h => h, fun _ h => .inl h,
    sumsP_pres hr ⟨⟨hr.inv.matOk, hr.inv.virtOk, hr.inv.ptrs, hr.inv.commOk⟩, rfl⟩ ⟨le_refl _, fun _ _ h => h, fun _ _ _ _ _ => rfl, fun _ _ h => h⟩ rfl, ⟨[.squeeze l, .absorb l (.elem c)], by simp [st]⟩, rfl, rfl⟩
  choose fb hf using fun c => h c (st c) (hst c)
  exact ⟨_, c_chalB hr bad0 hb fb fun c t1 _ e => e ▸ hf c⟩

/-- Drawing the last challenge. -/
theorem c_chal_last {l : String} {D : Nat} {f : F → Oracle F C → Act (PTracker F C) α} {g : F → CompiledProof F C B → Oracle F C → Act (VSt F C B) β}
    (hr : Ready E.commit t) (bad0 : Finset F) (hb : bad0.card ≤ D)
    (h : ∀ c t1, Ext E t t1 → GF E P N Sz (f c) (g c) Γ t1 [] (Φ ∧ c ∉ bad0)) :
    GFB (fun _ => bad0) E P N Sz (fun H => PTracker.challenge H l >>= fun c => f c H) (fun pf H => VSt.challenge H l >>= fun c => g c pf H) Γ t [D] Φ := by
  classical
  have := c_chalB (l := l) hr bad0 hb (fun _ _ => bad0) fun c t1 x _ => (h c t1 x).nil _
  simpa only [ite_self] using this

/-- Comparing two values. -/
theorem c_compare {x y : CompiledProof F C B → F} {m : Oracle F C → Act (PTracker F C) α}
    {g : Unit → CompiledProof F C B → Oracle F C → Act (VSt F C B) β}
    (hxy : ∀ pf, TS N pf t → Φ → x pf = y pf)
    (h : GF E P N Sz m (fun pf => g () pf) Γ t bounds Φ) :
    GF E P N Sz m (fun pf H => (if x pf = y pf then Pure.pure () else Act.lift (.error (.err .invalidVerifier))) >>= fun a => g a pf H) Γ t bounds Φ := by
  obtain ⟨bad, h⟩ := h
  refine ⟨bad, fun H => ?_⟩
  obtain ⟨a', t', h1, h2, h3, h4, hz5, h5⟩ := h H
  refine ⟨a', t', h1, h2, h3, h4, hz5, fun s hs hc => ?_⟩
  by_cases he : x s.own.proof = y s.own.proof
  · simp only [he, if_true]
    exact h5 s hs hc
  · simp only [he, if_false]
    refine .inr ⟨s, rfl, fun ⟨a2, a3, _⟩ => he (hxy _ (a2.back h2) a3)⟩

/-- The two sides of a check, whatever follows. -/
def Cmp (E : Env F C) (P : C → List F → F) (N : Nat) (Sz : Prop) (m : Oracle F C → Act (PTracker F C) Unit) (v : Oracle F C → Act (VSt F C B) Unit)
    (Γ : Facts F) (t : PTracker F C) (b1 : List Nat) (Φ : Prop) : Prop :=
  ∀ (α β : Type) (f : Unit → Oracle F C → Act (PTracker F C) α) (g : Unit → CompiledProof F C B → Oracle F C → Act (VSt F C B) β) (b2 : List Nat),
    (∀ t1 Γ1, Ext E t t1 → Γ ≤ Γ1 → GF E P N Sz (f ()) (g ()) Γ1 t1 b2 Φ) →
      GF E P N Sz (fun H => m H >>= fun a => f a H) (fun pf H => v H >>= fun b => g b pf H) Γ t (b1 ++ b2) Φ

theorem Cmp.bind {m : Oracle F C → Act (PTracker F C) Unit} {v : Oracle F C → Act (VSt F C B) Unit}
    {f : Unit → Oracle F C → Act (PTracker F C) α} {g : Unit → CompiledProof F C B → Oracle F C → Act (VSt F C B) β}
    (h : Cmp E P N Sz m v Γ t b1 Φ) (k : ∀ t1 Γ1, Ext E t t1 → Γ ≤ Γ1 → GF E P N Sz (f ()) (g ()) Γ1 t1 b2 Φ) :
    GF E P N Sz (fun H => m H >>= fun a => f a H) (fun pf H => v H >>= fun b => g b pf H) Γ t (b1 ++ b2) Φ := h α β f g b2 k

theorem bind_unit {S : Type} (m : Act S Unit) : (m >>= fun a => (Pure.pure a : Act S Unit)) = m := by
  funext s
  rw [Act.bind_run]
  rcases m s with ⟨_ | _, _⟩ <;> rfl

theorem Cmp.gf {m : Oracle F C → Act (PTracker F C) Unit} {v : Oracle F C → Act (VSt F C B) Unit} (h : Cmp E P N Sz m v Γ t b1 Φ) :
    GF E P N Sz m (fun _ H => v H) Γ t b1 Φ := by
  have := h Unit Unit (fun a _ => Pure.pure a) (fun b _ _ => Pure.pure b) [] fun t1 Γ1 hx _ => GF.pure (b := fun _ => ()) hx.ready
  simp only [bind_unit, List.append_nil] at this
  exact this

/-- The statement of the specification. -/
theorem GFB.completes {bad : List (TEvent F C) → Finset F} {m : Env F C → Act (PTracker F C) α} {v : Env F C → Act (VSt F C B) β}
    {Inputs Contents : VSt F C B → Prop} {Valid Fits : Prop}
    (h : GFB bad E P N Fits (fun H => m (E.withH H)) (fun _ H => v (E.withH H)) Γ t b1 Valid)
    (hk : ∀ s : VSt F C B, Inputs s → ∀ i nv T, Γ i nv T → Known s i)
    (hv : ∀ s : VSt F C B, Contents s → ∀ i nv T, Γ i nv T → Holds s P N i nv T) :
    CompletesOutside bad E P N m v t b1 Inputs Contents Valid Fits := by
  intro H
  obtain ⟨a, t', h1, h2, h3, h4, hz5, h5⟩ := h H
  refine ⟨a, t', h1, h2.ready, h2.comms, h3, h4, h2.sumsOk, hz5, fun s hs ht hi hc => ?_⟩
  rcases h5 s ⟨hs, ht, hk s hi⟩ hc with ⟨b, s', k1, k2, k3, k4⟩ | ⟨s', k1, k2⟩
  · exact .inl ⟨b, s', k1, k2.sane, k2.tog, k3.proof, fun a0 a1 a2 a3 a4 aS a5 => k4 ⟨aS, hv s a1, a2⟩ a3.ts ⟨.inl ⟨a4, a5⟩, a0.ot h2.inv⟩⟩
  · exact .inr ⟨s', k1, fun ⟨a3, a4, a5⟩ => k2 ⟨a3.ts, a4, a5⟩⟩

theorem Cmp.completes {m : Env F C → Act (PTracker F C) Unit} {v : Env F C → Act (VSt F C B) Unit} {Inputs Contents : VSt F C B → Prop} {Valid Fits : Prop}
    (h : Cmp E P N Fits (fun H => m (E.withH H)) (fun H => v (E.withH H)) Γ t b1 Valid)
    (hk : ∀ s : VSt F C B, Inputs s → ∀ i nv T, Γ i nv T → Known s i)
    (hv : ∀ s : VSt F C B, Contents s → ∀ i nv T, Γ i nv T → Holds s P N i nv T) :
    Completes E P N m v t b1 Inputs Contents Valid Fits :=
  let ⟨bad, h'⟩ := h.gf
  ⟨bad, h'.completes hk hv⟩

/-! ### Knowledge about inputs -/

/-- No facts. -/
def Facts.none : Facts F := fun _ _ _ => False

/-- The facts about a bag. -/
def Facts.insBag (Γ : Facts F) (b : Bag) (T : BagTab F) : Facts F := (Γ.ins b.poly.id T.nv T.val).ins b.selector.id T.nv T.sel

section
variable {s : VSt F C B}

theorem known_none : ∀ i nv T, (Facts.none : Facts F) i nv T → Known s i := fun _ _ _ h => h.elim
theorem holds_none : ∀ i nv T, (Facts.none : Facts F) i nv T → Holds s P N i nv T := fun _ _ _ h => h.elim

theorem known_ins {i nv : Nat} {T : Nat → F} (h : Known s i) (hΓ : ∀ i nv T, Γ i nv T → Known s i) : ∀ j m U, Γ.ins i nv T j m U → Known s j := by
  rintro j m U (h' | ⟨rfl, -, -⟩)
  · exact hΓ j m U h'
  · exact h

theorem holds_ins {i nv : Nat} {T : Nat → F} (h : Holds s P N i nv T) (hΓ : ∀ i nv T, Γ i nv T → Holds s P N i nv T) :
    ∀ j m U, Γ.ins i nv T j m U → Holds s P N j m U := by
  rintro j m U (h' | ⟨rfl, rfl, rfl⟩)
  · exact hΓ j m U h'
  · exact h

theorem known_bag {b : Bag} {T : BagTab F} (h : KnownBag s (sameBag b)) (hΓ : ∀ i nv T, Γ i nv T → Known s i) :
    ∀ j m U, Γ.insBag b T j m U → Known s j := known_ins h.2 (known_ins h.1 hΓ)

theorem holds_bag {b : Bag} {T : BagTab F} (h : HoldsBag s P N (sameBag b) T) (hΓ : ∀ i nv T, Γ i nv T → Holds s P N i nv T) :
    ∀ j m U, Γ.insBag b T j m U → Holds s P N j m U := holds_ins h.sel (holds_ins h.val hΓ)

end
end
end Zksql
