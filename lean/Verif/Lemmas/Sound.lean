import Verif.Lemmas.VerifierTracker
import Verif.Spec.Iop
/-! Verifier states that follow one another, and composing soundness statements. -/
set_option linter.unusedSectionVars false
namespace Zksql
open Spec
variable {F C B α : Type} [Field F] [DecidableEq F]
variable {E : Env F C} {s s1 s2 s' : VSt F C B} {N : Nat} {P : C → List F → F}

/-- A well-formed state that follows another: nothing known is forgotten or changed. -/
structure Later (s s' : VSt F C B) : Prop where
  sane : Sane s'
  keep : VSt.VKeep s s'
  mats : ∀ i c, s.own.matComms.lookup i = some c → s'.own.matComms.lookup i = some c
  zeros : ∀ h ∈ s.own.zeroClaims, h ∈ s'.own.zeroClaims
  sums : ∀ c ∈ s.own.sumClaims, c ∈ s'.own.sumClaims
  events : s.own.transcript.events <+: s'.own.transcript.events
  label : s'.own.transcript.label = s.own.transcript.label
  proof : s'.own.proof = s.own.proof

theorem Later.refl (h : Sane s) : Later s s :=
  ⟨h, VSt.VKeep.refl s, fun _ _ h => h, fun _ h => h, fun _ h => h, List.prefix_refl _, rfl, rfl⟩

theorem Later.trans (h1 : Later s s1) (h2 : Later s1 s2) : Later s s2 :=
  ⟨h2.sane, h1.keep.trans h2.keep, fun i c h => h2.mats i c (h1.mats i c h), fun i h => h2.zeros i (h1.zeros i h),
    fun i h => h2.sums i (h1.sums i h), h1.events.trans h2.events, h2.label.trans h1.label, h2.proof.trans h1.proof⟩

theorem Later.known (h : Later s s') {i : Nat} (k : Known s i) : Known s' i := h.keep.known k
theorem Later.look (h : Later s s') {i : Nat} {c : VComm F} (k : s.sh.comms.lookup i = some c) : s'.sh.comms.lookup i = some c := h.keep.comms i c k
theorem Later.mat (h : Later s s') {i : Nat} {c : C} (k : s.own.matComms.lookup i = some c) : s'.own.matComms.lookup i = some c := h.mats i c k
theorem known_look {i : Nat} {c : VComm F} (k : s.sh.comms.lookup i = some c) : Known s i := by unfold Known; rw [k]; rfl

/-! ### Values persist -/

theorem evalC_ans {comms : List (Nat × VComm F)} {ans ans' : Nat → List F → Res F}
    (h : ∀ j i, comms.lookup j = some (.query i) → ∀ x, ans i x = ans' i x) (n id : Nat) (x : List F) :
    VSt.evalC comms ans n id x = VSt.evalC comms ans' n id x := by
  induction n generalizing id x with
  | zero => rfl
  | succ n ih =>
    rw [VSt.evalC_succ, VSt.evalC_succ]
    rcases hc : comms.lookup id with _ | c
    · rfl
    · have : VSt.evalC comms ans n = VSt.evalC comms ans' n := by funext i y; exact ih i y
      simp only [this]
      cases c with
      | query i => exact h id i hc x
      | _ => rfl

theorem Later.value (h : Later s s') (hs : Sane s) {i : Nat} (k : Known s i) (x : List F) : valueAt s' P i x = valueAt s P i x := by
  unfold valueAt
  rw [VSt.evalC_mono hs.wf.refs h.keep.comms _ _ k]
  apply evalC_ans
  intro j i hj y
  obtain ⟨c, hc⟩ := Option.isSome_iff_exists.1 (hs.queries j i hj)
  unfold answer
  rw [hc, h.mats i c hc]

theorem Later.vals (h : Later s s') (hs : Sane s) {i : Nat} (k : Known s i) {T : Nat → F} : Vals s' P N i T ↔ Vals s P N i T := by
  unfold Vals
  simp only [h.value hs k]

theorem Later.holds (h : Later s s') (hs : Sane s) {i nv : Nat} (k : Known s i) {T : Nat → F} : Holds s' P N i nv T ↔ Holds s P N i nv T := by
  unfold Holds
  rw [h.vals hs k]

theorem Later.holdsBag (h : Later s s') (hs : Sane s) {b : BagComm} (k : KnownBag s b) {t : BagTab F} : HoldsBag s' P N b t ↔ HoldsBag s P N b t := by
  constructor
  · rintro ⟨a, b, c⟩
    exact ⟨a, (h.holds hs k.1).1 b, (h.holds hs k.2).1 c⟩
  · rintro ⟨a, b, c⟩
    exact ⟨a, (h.holds hs k.1).2 b, (h.holds hs k.2).2 c⟩

theorem Later.knownBag (h : Later s s') {b : BagComm} (k : KnownBag s b) : KnownBag s' b := ⟨h.known k.1, h.known k.2⟩

theorem Later.claims (h : Later s s') (hs : Sane s) (hc : ClaimsTrue P N s') : ClaimsTrue P N s := by
  refine ⟨fun i hi => (h.vals hs (hs.zeros i hi)).1 (hc.1 i (h.zeros i hi)), fun c hi => ?_⟩
  obtain ⟨T, h1, h2⟩ := hc.2 c (h.sums c hi)
  exact ⟨T, (h.vals hs (hs.sums c hi)).1 h1, h2⟩

theorem valueAt_congr {P P' : C → List F → F} (h : ∀ i c, s.own.matComms.lookup i = some c → P c = P' c) (i : Nat) (x : List F) :
    valueAt s P i x = valueAt s P' i x := by
  have : answer s P = answer s P' := by
    funext j y
    unfold answer
    rcases hl : s.own.matComms.lookup j with _ | c
    · rfl
    · simp only [h j c hl]
  unfold valueAt
  rw [this]

/-! ### Values of handles -/

theorem Spec.Vals.unique {i : Nat} {T T' : Nat → F} (h : Vals s P N i T) (h' : Vals s P N i T') {b : Nat} (hb : b < 2 ^ N) : T b = T' b :=
  Except.ok.inj ((h b hb).symm.trans (h' b hb))

theorem Spec.Vals.congr {i : Nat} {T T' : Nat → F} (h : Vals s P N i T) (e : ∀ b < 2 ^ N, T b = T' b) : Vals s P N i T' := fun b hb => by
  rw [h b hb, e b hb]

theorem valueAt_look (hs : Sane s) {i : Nat} {c : VComm F} (k : s.sh.comms.lookup i = some c) (x : List F) :
    valueAt s P i x = VSt.evalStep (answer s P) (valueAt s P) c x := VSt.evalC_unfold hs.wf.refs k x

variable {i j h : Nat} {T T' : Nat → F}

theorem vals_add (hs : Sane s) (k : s.sh.comms.lookup h = some (.add i j)) (h1 : Vals s P N i T) (h2 : Vals s P N j T') :
    Vals s P N h fun b => T b + T' b := fun b hb => by
  rw [valueAt_look hs k, VSt.evalStep, h1 b hb, h2 b hb]; rfl

theorem vals_sub (hs : Sane s) (k : s.sh.comms.lookup h = some (.sub i j)) (h1 : Vals s P N i T) (h2 : Vals s P N j T') :
    Vals s P N h fun b => T b - T' b := fun b hb => by
  rw [valueAt_look hs k, VSt.evalStep, h1 b hb, h2 b hb]; rfl

theorem vals_mul (hs : Sane s) (k : s.sh.comms.lookup h = some (.mul i j)) (h1 : Vals s P N i T) (h2 : Vals s P N j T') :
    Vals s P N h fun b => T b * T' b := fun b hb => by
  rw [valueAt_look hs k, VSt.evalStep, h1 b hb, h2 b hb]; rfl

theorem vals_addScalar (hs : Sane s) {c : F} (k : s.sh.comms.lookup h = some (.addScalar i c)) (h1 : Vals s P N i T) :
    Vals s P N h fun b => T b + c := fun b hb => by
  rw [valueAt_look hs k, VSt.evalStep, h1 b hb]; rfl

theorem vals_mulScalar (hs : Sane s) {c : F} (k : s.sh.comms.lookup h = some (.mulScalar i c)) (h1 : Vals s P N i T) :
    Vals s P N h fun b => c * T b := fun b hb => by
  rw [valueAt_look hs k, VSt.evalStep, h1 b hb]; rfl

theorem vals_fn (hs : Sane s) {f : List F → Res F} (k : s.sh.comms.lookup h = some (.fn f)) (h1 : ∀ b < 2 ^ N, f (boolPt N b) = .ok (T b)) :
    Vals s P N h T := fun b hb => by
  rw [valueAt_look hs k, VSt.evalStep, h1 b hb]

theorem vals_query (hs : Sane s) {c : C} (k : s.sh.comms.lookup h = some (.query i)) (m : s.own.matComms.lookup i = some c) :
    Vals s P N h fun b => P c (boolPt N b) := fun b hb => by
  rw [valueAt_look hs k, VSt.evalStep, answer, m]

theorem vals_one (hs : Sane s) (k : s.sh.comms.lookup h = some (oneFn F)) : Vals s P N h fun _ => 1 := vals_fn hs k fun _ _ => rfl

theorem Spec.Holds.vals {nv : Nat} (h0 : Holds s P N i nv T) : Vals s P N i fun b => T (b % 2 ^ nv) := h0.2

theorem Spec.ClaimsTrue.zero (hc : ClaimsTrue P N s) (hz : h ∈ s.own.zeroClaims) (hv : Vals s P N h T) {b : Nat} (hb : b < 2 ^ N) : T b = 0 :=
  hv.unique (hc.1 h hz) hb

theorem cubeSum_unique {T' : Nat → F} (h1 : Vals s P N h T) (h2 : Vals s P N h T') : cubeSum N T = cubeSum N T' :=
  Finset.sum_congr rfl fun _ hb => h1.unique h2 (Finset.mem_range.1 hb)

theorem Spec.ClaimsTrue.sum (hc : ClaimsTrue P N s) {v : F} (hz : (h, v) ∈ s.own.sumClaims) (hv : Vals s P N h T) : cubeSum N T = v := by
  obtain ⟨T', h1, h2⟩ := hc.2 _ hz
  rw [show v = cubeSum N T' from h2.symm]
  exact Finset.sum_congr rfl fun b hb => hv.unique h1 (Finset.mem_range.1 hb)

/-! ### Challenges -/

theorem squeezes_append (pre a b : List (TEvent F C)) : squeezes pre (a ++ b) = squeezes pre a ++ squeezes (pre ++ a) b := by
  induction a generalizing pre with
  | nil => simp [squeezes]
  | cons x a ih =>
    cases x with
    | absorb l d => simp only [List.cons_append, squeezes, ih]; simp
    | squeeze l => simp only [List.cons_append, squeezes, ih]; simp

theorem newChallenges_of {ev : List (TEvent F C)} (h : s'.own.transcript.events = s.own.transcript.events ++ ev) :
    newChallenges s s' = squeezes s.own.transcript.events ev := by
  unfold newChallenges
  rw [h, List.drop_left]

theorem newChallenges_trans (h1 : s.own.transcript.events <+: s1.own.transcript.events) (h2 : s1.own.transcript.events <+: s2.own.transcript.events) :
    newChallenges s s2 = newChallenges s s1 ++ newChallenges s1 s2 := by
  obtain ⟨a, ha⟩ := h1
  obtain ⟨b, hb⟩ := h2
  rw [newChallenges_of ha.symm, newChallenges_of hb.symm, newChallenges_of (ev := a ++ b) (by rw [← hb, ← ha, List.append_assoc]), squeezes_append, ha]

/-- A following state before which no challenge was drawn. -/
structure Quiet (s s' : VSt F C B) : Prop extends Later s s' where
  nc : newChallenges s s' = []

theorem Quiet.refl (h : Sane s) : Quiet s s := ⟨Later.refl h, by rw [newChallenges_of (ev := []) (by simp)]; rfl⟩
theorem Quiet.trans (h1 : Quiet s s1) (h2 : Quiet s1 s2) : Quiet s s2 :=
  ⟨h1.toLater.trans h2.toLater, by rw [newChallenges_trans h1.events h2.events, h1.nc, h2.nc]; rfl⟩

/-- The same, hidden from the search for earlier states. -/
structure Whole (s s' : VSt F C B) : Prop where
  q : Quiet s s'

/-! ### Soundness of calls -/

/-- The same state with another proof and other sum claims. -/
def VSt.upd (s : VSt F C B) (pf : CompiledProof F C B) (sc : List (Nat × F)) : VSt F C B := { s with own := { s.own with proof := pf, sumClaims := sc } }

/-- The sum claims include those of the state and are about known handles. -/
structure SumsFor (s : VSt F C B) (sc : List (Nat × F)) : Prop where
  sub : ∀ c ∈ s.own.sumClaims, c ∈ sc
  known : ∀ c ∈ sc, Known s c.1

theorem Spec.Sane.upd (hs : Sane s) {pf : CompiledProof F C B} {sc : List (Nat × F)} (h : SumsFor s sc) : Sane (s.upd pf sc) :=
  ⟨⟨hs.wf.refs, hs.wf.lt⟩, hs.queries, hs.mats, hs.absorbed, h.known, hs.zeros⟩

theorem claims_upd {pf : CompiledProof F C B} {sc : List (Nat × F)} (h : SumsFor s sc) (hc : ClaimsTrue P N (s.upd pf sc)) : ClaimsTrue P N s :=
  ⟨hc.1, fun c hi => hc.2 c (h.sub c hi)⟩

theorem SumsFor.later {sc : List (Nat × F)} (h : SumsFor s sc) (q : Later s s1) (e : s1.own.sumClaims = s.own.sumClaims) : SumsFor s1 sc :=
  ⟨fun c hc => h.sub c (e ▸ hc), fun c hc => q.known (h.known c hc)⟩

theorem Later.upd {pf : CompiledProof F C B} {sc : List (Nat × F)} (q : Later s s1) (h : SumsFor s sc) : Later (s.upd pf sc) (s1.upd pf sc) :=
  ⟨⟨⟨q.sane.wf.refs, q.sane.wf.lt⟩, q.sane.queries, q.sane.mats, q.sane.absorbed, fun c hc => q.known (h.known c hc), q.sane.zeros⟩,
    ⟨q.keep.1, q.keep.2⟩, q.mats, q.zeros, fun _ h => h, q.events, q.label, rfl⟩

/-- Soundness of calls, uniformly in an index and in the proof, with the states they lead to. -/
def SoundI {ι : Type} (V : ι → Oracle F C → Act (VSt F C B) α) (s : VSt F C B) (N : Nat) (bounds : List Nat)
    (Concl : ι → CompiledProof F C B → (C → List F → F) → Prop) : Prop :=
  ∃ bad : List (TEvent F C) → (C → List F → F) → Finset F, ∀ (i : ι) (pf : CompiledProof F C B) (sc : List (Nat × F)), SumsFor s sc →
    ∀ (H : Oracle F C) (a : α) (s' : VSt F C B), V i H (s.upd pf sc) = (.ok a, s') → Later (s.upd pf sc) s' ∧
    (newChallenges (s.upd pf sc) s').length = bounds.length ∧
    (∀ k h, (newChallenges (s.upd pf sc) s')[k]? = some h → (∀ P, (bad h P).card ≤ bounds.getD k 0) ∧
      ∀ P P' : C → List F → F, (∀ c, TEvent.absorb "comm" (.comm c) ∈ h → P c = P' c) → bad h P = bad h P') ∧
    ∀ P, ClaimsTrue P N s' → (∀ h ∈ newChallenges (s.upd pf sc) s', H s.own.transcript.label h ∉ bad h P) → Concl i pf P

/-- Soundness of a call, whatever the proof is. -/
def SoundF (V : Oracle F C → Act (VSt F C B) α) (s : VSt F C B) (N : Nat) (bounds : List Nat)
    (Concl : CompiledProof F C B → (C → List F → F) → Prop) : Prop := SoundI (fun _ : Unit => V) s N bounds fun _ => Concl

section
variable {β ι : Type} {b1 b2 bounds : List Nat} {C1 C2 Concl : CompiledProof F C B → (C → List F → F) → Prop} {V : Oracle F C → Act (VSt F C B) α}

theorem SoundF.except (h : SoundF V s N bounds Concl) (hs : Sane s) : SoundExcept V s N bounds Concl := by
  obtain ⟨bad, h⟩ := h
  exact ⟨bad, fun pf H a s' e => (h () pf s.own.sumClaims ⟨fun _ h => h, hs.sums⟩ H a s' e).2⟩

theorem SoundI.mono {V : ι → Oracle F C → Act (VSt F C B) α} {C1 C2 : ι → CompiledProof F C B → (C → List F → F) → Prop} (h : SoundI V s N bounds C1) (hs : Sane s)
    (hc : ∀ {i pf} P, ClaimsTrue P N s → C1 i pf P → C2 i pf P) : SoundI V s N bounds C2 := by
  obtain ⟨bad, h⟩ := h
  refine ⟨bad, fun i pf sc hsc H a s' e => ?_⟩
  obtain ⟨h1, h2, h3, h4⟩ := h i pf sc hsc H a s' e
  exact ⟨h1, h2, h3, fun P hP hb => hc P (claims_upd hsc (h1.claims (hs.upd hsc) hP)) (h4 P hP hb)⟩

theorem SoundF.mono (h : SoundF V s N bounds C1) (hs : Sane s) (hc : ∀ {pf} P, ClaimsTrue P N s → C1 pf P → C2 pf P) : SoundF V s N bounds C2 :=
  SoundI.mono h hs fun P h1 h2 => hc P h1 h2

/-- Another index. -/
theorem SoundI.comap {κ : Type} {V : κ → Oracle F C → Act (VSt F C B) α} {Concl : κ → CompiledProof F C B → (C → List F → F) → Prop} (f : ι → κ)
    (h : SoundI V s N bounds Concl) : SoundI (fun i => V (f i)) s N bounds fun i => Concl (f i) := by
  obtain ⟨bad, h⟩ := h
  exact ⟨bad, fun i => h (f i)⟩

/-- The same call for every index. -/
theorem SoundF.const (h : SoundF V s N bounds Concl) : SoundI (fun _ : ι => V) s N bounds fun _ => Concl := by
  obtain ⟨bad, h⟩ := h
  exact ⟨bad, fun _ pf sc => h () pf sc⟩

/-- The end of a call. -/
theorem SoundF.pure {a : α} (hs : Sane s) (hc : ∀ {pf} P, ClaimsTrue P N s → Concl pf P) : SoundF (fun _ => (Pure.pure a : Act (VSt F C B) α)) s N [] Concl := by
  refine ⟨fun _ _ => ∅, fun i pf sc hsc H a s' e => ?_⟩
  obtain ⟨-, rfl⟩ := Prod.mk.inj e
  have hs' := hs.upd (pf := pf) hsc
  refine ⟨Later.refl hs', by rw [(Quiet.refl hs').nc]; rfl, by rw [(Quiet.refl hs').nc]; simp, fun P hP _ => hc P (claims_upd hsc hP)⟩

/-- A call that fails. -/
theorem SoundI.fail {V : ι → Oracle F C → Act (VSt F C B) α} {Concl : ι → CompiledProof F C B → (C → List F → F) → Prop}
    (h : ∀ i H t a s', V i H t ≠ (.ok a, s')) : SoundI V s N bounds Concl :=
  ⟨fun _ _ => ∅, fun i pf sc _ H a s' e => absurd e (h i H _ a s')⟩

/-- A step that draws no challenge and does not look at the proof. -/
theorem SoundI.step {m : Act (VSt F C B) β} {b : β} {K : ι → β → Oracle F C → Act (VSt F C B) α} {Concl : ι → CompiledProof F C B → (C → List F → F) → Prop}
    (hm : ∀ pf sc, m (s.upd pf sc) = (.ok b, s1.upd pf sc)) (q : Quiet s s1) (e : s1.own.sumClaims = s.own.sumClaims)
    (h : SoundI (fun i => K i b) s1 N bounds Concl) : SoundI (fun i H => m >>= fun b => K i b H) s N bounds Concl := by
  obtain ⟨bad, h⟩ := h
  refine ⟨bad, fun i pf sc hsc H a s' e' => ?_⟩
  beta_reduce at e'
  rw [Act.bind_ok (hm pf sc)] at e'
  obtain ⟨h1, h2, h3, h4⟩ := h i pf sc (hsc.later q.toLater e) H a s' e'
  have L : Later (s.upd pf sc) (s1.upd pf sc) := q.toLater.upd hsc
  have hn := newChallenges_trans L.events h1.events
  rw [show newChallenges (s.upd pf sc) (s1.upd pf sc) = [] from q.nc, List.nil_append] at hn
  rw [hn]
  refine ⟨L.trans h1, h2, h3, fun P hP hb => h4 P hP fun h hh => ?_⟩
  rw [q.label]
  exact hb h hh

/-- The element absorbed after a history. -/
def elemAfter (h0 h : List (TEvent F C)) : F :=
  match h.drop h0.length with
  | .absorb _ (.elem c) :: _ => c
  | _ => 0

/-- The event after a history. -/
def eventAfter (h0 h : List (TEvent F C)) : Option (TEvent F C) := (h.drop h0.length).head?

theorem squeezes_longer (pre ev : List (TEvent F C)) : ∀ h ∈ squeezes pre ev, pre <+: h ∧ pre.length < h.length := by
  induction ev generalizing pre with
  | nil => simp [squeezes]
  | cons e ev ih =>
    cases e with
    | absorb l d =>
      intro h hh
      obtain ⟨a, b⟩ := ih _ h hh
      exact ⟨(List.prefix_append _ _).trans a, by simp at b; omega⟩
    | squeeze l =>
      intro h hh
      rcases List.mem_cons.1 hh with rfl | hh
      · exact ⟨List.prefix_append _ _, by simp⟩
      · obtain ⟨a, b⟩ := ih _ h hh
        exact ⟨(List.prefix_append _ _).trans a, by simp at b; omega⟩

theorem eventAfter_of {h0 h : List (TEvent F C)} {e : TEvent F C} (hp : (h0 ++ [e]) <+: h) : eventAfter h0 h = some e := by
  obtain ⟨r, rfl⟩ := hp
  unfold eventAfter
  rw [List.append_assoc, List.drop_left]
  rfl

/-- Receiving the next commitment of the proof. -/
theorem SoundI.transfer {d : Bool} {K : ι → Nat → Oracle F C → Act (VSt F C B) α} {Concl : ι → CompiledProof F C B → (C → List F → F) → Prop}
    (hq : ∀ c, Quiet s (s.pushMat c))
    (h : ∀ c, SoundI (fun i => K i s.own.idCounter) (s.pushMat c) N bounds fun i pf P => pf.comms.lookup s.own.idCounter = some c → Concl i pf P) :
    SoundI (fun i H => VSt.getNextId >>= fun id => VSt.transferComm d id >>= fun x => K i x H) s N bounds Concl := by
  classical
  choose f hf using h
  refine ⟨fun h P => if hx : ∃ c, eventAfter s.own.transcript.events h = some (.absorb "comm" (.comm c)) then f hx.choose h P else ∅, fun i pf sc hsc H a s' e => ?_⟩
  obtain ⟨id, s0, e0, e⟩ := Act.bind_eq_ok.1 e
  obtain ⟨rfl, rfl⟩ : s.own.idCounter = id ∧ s.upd pf sc = s0 := by
    obtain ⟨a, b⟩ := Prod.mk.inj e0
    exact ⟨Except.ok.inj a, b⟩
  obtain ⟨n, s1, e1, e⟩ := Act.bind_eq_ok.1 e
  obtain ⟨c, hc, rfl, rfl⟩ := transferComm_inv e1
  have q := hq c
  obtain ⟨h1, h2, h3, h4⟩ := hf c i pf sc (hsc.later q.toLater rfl) H a s' e
  have L : Later (s.upd pf sc) ((s.pushMat c).upd pf sc) := q.toLater.upd hsc
  have hn := newChallenges_trans L.events h1.events
  rw [show newChallenges (s.upd pf sc) ((s.pushMat c).upd pf sc) = [] from q.nc, List.nil_append] at hn
  rw [hn]
  have hev : ∀ h ∈ newChallenges ((s.pushMat c).upd pf sc) s', (if hx : ∃ c, eventAfter s.own.transcript.events h = some (.absorb "comm" (.comm c)) then f hx.choose h else fun _ => ∅) = f c h := by
    intro h hh
    have e := eventAfter_of (h0 := s.own.transcript.events) (e := .absorb "comm" (.comm c)) (squeezes_longer _ _ h hh).1
    have hx : ∃ c, eventAfter s.own.transcript.events h = some (.absorb "comm" (.comm c)) := ⟨c, e⟩
    rw [dif_pos hx]
    have := hx.choose_spec.symm.trans e
    rw [Option.some.injEq] at this
    injection this with _ this
    injection this with this
    rw [this]
  have hev' : ∀ h ∈ newChallenges ((s.pushMat c).upd pf sc) s', ∀ P, (if hx : ∃ c, eventAfter s.own.transcript.events h = some (.absorb "comm" (.comm c)) then f hx.choose h P else ∅) = f c h P := by
    intro h hh P
    rw [← hev h hh]
    split <;> rfl
  refine ⟨L.trans h1, h2, fun k h hk => ?_, fun P hP hb => h4 P hP (fun h hh => ?_) hc⟩
  · have hm := List.mem_of_getElem? hk
    simp only [hev' h hm]
    exact h3 k h hk
  · have := hb h hh
    beta_reduce at this
    rw [hev' h hh] at this
    exact this

/-- Reading a claimed sum: the index grows. -/
theorem SoundI.claimedSum {j : Nat} {K : ι → F → Oracle F C → Act (VSt F C B) α} {Concl : ι → CompiledProof F C B → (C → List F → F) → Prop}
    (h : SoundI (fun (i : ι × F) => K i.1 i.2) s N bounds fun i => Concl i.1) :
    SoundI (fun i H => VSt.claimedSum j >>= fun v => K i v H) s N bounds Concl := by
  obtain ⟨bad, h⟩ := h
  refine ⟨bad, fun i pf sc hsc H a s' e => ?_⟩
  obtain ⟨v, s1, e1, e⟩ := Act.bind_eq_ok.1 e
  obtain ⟨-, rfl⟩ := Prod.mk.inj e1
  exact h (i, v) pf sc hsc H a s' e

/-- Recording a sum claim. -/
theorem SoundI.sumClaim {j : Nat} {v : ι → F} {K : ι → Unit → Oracle F C → Act (VSt F C B) α} {Concl : ι → CompiledProof F C B → (C → List F → F) → Prop}
    (hs : Sane s) (k : Known s j)
    (h : SoundI (fun i => K i ()) s N bounds fun i pf P => (∃ T, Vals s P N j T ∧ cubeSum N T = v i) → Concl i pf P) :
    SoundI (fun i H => VSt.addSumClaim j (v i) >>= fun u => K i u H) s N bounds Concl := by
  obtain ⟨bad, h⟩ := h
  refine ⟨bad, fun i pf sc hsc H a s' e => ?_⟩
  obtain ⟨u, s1, e1, e⟩ := Act.bind_eq_ok.1 e
  obtain ⟨-, rfl⟩ := Prod.mk.inj e1
  have hsc' : SumsFor s (sc ++ [(j, v i)]) := ⟨fun c hc => List.mem_append_left _ (hsc.sub c hc), fun c hc => by
    rcases List.mem_append.1 hc with hc | hc
    · exact hsc.known c hc
    · obtain rfl : c = _ := by simpa using hc
      exact k⟩
  obtain ⟨h1, h2, h3, h4⟩ := h i pf (sc ++ [(j, v i)]) hsc' H a s' e
  have L : Later (s.upd pf sc) (s.upd pf (sc ++ [(j, v i)])) :=
    ⟨hs.upd hsc', ⟨le_refl _, fun _ _ h => h⟩, fun _ _ h => h, fun _ h => h, fun _ h => List.mem_append_left _ h, List.prefix_refl _, rfl, rfl⟩
  refine ⟨L.trans h1, h2, h3, fun P hP hb => h4 P hP hb ?_⟩
  obtain ⟨T, t1, t2⟩ := (h1.claims (hs.upd hsc') hP).2 (j, v i) (by simp [VSt.upd])
  exact ⟨T, t1, t2⟩

/-- Comparing what was read from the proof. -/
theorem SoundI.guard {c : ι → Prop} [∀ i, Decidable (c i)] {e : Fail} {K : ι → Unit → Oracle F C → Act (VSt F C B) α} {Concl : ι → CompiledProof F C B → (C → List F → F) → Prop}
    (h : SoundI (fun i => K i ()) s N bounds fun i pf P => c i → Concl i pf P) :
    SoundI (fun i H => (if c i then Pure.pure () else Act.lift (.error e) : Act (VSt F C B) Unit) >>= fun u => K i u H) s N bounds Concl := by
  obtain ⟨bad, h⟩ := h
  refine ⟨bad, fun i pf sc hsc H a s' e' => ?_⟩
  beta_reduce at e'
  by_cases hc : c i
  · rw [if_pos hc] at e'
    obtain ⟨h1, h2, h3, h4⟩ := h i pf sc hsc H a s' e'
    exact ⟨h1, h2, h3, fun P hP hb => h4 P hP hb hc⟩
  · rw [if_neg hc, Act.bind_error (m := Act.lift (.error e)) (s := s.upd pf sc) (s' := s.upd pf sc) (e := e) rfl] at e'
    simp at e'

/-- A pure computation that may fail. -/
theorem SoundI.lift {r : ι → Res β} {K : ι → β → Oracle F C → Act (VSt F C B) α} {Concl : ι → CompiledProof F C B → (C → List F → F) → Prop}
    (h : SoundI (fun (i : ι × β) => K i.1 i.2) s N bounds fun i pf P => r i.1 = .ok i.2 → Concl i.1 pf P) :
    SoundI (fun i H => (Act.lift (r i) : Act (VSt F C B) β) >>= fun b => K i b H) s N bounds Concl := by
  obtain ⟨bad, h⟩ := h
  refine ⟨bad, fun i pf sc hsc H a s' e => ?_⟩
  obtain ⟨b, s1, e1, e⟩ := Act.bind_eq_ok.1 e
  obtain ⟨hb, rfl⟩ := Prod.mk.inj e1
  obtain ⟨h1, h2, h3, h4⟩ := h (i, b) pf sc hsc H a s' e
  exact ⟨h1, h2, h3, fun P hP hbad => h4 P hP hbad hb⟩

/-- Drawing a challenge that must avoid exceptional values. -/
theorem SoundF.chal {l : String} {D : Nat} {K : F → Oracle F C → Act (VSt F C B) α} (hs : Sane s) (bad0 : (C → List F → F) → Finset F)
    (hb : ∀ P, (bad0 P).card ≤ D)
    (hd : ∀ P P' : C → List F → F, (∀ i c, s.own.matComms.lookup i = some c → P c = P' c) → bad0 P = bad0 P')
    (h : ∀ c s1, Later s s1 → SoundF (K c) s1 N bounds fun pf P => c ∉ bad0 P → Concl pf P) :
    SoundF (fun H => VSt.challenge H l >>= fun c => K c H) s N (D :: bounds) Concl := by
  classical
  let st : F → VSt F C B := fun c => { s with own := { s.own with transcript :=
    { s.own.transcript with events := (s.own.transcript.events ++ [.squeeze l]) ++ [.absorb l (.elem c)], isEmpty := false } } }
  have hst : ∀ c, Later s (st c) := fun c => ⟨⟨⟨hs.wf.refs, hs.wf.lt⟩, hs.queries, hs.mats, fun i d h =>
    List.mem_append_left _ (List.mem_append_left _ (hs.absorbed i d h)), hs.sums, hs.zeros⟩, ⟨le_refl _, fun _ _ h => h⟩, fun _ _ h => h,
    fun _ h => h, fun _ h => h, ⟨[.squeeze l, .absorb l (.elem c)], by simp [st]⟩, rfl, rfl⟩
  have hnc : ∀ c, newChallenges s (st c) = [s.own.transcript.events ++ [.squeeze l]] := fun c => by
    rw [newChallenges_of (ev := [.squeeze l, .absorb l (.elem c)]) (by simp [st])]; rfl
  choose f hf using fun c => h c (st c) (hst c)
  set h0 := s.own.transcript.events ++ [TEvent.squeeze l] with hh0
  refine ⟨fun h P => if h = h0 then bad0 P else f (elemAfter h0 h) h P, fun i pf sc hsc H a s' e => ?_⟩
  obtain ⟨c, s1, e1, e⟩ := Act.bind_eq_ok.1 e
  obtain ⟨rfl, rfl⟩ : c = H s.own.transcript.label h0 ∧ s1 = (st c).upd pf sc := by
    unfold VSt.challenge Transcript.challenge at e1
    by_cases he : s.own.transcript.isEmpty
    · simp [VSt.upd, he] at e1
    · simp only [VSt.upd, he, Bool.false_eq_true, if_false] at e1
      obtain ⟨e2, rfl⟩ := Prod.mk.inj e1
      obtain rfl := Except.ok.inj e2
      exact ⟨rfl, rfl⟩
  set c := H s.own.transcript.label h0
  obtain ⟨h1, h2, h3, h4⟩ := hf c () pf sc (hsc.later (hst c) rfl) H a s' e
  have L : Later (s.upd pf sc) ((st c).upd pf sc) := (hst c).upd hsc
  have hn := newChallenges_trans L.events h1.events
  rw [show newChallenges (s.upd pf sc) ((st c).upd pf sc) = [h0] from hnc c, List.singleton_append] at hn
  have hlate : ∀ h ∈ newChallenges ((st c).upd pf sc) s', h ≠ h0 ∧ elemAfter h0 h = c := by
    intro h hh
    obtain ⟨⟨r, rfl⟩, b⟩ := squeezes_longer _ _ h hh
    constructor
    · intro he
      rw [he] at b
      simp [VSt.upd, st, hh0] at b
    · show elemAfter h0 ((h0 ++ [.absorb l (.elem c)]) ++ r) = c
      unfold elemAfter
      rw [List.append_assoc, List.drop_left]
      rfl
  refine ⟨L.trans h1, by rw [hn]; simp [h2], ?_, ?_⟩
  · intro k h hk
    rw [hn] at hk
    cases k with
    | zero =>
      obtain rfl : h0 = h := by simpa using hk
      simp only [if_true]
      refine ⟨fun P => by simpa using hb P, fun P P' hP => hd P P' fun i d hi => hP d ?_⟩
      exact List.mem_append_left _ (hs.absorbed i d hi)
    | succ k =>
      have hk' : (newChallenges ((st c).upd pf sc) s')[k]? = some h := by simpa using hk
      obtain ⟨a1, a2⟩ := hlate h (List.mem_of_getElem? hk')
      simp only [if_neg a1, a2]
      obtain ⟨b1, b2⟩ := h3 k h hk'
      exact ⟨fun P => by simpa using b1 P, b2⟩
  · intro P hP hbad
    rw [hn] at hbad
    refine h4 P hP (fun h hh => ?_) ?_
    · have := hbad h (List.mem_cons_of_mem _ hh)
      obtain ⟨a1, a2⟩ := hlate h hh
      beta_reduce at this
      rw [if_neg a1, a2] at this
      exact this
    · have := hbad h0 (List.mem_cons_self ..)
      beta_reduce at this
      rwa [if_pos rfl] at this

/-- Soundness of a call, whatever follows it; the conclusion may speak about the proof. -/
def SndP (V : Oracle F C → Act (VSt F C B) α) (s : VSt F C B) (N : Nat) (b1 : List Nat) (C1 : CompiledProof F C B → (C → List F → F) → Prop) : Prop :=
  ∀ (β : Type) (K : α → Oracle F C → Act (VSt F C B) β) (b2 : List Nat) (Concl : CompiledProof F C B → (C → List F → F) → Prop),
    (∀ a s1, Later s s1 → SoundF (K a) s1 N b2 fun pf P => C1 pf P → Concl pf P) → SoundF (fun H => V H >>= fun a => K a H) s N (b1 ++ b2) Concl

/-- Soundness of a call, whatever follows it. -/
def Snd (V : Oracle F C → Act (VSt F C B) α) (s : VSt F C B) (N : Nat) (b1 : List Nat) (C1 : (C → List F → F) → Prop) : Prop := SndP V s N b1 fun _ => C1

theorem SndP.bind {K : α → Oracle F C → Act (VSt F C B) β} (h : SndP V s N b1 C1)
    (hK : ∀ a s1, Later s s1 → SoundF (K a) s1 N b2 fun pf P => C1 pf P → Concl pf P) : SoundF (fun H => V H >>= fun a => K a H) s N (b1 ++ b2) Concl :=
  h β K b2 Concl hK

theorem SndP.mono (h : SndP V s N b1 C1) (hs : Sane s) (hc : ∀ {pf} P, ClaimsTrue P N s → C1 pf P → C2 pf P) : SndP V s N b1 C2 := fun _ K b2 _ hK =>
  h.bind fun a s1 L => (hK a s1 L).mono L.sane fun P hP k h1 => k (hc P (L.claims hs hP) h1)

theorem SndP.soundF (h : SndP V s N b1 C1) : SoundF V s N b1 C1 := by
  have := h _ (fun a _ => Pure.pure a) [] C1 fun a s1 L => SoundF.pure L.sane fun P _ h => h
  have he : (fun H => V H >>= fun a => (Pure.pure a : Act (VSt F C B) α)) = V := by
    funext H s
    show (V H >>= Pure.pure) s = _
    rw [Act.bind_run]
    rcases V H s with ⟨_ | _, _⟩ <;> rfl
  rwa [he, List.append_nil] at this

theorem SndP.except (hs : Sane s) (h : SndP V s N b1 C1) : SoundExcept V s N b1 C1 := h.soundF.except hs

variable {D1 D2 : (C → List F → F) → Prop}

theorem Snd.bind {K : α → Oracle F C → Act (VSt F C B) β} (h : Snd V s N b1 D1)
    (hK : ∀ a s1, Later s s1 → SoundF (K a) s1 N b2 fun pf P => D1 P → Concl pf P) : SoundF (fun H => V H >>= fun a => K a H) s N (b1 ++ b2) Concl :=
  SndP.bind h hK

theorem Snd.mono (h : Snd V s N b1 D1) (hs : Sane s) (hc : ∀ P, ClaimsTrue P N s → D1 P → D2 P) : Snd V s N b1 D2 :=
  SndP.mono h hs fun P h1 h2 => hc P h1 h2

theorem Snd.except (hs : Sane s) (h : Snd V s N b1 D1) : SoundExcept V s N b1 fun _ => D1 := SndP.except hs h

end

/-! ### Primitive steps -/

theorem quiet_push (hs : Sane s) {c : VComm F} (hc : ∀ r ∈ c.refs, Known s r) (hq : ∀ i, c ≠ .query i) : Quiet s (s.push c) := by
  have hk := VSt.keep_push hs.wf c
  refine ⟨⟨⟨VSt.wf_push hs.wf hc, ?_, fun i d h => Nat.lt_succ_of_lt (hs.mats i d h), hs.absorbed, fun d h => hk.known (hs.sums d h),
    fun d h => hk.known (hs.zeros d h)⟩, hk, fun _ _ h => h, fun _ h => h, fun _ h => h, List.prefix_refl _, rfl, rfl⟩, ?_⟩
  · intro h i hl
    rw [VSt.push_lookup] at hl
    split at hl
    · exact absurd (Option.some.inj hl) (hq i)
    · exact hs.queries h i hl
  · rw [newChallenges_of (ev := []) (by simp [VSt.push])]; rfl

theorem quiet_skip (hs : Sane s) : Quiet s s.skip := by
  refine ⟨⟨⟨VSt.wf_skip hs.wf, hs.queries, fun i d h => Nat.lt_succ_of_lt (hs.mats i d h), hs.absorbed, hs.sums, hs.zeros⟩,
    ⟨Nat.le_succ _, fun _ _ h => h⟩, fun _ _ h => h, fun _ h => h, fun _ h => h, List.prefix_refl _, rfl, rfl⟩, ?_⟩
  rw [newChallenges_of (ev := []) (by simp [VSt.skip])]; rfl

theorem quiet_pushMat (hs : Sane s) (c : C) : Quiet s (s.pushMat c) := by
  have hk := VSt.keep_pushMat hs.wf c
  have hm : ∀ i d, (s.pushMat c).own.matComms.lookup i = some d → (i = s.own.idCounter ∧ d = c) ∨ s.own.matComms.lookup i = some d := by
    intro i d h
    simp only [VSt.pushMat, lookup_amInsert] at h
    split at h
    · rename_i e
      exact .inl ⟨e, (Option.some.inj h).symm⟩
    · exact .inr h
  have hm2 : ∀ i d, s.own.matComms.lookup i = some d → (s.pushMat c).own.matComms.lookup i = some d := by
    intro i d h
    have := hs.mats i d h
    simp only [VSt.pushMat, lookup_amInsert]
    rw [if_neg (by omega)]
    exact h
  refine ⟨⟨⟨VSt.wf_pushMat hs.wf c, ?_, ?_, ?_, fun d h => hk.known (hs.sums d h), fun d h => hk.known (hs.zeros d h)⟩, hk, hm2,
    fun _ h => h, fun _ h => h, ⟨[.absorb "comm" (.comm c)], rfl⟩, rfl, rfl⟩, ?_⟩
  · intro h i hl
    rw [VSt.pushMat_lookup] at hl
    split at hl
    · obtain rfl : s.own.idCounter = i := by simpa using hl
      simp [VSt.pushMat, lookup_amInsert]
    · obtain ⟨d, hd⟩ := Option.isSome_iff_exists.1 (hs.queries h i hl)
      rw [hm2 i d hd]; rfl
  · intro i d h
    rcases hm i d h with ⟨rfl, -⟩ | h
    · exact Nat.lt_succ_self _
    · exact Nat.lt_succ_of_lt (hs.mats i d h)
  · intro i d h
    show _ ∈ s.own.transcript.events ++ [TEvent.absorb "comm" (.comm c)]
    rcases hm i d h with ⟨-, rfl⟩ | h
    · simp
    · exact List.mem_append_left _ (hs.absorbed i d h)
  · rw [newChallenges_of (ev := [.absorb "comm" (.comm c)]) rfl]; rfl

theorem quiet_sumClaim (hs : Sane s) {v : F} (k : Known s h) :
    Quiet s { s with own := { s.own with sumClaims := s.own.sumClaims ++ [(h, v)] } } := by
  refine ⟨⟨⟨⟨hs.wf.refs, hs.wf.lt⟩, hs.queries, hs.mats, hs.absorbed, ?_, hs.zeros⟩,
    ⟨le_refl _, fun _ _ h => h⟩, fun _ _ h => h, fun _ h => h, fun _ h => List.mem_append_left _ h, List.prefix_refl _, rfl, rfl⟩, ?_⟩
  · intro c hc
    rcases List.mem_append.1 hc with hc | hc
    · exact hs.sums c hc
    · obtain rfl : c = _ := by simpa using hc
      exact k
  · rw [newChallenges_of (ev := []) (by simp)]; rfl

theorem quiet_zeroClaim (hs : Sane s) (k : Known s h) :
    Quiet s { s with own := { s.own with zeroClaims := s.own.zeroClaims ++ [h] } } := by
  refine ⟨⟨⟨⟨hs.wf.refs, hs.wf.lt⟩, hs.queries, hs.mats, hs.absorbed, hs.sums, ?_⟩,
    ⟨le_refl _, fun _ _ h => h⟩, fun _ _ h => h, fun _ h => List.mem_append_left _ h, fun _ h => h, List.prefix_refl _, rfl, rfl⟩, ?_⟩
  · intro c hc
    rcases List.mem_append.1 hc with hc | hc
    · exact hs.zeros c hc
    · obtain rfl : c = _ := by simpa using hc
      exact k
  · rw [newChallenges_of (ev := []) (by simp)]; rfl

/-! ### Running a protocol step by step -/

variable {f : Nat → Act (VSt F C B) α} {r : α}

theorem run_virtual {c : VComm F} (e : (VSt.trackVirtual c >>= f) s = (.ok r, s')) (hs : Sane s) (hc : ∀ r ∈ c.refs, Known s r)
    (hq : ∀ i, c ≠ .query i) : ∃ h s1, f h s1 = (.ok r, s') ∧ Quiet s s1 ∧ s1.sh.comms.lookup h = some c := by
  rw [Act.bind_ok (VSt.trackVirtual_run c s)] at e
  exact ⟨_, _, e, quiet_push hs hc hq, by rw [VSt.push_lookup, if_pos rfl]⟩

theorem run_add (e : (VSt.addComms i j >>= f) s = (.ok r, s')) (hs : Sane s) (hi : Known s i) (hj : Known s j) :
    ∃ h s1, f h s1 = (.ok r, s') ∧ Quiet s s1 ∧ s1.sh.comms.lookup h = some (.add i j) := run_virtual e hs (refs2 hi hj) nofun

theorem run_sub (e : (VSt.subComms i j >>= f) s = (.ok r, s')) (hs : Sane s) (hi : Known s i) (hj : Known s j) :
    ∃ h s1, f h s1 = (.ok r, s') ∧ Quiet s s1 ∧ s1.sh.comms.lookup h = some (.sub i j) := run_virtual e hs (refs2 hi hj) nofun

theorem run_mul (e : (VSt.mulComms i j >>= f) s = (.ok r, s')) (hs : Sane s) (hi : Known s i) (hj : Known s j) :
    ∃ h s1, f h s1 = (.ok r, s') ∧ Quiet s s1 ∧ s1.sh.comms.lookup h = some (.mul i j) := run_virtual e hs (refs2 hi hj) nofun

theorem run_mulScalar {c : F} (e : (VSt.mulScalar i c >>= f) s = (.ok r, s')) (hs : Sane s) (hi : Known s i) :
    ∃ h s1, f h s1 = (.ok r, s') ∧ Quiet s s1 ∧ s1.sh.comms.lookup h = some (.mulScalar i c) := run_virtual e hs (refs1 hi) nofun

theorem run_addScalar {c : F} (e : (VSt.addScalar i c >>= f) s = (.ok r, s')) (hs : Sane s) (hi : Known s i) :
    ∃ h s1, f h s1 = (.ok r, s') ∧ Quiet s s1 ∧ s1.sh.comms.lookup h = some (.addScalar i c) := by
  rw [Act.bind_ok (VSt.addScalar_run i c s)] at e
  have q := quiet_skip hs
  refine ⟨_, _, e, q.trans (quiet_push q.sane (refs1 (P := fun r => Known s.skip r) (q.known hi)) nofun), ?_⟩
  rw [VSt.push_lookup, if_pos]
  rfl

theorem run_fn {g : List F → Res F} (e : (VSt.trackVirtual (.fn g) >>= f) s = (.ok r, s')) (hs : Sane s) :
    ∃ h s1, f h s1 = (.ok r, s') ∧ Quiet s s1 ∧ s1.sh.comms.lookup h = some (.fn g) := run_virtual e hs (by simp [VComm.refs]) nofun

/-- Receiving the next commitment of the proof. -/
theorem run_transfer {d : Bool} (e : (VSt.getNextId >>= fun id => VSt.transferComm d id >>= f) s = (.ok r, s')) (hs : Sane s) :
    ∃ h c s1, f h s1 = (.ok r, s') ∧ Quiet s s1 ∧ s1.sh.comms.lookup h = some (.query h) ∧ s1.own.matComms.lookup h = some c ∧
      s.own.proof.comms.lookup s.own.idCounter = some c := by
  obtain ⟨id, s0, e0, e⟩ := Act.bind_eq_ok.1 e
  obtain ⟨rfl, rfl⟩ : s.own.idCounter = id ∧ s = s0 := by
    obtain ⟨a, b⟩ := Prod.mk.inj e0
    exact ⟨Except.ok.inj a, b⟩
  obtain ⟨n, s1, e1, e⟩ := Act.bind_eq_ok.1 e
  obtain ⟨c, hc, rfl, rfl⟩ := transferComm_inv e1
  exact ⟨_, c, _, e, quiet_pushMat hs c, by rw [VSt.pushMat_lookup, if_pos rfl], by simp [VSt.pushMat, lookup_amInsert], hc⟩

/-- The same, with the identifier that follows. -/
theorem run_transfer_id {d : Bool} (e : (VSt.getNextId >>= fun id => VSt.transferComm d id >>= f) s = (.ok r, s')) (hs : Sane s) :
    ∃ h c s1, f h s1 = (.ok r, s') ∧ Quiet s s1 ∧ s1.sh.comms.lookup h = some (.query h) ∧ s1.own.matComms.lookup h = some c ∧
      s.own.proof.comms.lookup s.own.idCounter = some c ∧ s1.own.idCounter = s.own.idCounter + 1 := by
  obtain ⟨id, s0, e0, e⟩ := Act.bind_eq_ok.1 e
  obtain ⟨rfl, rfl⟩ : s.own.idCounter = id ∧ s = s0 := by
    obtain ⟨a, b⟩ := Prod.mk.inj e0
    exact ⟨Except.ok.inj a, b⟩
  obtain ⟨n, s1, e1, e⟩ := Act.bind_eq_ok.1 e
  obtain ⟨c, hc, rfl, rfl⟩ := transferComm_inv e1
  exact ⟨_, c, _, e, quiet_pushMat hs c, by rw [VSt.pushMat_lookup, if_pos rfl], by simp [VSt.pushMat, lookup_amInsert], hc, rfl⟩

theorem run_zeroClaim {g : Unit → Act (VSt F C B) α} (e : (VSt.addZeroClaim h >>= g) s = (.ok r, s')) (hs : Sane s) (k : Known s h) :
    ∃ s1, g () s1 = (.ok r, s') ∧ Quiet s s1 ∧ h ∈ s1.own.zeroClaims := by
  obtain ⟨_, s1, e1, e⟩ := Act.bind_eq_ok.1 e
  obtain ⟨-, rfl⟩ := Prod.mk.inj e1
  exact ⟨_, e, quiet_zeroClaim hs k, by simp⟩

theorem run_zeroClaim' (e : VSt.addZeroClaim h s = (.ok (), s')) (hs : Sane s) (k : Known s h) : Quiet s s' ∧ h ∈ s'.own.zeroClaims := by
  obtain ⟨-, rfl⟩ := Prod.mk.inj e
  exact ⟨quiet_zeroClaim hs k, by simp⟩

theorem run_sumClaim {g : Unit → Act (VSt F C B) α} {v : F} (e : (VSt.addSumClaim h v >>= g) s = (.ok r, s')) (hs : Sane s) (k : Known s h) :
    ∃ s1, g () s1 = (.ok r, s') ∧ Quiet s s1 ∧ (h, v) ∈ s1.own.sumClaims := by
  obtain ⟨_, s1, e1, e⟩ := Act.bind_eq_ok.1 e
  obtain ⟨-, rfl⟩ := Prod.mk.inj e1
  exact ⟨_, e, quiet_sumClaim hs k, by simp⟩

theorem run_claimedSum {g : F → Act (VSt F C B) α} (e : (VSt.claimedSum h >>= g) s = (.ok r, s')) :
    ∃ v, g v s = (.ok r, s') ∧ s.own.proof.sumcheckClaims.lookup h = some v := by
  obtain ⟨v, s1, e1, e⟩ := Act.bind_eq_ok.1 e
  obtain ⟨hv, rfl⟩ := Prod.mk.inj e1
  refine ⟨v, e, ?_⟩
  beta_reduce at hv
  rcases hl : s.own.proof.sumcheckClaims.lookup h with _ | d
  · rw [hl] at hv; simp at hv
  · rw [hl] at hv; simpa using hv

/-- Drawing a challenge. -/
theorem run_challenge {l : String} {g : F → Act (VSt F C B) α} (e : (VSt.challenge E.H l >>= g) s = (.ok r, s')) (hs : Sane s) :
    ∃ s1, g (E.H s.own.transcript.label (s.own.transcript.events ++ [.squeeze l])) s1 = (.ok r, s') ∧ Later s s1 ∧
      newChallenges s s1 = [s.own.transcript.events ++ [.squeeze l]] := by
  obtain ⟨c, s1, e1, e⟩ := Act.bind_eq_ok.1 e
  unfold VSt.challenge Transcript.challenge at e1
  by_cases he : s.own.transcript.isEmpty
  · simp [he] at e1
  · simp only [he, Bool.false_eq_true, if_false] at e1
    obtain ⟨e2, rfl⟩ := Prod.mk.inj e1
    obtain rfl := Except.ok.inj e2
    refine ⟨_, e, ⟨⟨⟨hs.wf.refs, hs.wf.lt⟩, hs.queries, hs.mats, ?_, hs.sums, hs.zeros⟩, ⟨le_refl _, fun _ _ h => h⟩, fun _ _ h => h,
      fun _ h => h, fun _ h => h, ?_, rfl, rfl⟩, ?_⟩
    · intro i c h
      simp only [Transcript.append]
      exact List.mem_append_left _ (List.mem_append_left _ (hs.absorbed i c h))
    · simp only [Transcript.append, List.append_assoc]
      exact List.prefix_append _ _
    · rw [newChallenges_of (ev := [.squeeze l, .absorb l (.elem (E.H s.own.transcript.label (s.own.transcript.events ++ [.squeeze l])))]) (by
        simp [Transcript.append])]
      rfl


/-! ### The same, as rules for soundness -/

section
variable {ι : Type} {bounds : List Nat} {Concl : ι → CompiledProof F C B → (C → List F → F) → Prop} {K : ι → Nat → Oracle F C → Act (VSt F C B) α}
  {Concl' : CompiledProof F C B → (C → List F → F) → Prop} {K' : Nat → Oracle F C → Act (VSt F C B) α}

theorem step_addI (hs : Sane s) (hi : Known s i) (hj : Known s j)
    (h : ∀ x s1, Quiet s s1 → s1.sh.comms.lookup x = some (.add i j) → SoundI (fun w => K w x) s1 N bounds Concl) :
    SoundI (fun w H => VSt.addComms i j >>= fun x => K w x H) s N bounds Concl :=
  have q : Quiet s (s.push (.add i j)) := quiet_push hs (refs2 hi hj) nofun
  SoundI.step (b := s.own.idCounter) (s1 := s.push _) (fun pf sc => VSt.trackVirtual_run (.add i j) (s.upd pf sc)) q rfl (h _ _ q (by rw [VSt.push_lookup, if_pos rfl]))

theorem step_add (hs : Sane s) (hi : Known s i) (hj : Known s j)
    (h : ∀ x s1, Quiet s s1 → s1.sh.comms.lookup x = some (.add i j) → SoundF (K' x) s1 N bounds Concl') :
    SoundF (fun H => VSt.addComms i j >>= fun x => K' x H) s N bounds Concl' := step_addI (K := fun _ => K') hs hi hj h

theorem step_subI (hs : Sane s) (hi : Known s i) (hj : Known s j)
    (h : ∀ x s1, Quiet s s1 → s1.sh.comms.lookup x = some (.sub i j) → SoundI (fun w => K w x) s1 N bounds Concl) :
    SoundI (fun w H => VSt.subComms i j >>= fun x => K w x H) s N bounds Concl :=
  have q : Quiet s (s.push (.sub i j)) := quiet_push hs (refs2 hi hj) nofun
  SoundI.step (b := s.own.idCounter) (s1 := s.push _) (fun pf sc => VSt.trackVirtual_run (.sub i j) (s.upd pf sc)) q rfl (h _ _ q (by rw [VSt.push_lookup, if_pos rfl]))

theorem step_sub (hs : Sane s) (hi : Known s i) (hj : Known s j)
    (h : ∀ x s1, Quiet s s1 → s1.sh.comms.lookup x = some (.sub i j) → SoundF (K' x) s1 N bounds Concl') :
    SoundF (fun H => VSt.subComms i j >>= fun x => K' x H) s N bounds Concl' := step_subI (K := fun _ => K') hs hi hj h

theorem step_mulI (hs : Sane s) (hi : Known s i) (hj : Known s j)
    (h : ∀ x s1, Quiet s s1 → s1.sh.comms.lookup x = some (.mul i j) → SoundI (fun w => K w x) s1 N bounds Concl) :
    SoundI (fun w H => VSt.mulComms i j >>= fun x => K w x H) s N bounds Concl :=
  have q : Quiet s (s.push (.mul i j)) := quiet_push hs (refs2 hi hj) nofun
  SoundI.step (b := s.own.idCounter) (s1 := s.push _) (fun pf sc => VSt.trackVirtual_run (.mul i j) (s.upd pf sc)) q rfl (h _ _ q (by rw [VSt.push_lookup, if_pos rfl]))

theorem step_mul (hs : Sane s) (hi : Known s i) (hj : Known s j)
    (h : ∀ x s1, Quiet s s1 → s1.sh.comms.lookup x = some (.mul i j) → SoundF (K' x) s1 N bounds Concl') :
    SoundF (fun H => VSt.mulComms i j >>= fun x => K' x H) s N bounds Concl' := step_mulI (K := fun _ => K') hs hi hj h

theorem step_mulScalarI {c : F} (hs : Sane s) (hi : Known s i)
    (h : ∀ x s1, Quiet s s1 → s1.sh.comms.lookup x = some (.mulScalar i c) → SoundI (fun w => K w x) s1 N bounds Concl) :
    SoundI (fun w H => VSt.mulScalar i c >>= fun x => K w x H) s N bounds Concl :=
  have q : Quiet s (s.push (.mulScalar i c)) := quiet_push hs (refs1 hi) nofun
  SoundI.step (b := s.own.idCounter) (s1 := s.push _) (fun pf sc => VSt.trackVirtual_run (.mulScalar i c) (s.upd pf sc)) q rfl (h _ _ q (by rw [VSt.push_lookup, if_pos rfl]))

theorem step_mulScalar {c : F} (hs : Sane s) (hi : Known s i)
    (h : ∀ x s1, Quiet s s1 → s1.sh.comms.lookup x = some (.mulScalar i c) → SoundF (K' x) s1 N bounds Concl') :
    SoundF (fun H => VSt.mulScalar i c >>= fun x => K' x H) s N bounds Concl' := step_mulScalarI (K := fun _ => K') hs hi h

theorem step_addScalarI {c : F} (hs : Sane s) (hi : Known s i)
    (h : ∀ x s1, Quiet s s1 → s1.sh.comms.lookup x = some (.addScalar i c) → SoundI (fun w => K w x) s1 N bounds Concl) :
    SoundI (fun w H => VSt.addScalar i c >>= fun x => K w x H) s N bounds Concl :=
  have q := quiet_skip hs
  have q' := q.trans (quiet_push (c := .addScalar i c) q.sane (refs1 (P := fun r => Known s.skip r) (q.known hi)) nofun)
  SoundI.step (fun pf sc => VSt.addScalar_run i c (s.upd pf sc)) q' rfl (h _ _ q' (by rw [VSt.push_lookup, if_pos]; rfl))

theorem step_addScalar {c : F} (hs : Sane s) (hi : Known s i)
    (h : ∀ x s1, Quiet s s1 → s1.sh.comms.lookup x = some (.addScalar i c) → SoundF (K' x) s1 N bounds Concl') :
    SoundF (fun H => VSt.addScalar i c >>= fun x => K' x H) s N bounds Concl' := step_addScalarI (K := fun _ => K') hs hi h

theorem step_fnI {g : List F → Res F} (hs : Sane s) 
    (h : ∀ x s1, Quiet s s1 → s1.sh.comms.lookup x = some (.fn g) → SoundI (fun w => K w x) s1 N bounds Concl) :
    SoundI (fun w H => VSt.trackVirtual (.fn g) >>= fun x => K w x H) s N bounds Concl :=
  have q : Quiet s (s.push (.fn g)) := quiet_push hs (by simp [VComm.refs]) nofun
  SoundI.step (b := s.own.idCounter) (s1 := s.push _) (fun pf sc => VSt.trackVirtual_run (.fn g) (s.upd pf sc)) q rfl (h _ _ q (by rw [VSt.push_lookup, if_pos rfl]))

theorem step_fn {g : List F → Res F} (hs : Sane s) 
    (h : ∀ x s1, Quiet s s1 → s1.sh.comms.lookup x = some (.fn g) → SoundF (K' x) s1 N bounds Concl') :
    SoundF (fun H => VSt.trackVirtual (.fn g) >>= fun x => K' x H) s N bounds Concl' := step_fnI (K := fun _ => K') hs h

theorem step_transferI {d : Bool} (hs : Sane s)
    (h : ∀ x c s1, Quiet s s1 → s1.sh.comms.lookup x = some (.query x) → s1.own.matComms.lookup x = some c → x = s.own.idCounter →
      s1.own.idCounter = s.own.idCounter + 1 → SoundI (fun w => K w x) s1 N bounds fun i pf P => pf.comms.lookup s.own.idCounter = some c → Concl i pf P) :
    SoundI (fun w H => VSt.getNextId >>= fun id => VSt.transferComm d id >>= fun x => K w x H) s N bounds Concl :=
  SoundI.transfer (fun c => quiet_pushMat hs c) fun c =>
    h _ c _ (quiet_pushMat hs c) (by rw [VSt.pushMat_lookup, if_pos rfl]) (by simp [VSt.pushMat, lookup_amInsert]) rfl rfl

/-- Receiving a commitment, with what the proof says. -/
theorem step_transferP {d : Bool} (hs : Sane s)
    (h : ∀ x c s1, Quiet s s1 → s1.sh.comms.lookup x = some (.query x) → s1.own.matComms.lookup x = some c → x = s.own.idCounter →
      s1.own.idCounter = s.own.idCounter + 1 → SoundF (K' x) s1 N bounds fun pf P => pf.comms.lookup s.own.idCounter = some c → Concl' pf P) :
    SoundF (fun H => VSt.getNextId >>= fun id => VSt.transferComm d id >>= fun x => K' x H) s N bounds Concl' := step_transferI (K := fun _ => K') hs h

theorem step_transfer {d : Bool} (hs : Sane s)
    (h : ∀ x c s1, Quiet s s1 → s1.sh.comms.lookup x = some (.query x) → s1.own.matComms.lookup x = some c → SoundF (K' x) s1 N bounds Concl') :
    SoundF (fun H => VSt.getNextId >>= fun id => VSt.transferComm d id >>= fun x => K' x H) s N bounds Concl' :=
  step_transferP hs fun x c s1 q l m _ _ => (h x c s1 q l m).mono q.sane fun _ _ h _ => h

theorem step_zeroClaimI {K : ι → Unit → Oracle F C → Act (VSt F C B) α} (hs : Sane s) (k : Known s j)
    (h : ∀ s1, Quiet s s1 → j ∈ s1.own.zeroClaims → SoundI (fun w => K w ()) s1 N bounds Concl) :
    SoundI (fun w H => VSt.addZeroClaim j >>= fun x => K w x H) s N bounds Concl :=
  SoundI.step (fun _ _ => rfl) (quiet_zeroClaim hs k) rfl (h _ (quiet_zeroClaim hs k) (by simp))

theorem step_zeroClaim {K : Unit → Oracle F C → Act (VSt F C B) α} (hs : Sane s) (k : Known s i)
    (h : ∀ s1, Quiet s s1 → i ∈ s1.own.zeroClaims → SoundF (K ()) s1 N bounds Concl') :
    SoundF (fun H => VSt.addZeroClaim i >>= fun x => K x H) s N bounds Concl' := step_zeroClaimI (K := fun _ => K) hs k h

end

@[simp] theorem withH_debug (H : Oracle F C) : (E.withH H).debug = E.debug := rfl
@[simp] theorem withH_H (H : Oracle F C) : (E.withH H).H = H := rfl

end Zksql

open Lean Elab Tactic in
/-- Facts about earlier states hold in later ones. -/
syntax "later" : tactic
macro_rules
  | `(tactic| later) => `(tactic| first
    | assumption
    | exact Zksql.known_look (by assumption)
    | (refine Zksql.Later.known (Zksql.Quiet.toLater (by assumption)) ?_; later)
    | (refine Zksql.Later.known (by assumption) ?_; later)
    | (refine Zksql.Later.look (Zksql.Quiet.toLater (by assumption)) ?_; later)
    | (refine Zksql.Later.look (by assumption) ?_; later)
    | (refine Zksql.Later.mat (Zksql.Quiet.toLater (by assumption)) ?_; later)
    | (refine Zksql.Later.mat (by assumption) ?_; later))
