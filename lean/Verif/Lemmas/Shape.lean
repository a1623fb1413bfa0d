import Verif.Lemmas.After
import Verif.Lemmas.Degree
/-! The exact degree of the aggregated polynomial. -/
set_option linter.unusedSectionVars false
namespace Zksql.PTracker
open Spec
variable {F C : Type} [Field F] {R : Mle F → C → Prop} {t t' : PTracker F C}

/-- The longest product has `d` factors. -/
def MaxLen (v : VRep F) (d : Nat) : Prop := (∀ q ∈ v, q.2.length ≤ d) ∧ ∃ q ∈ v, q.2.length = d

/-- A known identifier: a table has degree 1, a sum of products the length of its longest product. -/
def DegIs (t : PTracker F C) (id d : Nat) : Prop :=
  (∃ a, t.mats.lookup id = some a ∧ d = 1) ∨ (t.mats.lookup id = none ∧ ∃ v, t.virts.lookup id = some v ∧ MaxLen v d)

/-- Nothing is known under the identifiers from the counter on. -/
def FreshAbove (t : PTracker F C) : Prop := ∀ id, t.idCounter ≤ id → t.mats.lookup id = none ∧ t.virts.lookup id = none

theorem FreshAbove.of_inv (hI : Inv R t) : FreshAbove t := by
  intro id h
  constructor
  · rcases e : t.mats.lookup id with _ | a
    · rfl
    · exact absurd (hI.matOk id a e).1 (by omega)
  · rcases e : t.virts.lookup id with _ | a
    · rfl
    · exact absurd (hI.virtOk id a e).1 (by omega)

theorem DegIs.lt (h : FreshAbove t) {id d : Nat} (hd : DegIs t id d) : id < t.idCounter := by
  by_contra hn
  obtain ⟨h1, h2⟩ := h id (by omega)
  rcases hd with ⟨a, e, _⟩ | ⟨_, v, e, _⟩
  · rw [h1] at e; cases e
  · rw [h2] at e; cases e

theorem DegIs.unique {id d d' : Nat} (h : DegIs t id d) (h' : DegIs t id d') : d = d' := by
  rcases h with ⟨a, e, rfl⟩ | ⟨e, v, ev, h1, q, hq, hl⟩ <;> rcases h' with ⟨a', e', rfl⟩ | ⟨e', v', ev', h1', q', hq', hl'⟩
  · rfl
  · rw [e] at e'; cases e'
  · rw [e] at e'; cases e'
  · rw [ev] at ev'
    obtain rfl := Option.some.inj ev'
    have a := h1 q' hq'
    have b := h1' q hq
    omega

theorem DegIs.same {id d : Nat} (h : DegIs t id d) (hm : t'.mats = t.mats) (hv : t'.virts = t.virts) : DegIs t' id d := by
  unfold DegIs
  rw [hm, hv]
  exact h

theorem fresh_same (h : FreshAbove t) (hm : t'.mats = t.mats) (hv : t'.virts = t.virts) (hc : t.idCounter ≤ t'.idCounter) : FreshAbove t' := by
  intro id hid
  rw [hm, hv]
  exact h id (by omega)

theorem fresh_pushVirt (h : FreshAbove t) (v : VRep F) : FreshAbove (t.pushVirt v) := by
  intro id hid
  have hid : t.idCounter + 1 ≤ id := hid
  obtain ⟨h1, h2⟩ := h id (by omega)
  refine ⟨h1, ?_⟩
  simp only [pushVirt, lookup_amInsert]
  rw [if_neg (by omega)]
  exact h2

theorem fresh_pushMat (h : FreshAbove t) (p : Mle F) : FreshAbove (t.pushMat p) := by
  intro id hid
  have hid : t.idCounter + 1 ≤ id := hid
  obtain ⟨h1, h2⟩ := h id (by omega)
  refine ⟨?_, h2⟩
  simp only [pushMat, pushArc, lookup_amInsert]
  rw [if_neg (by omega)]
  exact h1

theorem DegIs.pushVirt (h : FreshAbove t) (v : VRep F) {id d : Nat} (hd : DegIs t id d) : DegIs (t.pushVirt v) id d := by
  have hlt := hd.lt h
  rcases hd with h1 | ⟨h1, w, h2, h3⟩
  · exact .inl h1
  · refine .inr ⟨h1, w, ?_, h3⟩
    simp only [PTracker.pushVirt, lookup_amInsert]
    rw [if_neg (by omega)]
    exact h2

theorem degIs_new (h : FreshAbove t) {v : VRep F} {d : Nat} (hv : MaxLen v d) : DegIs (t.pushVirt v) t.idCounter d :=
  .inr ⟨(h _ (le_refl _)).1, v, by simp [PTracker.pushVirt, lookup_amInsert], hv⟩

theorem DegIs.pushMat (h : FreshAbove t) (p : Mle F) {id d : Nat} (hd : DegIs t id d) : DegIs (t.pushMat p) id d := by
  have hlt := hd.lt h
  have e : (t.pushMat p).mats.lookup id = t.mats.lookup id := by
    simp only [PTracker.pushMat, pushArc, lookup_amInsert]
    rw [if_neg (by omega)]
  unfold DegIs
  rw [e]
  exact hd

theorem degIs_newMat (p : Mle F) : DegIs (t.pushMat p) t.idCounter 1 :=
  .inl ⟨⟨t.heap, p⟩, by simp [PTracker.pushMat, pushArc, lookup_amInsert], rfl⟩

theorem maxLen_append {v w : VRep F} {a b : Nat} (hv : MaxLen v a) (hw : MaxLen w b) : MaxLen (v ++ w) (max a b) := by
  obtain ⟨h1, q, hq, e⟩ := hv
  obtain ⟨h2, q', hq', e'⟩ := hw
  constructor
  · intro x hx
    rcases List.mem_append.1 hx with hx | hx
    · exact le_trans (h1 x hx) (le_max_left _ _)
    · exact le_trans (h2 x hx) (le_max_right _ _)
  · rcases le_total a b with h | h
    · exact ⟨q', List.mem_append_right _ hq', by omega⟩
    · exact ⟨q, List.mem_append_left _ hq, by omega⟩

theorem maxLen_map {v : VRep F} {a b : Nat} (hv : MaxLen v a) (f : F × List Nat → F × List Nat) (hf : ∀ q, (f q).2.length = q.2.length + b) : MaxLen (v.map f) (a + b) := by
  obtain ⟨h1, q, hq, e⟩ := hv
  constructor
  · intro x hx
    obtain ⟨y, hy, rfl⟩ := List.mem_map.1 hx
    rw [hf]
    have := h1 y hy
    omega
  · exact ⟨f q, List.mem_map.2 ⟨q, hq, rfl⟩, by rw [hf, e]⟩

theorem maxLen_one (c : F) (i : Nat) : MaxLen [(c, [i])] 1 := ⟨by simp, _, List.mem_singleton.2 rfl, rfl⟩

theorem addSubRep_maxLen {i j a b : Nat} {s : Bool} {v : VRep F} (hi : DegIs t i a) (hj : DegIs t j b) (hv : t.addSubRep i j s = .ok v) : MaxLen v (max a b) := by
  unfold addSubRep at hv
  rcases hi with ⟨x, g1, rfl⟩ | ⟨g1, v1, h1, m1⟩ <;> rcases hj with ⟨y, g2, rfl⟩ | ⟨g2, v2, h2, m2⟩
  · rw [g1, g2] at hv
    rcases h1 : t.virts.lookup i with _ | v1 <;> rcases h2 : t.virts.lookup j with _ | v2 <;> rw [h1, h2] at hv <;> simp only [reduceCtorEq] at hv
    injection hv with hv; subst hv
    exact maxLen_append (maxLen_one _ _) (maxLen_one _ _)
  · rw [g1, g2, h2] at hv
    rcases h1 : t.virts.lookup i with _ | v1 <;> rw [h1] at hv <;> simp only [reduceCtorEq] at hv
    injection hv with hv; subst hv
    exact maxLen_append (maxLen_one _ _) (maxLen_map (b := 0) m2 _ fun _ => rfl)
  · rw [g1, g2, h1] at hv
    rcases h2 : t.virts.lookup j with _ | v2 <;> rw [h2] at hv <;> simp only [reduceCtorEq] at hv
    injection hv with hv; subst hv
    exact maxLen_append m1 (maxLen_one _ _)
  · rw [g1, g2, h1, h2] at hv
    simp only at hv
    injection hv with hv; subst hv
    exact maxLen_append m1 (maxLen_map (b := 0) m2 _ fun _ => rfl)

theorem mulRep_maxLen {i j a b : Nat} {v : VRep F} (hi : DegIs t i a) (hj : DegIs t j b) (hv : t.mulRep i j = .ok v) : MaxLen v (a + b) := by
  unfold mulRep at hv
  rcases hi with ⟨x, g1, rfl⟩ | ⟨g1, v1, h1, m1⟩ <;> rcases hj with ⟨y, g2, rfl⟩ | ⟨g2, v2, h2, m2⟩
  · rw [g1, g2] at hv
    rcases h1 : t.virts.lookup i with _ | v1 <;> rcases h2 : t.virts.lookup j with _ | v2 <;> rw [h1, h2] at hv <;> simp only [reduceCtorEq] at hv
    injection hv with hv; subst hv
    exact ⟨by simp, _, List.mem_singleton.2 rfl, rfl⟩
  · rw [g1, g2, h2] at hv
    rcases h1 : t.virts.lookup i with _ | v1 <;> rw [h1] at hv <;> simp only [reduceCtorEq] at hv
    injection hv with hv; subst hv
    rw [add_comm]
    exact maxLen_map m2 _ fun _ => by simp
  · rw [g1, g2, h1] at hv
    rcases h2 : t.virts.lookup j with _ | v2 <;> rw [h2] at hv <;> simp only [reduceCtorEq] at hv
    injection hv with hv; subst hv
    exact maxLen_map m1 _ fun _ => by simp
  · rw [g1, g2, h1, h2] at hv
    simp only at hv
    injection hv with hv; subst hv
    obtain ⟨k1, q, hq, e⟩ := m1
    obtain ⟨k2, q', hq', e'⟩ := m2
    constructor
    · intro x hx
      obtain ⟨y, hy, hx⟩ := List.mem_flatMap.1 hx
      obtain ⟨z, hz, rfl⟩ := List.mem_map.1 hx
      have := k1 y hy
      have := k2 z hz
      simp only [List.length_append]
      omega
    · exact ⟨(q.1 * q'.1, q.2 ++ q'.2), List.mem_flatMap.2 ⟨q, hq, List.mem_map.2 ⟨q', hq', rfl⟩⟩, by simp [e, e']⟩

theorem mulScalarRep_maxLen {i a : Nat} {c : F} {v : VRep F} (hi : DegIs t i a) (hv : t.mulScalarRep i c = .ok v) : MaxLen v a := by
  unfold mulScalarRep at hv
  rcases hi with ⟨x, g1, rfl⟩ | ⟨g1, v1, h1, m1⟩
  · rw [g1] at hv
    simp only at hv
    injection hv with hv; subst hv
    exact maxLen_one _ _
  · rw [g1, h1] at hv
    simp only [unwrap_some, ok_bind] at hv
    injection hv with hv; subst hv
    exact maxLen_map (b := 0) m1 _ fun _ => rfl

/-- Nothing known changes its degree. -/
structure StayDeg (t t' : PTracker F C) : Prop where
  fresh : FreshAbove t'
  deg : ∀ id d, DegIs t id d → DegIs t' id d

theorem StayDeg.trans {a b c : PTracker F C} (h1 : StayDeg a b) (h2 : StayDeg b c) : StayDeg a c := ⟨h2.fresh, fun id d h => h2.deg id d (h1.deg id d h)⟩

theorem stay_pushVirt (h : FreshAbove t) (v : VRep F) : StayDeg t (t.pushVirt v) := ⟨fresh_pushVirt h v, fun _ _ hd => hd.pushVirt h v⟩
theorem stay_pushMat (h : FreshAbove t) (p : Mle F) : StayDeg t (t.pushMat p) := ⟨fresh_pushMat h p, fun _ _ hd => hd.pushMat h p⟩
theorem stay_same (h : FreshAbove t) (hm : t'.mats = t.mats) (hv : t'.virts = t.virts) (hc : t'.idCounter = t.idCounter) : StayDeg t t' :=
  ⟨fresh_same h hm hv (by omega), fun _ _ hd => hd.same hm hv⟩

theorem challengeU_same {H : Oracle F C} {label : String} {ch : F} (h1 : challengeU H label t = (.ok ch, t')) :
    t'.mats = t.mats ∧ t'.virts = t.virts ∧ t'.idCounter = t.idCounter ∧ t'.sumClaims = t.sumClaims ∧ t'.zeroClaims = t.zeroClaims := by
  unfold challengeU Act.expect challenge at h1
  rcases hc : t.transcript.challenge H label with e | ⟨x, tr⟩
  · rw [hc] at h1; simp at h1
  · rw [hc] at h1
    obtain ⟨-, rfl⟩ := Prod.mk.inj h1
    exact ⟨rfl, rfl, rfl, rfl, rfl⟩

/-- One step of the folding loops. -/
theorem foldStep_degIs (H : Oracle F C) {label : String} {c agg p agg' a d : Nat} {ch : F} {t1 t2 : PTracker F C} (h : FreshAbove t)
    (hc : DegIs t c d) (ha : DegIs t agg a) (h1 : challengeU H label t = (.ok ch, t1))
    (h2 : mulScalar c ch t1 = (.ok p, t2)) (h3 : addSubPolys agg p false t2 = (.ok agg', t')) :
    StayDeg t t' ∧ DegIs t' agg' (max a d) ∧ t'.sumClaims = t.sumClaims ∧ t'.zeroClaims = t.zeroClaims := by
  obtain ⟨e1, e2, e3, e4, e5⟩ := challengeU_same h1
  have s1 : StayDeg t t1 := stay_same h e1 e2 e3
  obtain ⟨v, r1, rfl, rfl⟩ := mulScalar_inv h2
  have s2 := stay_pushVirt s1.fresh v
  have hp := degIs_new s1.fresh (mulScalarRep_maxLen (s1.deg _ _ hc) r1)
  obtain ⟨w, r2, rfl, rfl⟩ := addSub_inv h3
  have s3 := stay_pushVirt s2.fresh w
  exact ⟨(s1.trans s2).trans s3, degIs_new s2.fresh (addSubRep_maxLen (s2.deg _ _ (s1.deg _ _ ha)) hp r2), e4, e5⟩

theorem foldZero_degIs (H : Oracle F C) (f : Nat → Nat) (claims : List Nat) (agg : Nat) {r a : Nat} (h : FreshAbove t)
    (hc : ∀ c ∈ claims, DegIs t c (f c)) (ha : DegIs t agg a) (hr : foldZeroClaims H claims agg t = (.ok r, t')) :
    StayDeg t t' ∧ DegIs t' r ((claims.map f).foldl max a) ∧ t'.sumClaims = t.sumClaims ∧ t'.zeroClaims = t.zeroClaims := by
  induction claims generalizing t agg a with
  | nil =>
    obtain ⟨e, rfl⟩ := Prod.mk.inj hr
    obtain rfl := Except.ok.inj e
    exact ⟨⟨h, fun _ _ h => h⟩, ha, rfl, rfl⟩
  | cons c cs ih =>
    unfold foldZeroClaims at hr
    obtain ⟨ch, t1, h1, hr⟩ := Act.bind_eq_ok.1 hr
    obtain ⟨p, t2, h2, hr⟩ := Act.bind_eq_ok.1 hr
    obtain ⟨a', t3, h3, hr⟩ := Act.bind_eq_ok.1 hr
    obtain ⟨g1, g2, g3, g4⟩ := foldStep_degIs H h (hc c List.mem_cons_self) ha h1 h2 h3
    obtain ⟨k1, k2, k3, k4⟩ := ih a' g1.fresh (fun c' h' => g1.deg _ _ (hc c' (List.mem_cons_of_mem _ h'))) g2 hr
    exact ⟨g1.trans k1, by simpa using k2, k3.trans g3, k4.trans g4⟩

theorem foldSum_degIs (H : Oracle F C) (f : Nat → Nat) (claims : List (Nat × F)) (agg : Nat) (s : F) {r : Nat × F} {a : Nat} (h : FreshAbove t)
    (hc : ∀ c ∈ claims, DegIs t c.1 (f c.1)) (ha : DegIs t agg a) (hr : foldSumClaims H claims agg s t = (.ok r, t')) :
    StayDeg t t' ∧ DegIs t' r.1 ((claims.map fun c => f c.1).foldl max a) ∧ t'.sumClaims = t.sumClaims ∧ t'.zeroClaims = t.zeroClaims := by
  induction claims generalizing t agg a s with
  | nil =>
    obtain ⟨e, rfl⟩ := Prod.mk.inj hr
    obtain rfl := Except.ok.inj e
    exact ⟨⟨h, fun _ _ h => h⟩, ha, rfl, rfl⟩
  | cons c cs ih =>
    unfold foldSumClaims at hr
    obtain ⟨ch, t1, h1, hr⟩ := Act.bind_eq_ok.1 hr
    obtain ⟨p, t2, h2, hr⟩ := Act.bind_eq_ok.1 hr
    obtain ⟨a', t3, h3, hr⟩ := Act.bind_eq_ok.1 hr
    obtain ⟨g1, g2, g3, g4⟩ := foldStep_degIs H h (hc c List.mem_cons_self) ha h1 h2 h3
    obtain ⟨k1, k2, k3, k4⟩ := ih a' _ g1.fresh (fun c' h' => g1.deg _ _ (hc c' (List.mem_cons_of_mem _ h'))) g2 hr
    exact ⟨g1.trans k1, by simpa using k2, k3.trans g3, k4.trans g4⟩

theorem convertZero_degIs (H : Oracle F C) (f : Nat → Nat) {N : Nat} (h : FreshAbove t) (hz : ∀ c ∈ t.zeroClaims, DegIs t c (f c))
    (hr : convertZero H N t = (.ok (), t')) :
    StayDeg t t' ∧ ∃ p, DegIs t' p ((t.zeroClaims.map f).foldl max 1 + 1) ∧ t'.sumClaims = t.sumClaims ++ [(p, 0)] ∧ t'.zeroClaims = t.zeroClaims := by
  unfold convertZero at hr
  obtain ⟨z, s1, h1, hr⟩ := Act.bind_eq_ok.1 hr
  obtain ⟨-, rfl⟩ := Prod.mk.inj h1
  obtain ⟨a0, s2, h2, hr⟩ := Act.bind_eq_ok.1 hr
  rw [trackMat_run] at h2
  obtain ⟨e2, rfl⟩ := Prod.mk.inj h2
  injection e2 with e2; subst e2
  obtain ⟨cl, s3, h3, hr⟩ := Act.bind_eq_ok.1 hr
  obtain ⟨e3, rfl⟩ := Prod.mk.inj h3
  obtain rfl := Except.ok.inj e3
  have q1 := stay_pushMat h z
  obtain ⟨ag, s4, h4, hr⟩ := Act.bind_eq_ok.1 hr
  obtain ⟨q2, ha, k1, k2⟩ := foldZero_degIs H f _ _ q1.fresh (fun c hc => q1.deg _ _ (hz c hc)) (degIs_newMat z) h4
  obtain ⟨r, s5, h5, hr⟩ := Act.bind_eq_ok.1 hr
  have e5 : s5.mats = s4.mats ∧ s5.virts = s4.virts ∧ s5.idCounter = s4.idCounter ∧ s5.sumClaims = s4.sumClaims ∧ s5.zeroClaims = s4.zeroClaims := by
    unfold challengesU at h5
    rcases hh : s4.transcript.challenges H "0check r" N with e | ⟨x, tr⟩ <;> rw [hh] at h5
    · simp at h5
    · obtain ⟨-, rfl⟩ := Prod.mk.inj h5
      exact ⟨rfl, rfl, rfl, rfl, rfl⟩
  have q3 := stay_same q2.fresh e5.1 e5.2.1 e5.2.2.1
  obtain ⟨e, s6, h6, hr'⟩ := Act.bind_eq_ok.1 hr
  have e6 : s6 = s5 := by
    unfold Act.expect at h6
    rcases hb : buildEq r with x | x <;> simp [hb, Act.lift] at h6
    exact h6.2.symm
  subst e6
  obtain ⟨eid, s7, h7, hr'⟩ := Act.bind_eq_ok.1 hr'
  rw [trackMat_run] at h7
  obtain ⟨e7, rfl⟩ := Prod.mk.inj h7
  injection e7 with e7; subst e7
  have q4 := stay_pushMat q3.fresh e
  obtain ⟨p, s8, h8, hr'⟩ := Act.bind_eq_ok.1 hr'
  obtain ⟨v, r8, rfl, rfl⟩ := mul_inv' h8
  have hp := degIs_new q4.fresh (mulRep_maxLen (q4.deg _ _ (q3.deg _ _ ha)) (degIs_newMat e) r8)
  obtain ⟨-, rfl⟩ := Prod.mk.inj hr'
  have q5 := stay_pushVirt q4.fresh v
  refine ⟨⟨fresh_same q5.fresh rfl rfl (le_refl _), fun id d hd => (q5.deg _ _ (q4.deg _ _ (q3.deg _ _ (q2.deg _ _ (q1.deg _ _ hd))))).same rfl rfl⟩, _,
    hp.same rfl rfl, ?_, ?_⟩
  · show s6.sumClaims ++ _ = _
    rw [e5.2.2.2.1, k1]; rfl
  · show s6.zeroClaims = _
    rw [e5.2.2.2.2, k2]; rfl

/-- The aggregated polynomial of a tracker whose tables have been extended. -/
theorem aggregate_degIs (H : Oracle F C) (f : Nat → Nat) {N : Nat} {te : PTracker F C} {r : Nat × F} (he : equalize t = (.ok N, te)) (h : FreshAbove te)
    (hz : ∀ c ∈ te.zeroClaims, DegIs te c (f c)) (hs : ∀ c ∈ te.sumClaims, (te.mats.lookup c.1).isSome) (hr : aggregate H t = (.ok r, t')) :
    DegIs t' r.1 ((te.zeroClaims.map f).foldl max 1 + 1) := by
  unfold aggregate at hr
  rw [Act.bind_ok he] at hr
  obtain ⟨u, s2, h2, hr⟩ := Act.bind_eq_ok.1 hr
  obtain ⟨q1, p, hp, k1, k2⟩ := convertZero_degIs H f h hz h2
  obtain ⟨z, s3, h3, hr⟩ := Act.bind_eq_ok.1 hr
  obtain ⟨-, rfl⟩ := Prod.mk.inj h3
  obtain ⟨a0, s4, h4, hr⟩ := Act.bind_eq_ok.1 hr
  rw [trackMat_run] at h4
  obtain ⟨e4, rfl⟩ := Prod.mk.inj h4
  injection e4 with e4; subst e4
  obtain ⟨cl, s5, h5, hr⟩ := Act.bind_eq_ok.1 hr
  obtain ⟨e5, rfl⟩ := Prod.mk.inj h5
  obtain rfl := Except.ok.inj e5
  have q2 := stay_pushMat q1.fresh z
  set D := (te.zeroClaims.map f).foldl max 1 + 1 with hD
  have hone : ∀ c ∈ te.sumClaims, DegIs te c.1 1 := fun c hc => by
    obtain ⟨a, e⟩ := Option.isSome_iff_exists.1 (hs c hc)
    exact .inl ⟨a, e, rfl⟩
  let g : Nat → Nat := fun id => if id = p ∧ id ∉ te.sumClaims.map (·.1) then D else 1
  have hg : ∀ c ∈ s2.sumClaims, DegIs (s2.pushMat z) c.1 (g c.1) := by
    intro c hc
    rw [k1] at hc
    refine q2.deg _ _ ?_
    by_cases hm : c.1 ∈ te.sumClaims.map (·.1)
    · obtain ⟨c', hc', e⟩ := List.mem_map.1 hm
      simp only [g]
      rw [if_neg (by tauto), ← e]
      exact q1.deg _ _ (hone c' hc')
    · rcases List.mem_append.1 hc with hc | hc
      · exact absurd (List.mem_map.2 ⟨c, hc, rfl⟩) hm
      · obtain rfl : c = _ := by simpa using hc
        simp only [g]
        rw [if_pos ⟨trivial, hm⟩]
        exact hp
  obtain ⟨_, w, _⟩ := foldSum_degIs H g _ _ _ q2.fresh hg (degIs_newMat z) hr
  have hnp : p ∉ te.sumClaims.map (·.1) := by
    intro hm
    obtain ⟨c', hc', e⟩ := List.mem_map.1 hm
    have h1 := q1.deg _ _ (hone c' hc')
    rw [e] at h1
    have := h1.unique hp
    have h2 : ∀ (l : List Nat) (m : Nat), m ≤ l.foldl max m := by
      intro l
      induction l with
      | nil => intro m; exact le_refl _
      | cons x l ih => intro m; exact le_trans (le_max_left _ _) (ih _)
    have := h2 (te.zeroClaims.map f) 1
    omega
  have w : DegIs t' r.1 (List.foldl max 1 (s2.sumClaims.map fun c => g c.1)) := w
  rw [k1] at w
  have e2 : (te.sumClaims ++ [(p, (0 : F))]).map (fun c => g c.1) = List.replicate te.sumClaims.length 1 ++ [D] := by
    rw [List.map_append]
    congr 1
    · rw [List.eq_replicate_iff]
      refine ⟨by simp, fun x hx => ?_⟩
      obtain ⟨c, hc, rfl⟩ := List.mem_map.1 hx
      simp only [g]
      rw [if_neg]
      rintro ⟨_, h⟩
      exact h (List.mem_map.2 ⟨c, hc, rfl⟩)
    · simp only [List.map_cons, List.map_nil, g]
      rw [if_pos ⟨trivial, hnp⟩]
  rw [e2] at w
  have e3 : (List.replicate te.sumClaims.length 1 ++ [D]).foldl max 1 = D := by
    rw [List.foldl_append]
    have : ∀ n, (List.replicate n 1).foldl max 1 = 1 := by
      intro n
      induction n with
      | zero => rfl
      | succ n ih => rw [List.replicate_succ, List.foldl_cons]; exact ih
    rw [this]
    show max 1 D = D
    omega
  rw [e3] at w
  exact w

/-- The degree of the arithmetised polynomial is exactly that of the identifier. -/
theorem toArith_degIs (hI : Inv R t) {id nv d : Nat} (h : t.HasNv id nv) (hd : DegIs t id d) {vp : VirtPoly F} (he : t.toArith id = .ok vp) : vp.maxDegree = d := by
  rcases h with ⟨a, h1, h2⟩ | ⟨h0, v, h1, h2⟩
  · rcases hd with ⟨_, _, rfl⟩ | ⟨e, _⟩
    · simp only [toArith, h1] at he
      injection he with he; subst he
      rfl
    · rw [h1] at e; cases e
  · obtain ⟨vp', g1, g2, g3, g4, g5⟩ := toArith_loop hI v h2.2 (VirtPoly.new nv) (VirtPoly.inv_new _ _) rfl
    have : t.toArith id = .ok vp' := by
      simp only [toArith, h0, h1]
      rw [repNv_spec h2, ok_bind]
      exact g1
    rw [this] at he
    injection he with he; subst he
    rw [g5]
    rcases hd with ⟨_, e, _⟩ | ⟨_, w, e, k1, q, hq, k2⟩
    · rw [h0] at e; cases e
    · rw [h1] at e
      obtain rfl := Option.some.inj e
      have key : ∀ (l : VRep F) (m : Nat), m ≤ l.foldl (fun d q => max d q.2.length) m ∧ (∀ q ∈ l, q.2.length ≤ l.foldl (fun d q => max d q.2.length) m) ∧
          ∀ d, m ≤ d → (∀ q ∈ l, q.2.length ≤ d) → l.foldl (fun d q => max d q.2.length) m ≤ d := by
        intro l
        induction l with
        | nil => intro m; simp
        | cons q l ih =>
          intro m
          obtain ⟨i1, i2, i3⟩ := ih (max m q.2.length)
          rw [List.foldl_cons]
          refine ⟨by omega, ?_, ?_⟩
          · intro q' hq'
            rcases List.mem_cons.1 hq' with rfl | hq'
            · omega
            · exact i2 q' hq'
          · intro d hm hd
            exact i3 d (by have := hd q List.mem_cons_self; omega) fun q' hq' => hd q' (List.mem_cons_of_mem _ hq')
      obtain ⟨_, a, b⟩ := key v (VirtPoly.new (F := F) nv).maxDegree
      have a := a q hq
      have b := b d (by simp [VirtPoly.new]) k1
      omega

end Zksql.PTracker
