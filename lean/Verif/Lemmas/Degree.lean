import Verif.Lemmas.Compile
/-!
The degree of the aggregated polynomial.
-/
set_option linter.unusedSectionVars false
namespace Zksql.PTracker
open Spec
variable {F C : Type} [Field F] {R : Mle F → C → Prop} {t t' : PTracker F C}

/-- Every virtual polynomial among the identifiers `S` has products of at most `d` factors. -/
def Deg (S : Nat → Prop) (d : Nat) (t : PTracker F C) : Prop :=
  ∀ id v, S id → t.virts.lookup id = some v → ∀ q ∈ v, q.2.length ≤ d

theorem deg_mono {S S' : Nat → Prop} {d d' : Nat} (hS : ∀ i, S' i → S i) (hd : d ≤ d') (h : Deg S d t) : Deg S' d' t :=
  fun id v hi hv q hq => le_trans (h id v (hS id hi) hv q hq) hd

theorem deg_virts {S : Nat → Prop} {d : Nat} (h : Deg S d t) (hv : ∀ id v, t'.virts.lookup id = some v → t.virts.lookup id = some v) : Deg S d t' :=
  fun id v hi h' => h id v hi (hv id v h')

theorem deg_pushVirt {S : Nat → Prop} {d : Nat} (h : Deg S d t) {v : VRep F} (hv : ∀ q ∈ v, q.2.length ≤ d) : Deg S d (t.pushVirt v) := by
  intro id w hi hw
  simp only [pushVirt, lookup_amInsert] at hw
  split at hw
  · injection hw with hw; subst hw; exact hv
  · exact h id w hi hw

theorem addSub_inv {i j k : Nat} {s : Bool} (h : addSubPolys i j s t = (.ok k, t')) : ∃ v, t.addSubRep i j s = .ok v ∧ k = t.idCounter ∧ t' = t.pushVirt v := by
  unfold addSubPolys at h
  obtain ⟨v, s1, h1, h2⟩ := Act.bind_eq_ok.1 h
  obtain ⟨e, rfl⟩ := Prod.mk.inj h1
  rw [trackVirt_run] at h2
  obtain ⟨e2, rfl⟩ := Prod.mk.inj h2
  injection e2 with e2
  exact ⟨v, e, e2.symm, rfl⟩

theorem mul_inv' {i j k : Nat} (h : mulPolys i j t = (.ok k, t')) : ∃ v, t.mulRep i j = .ok v ∧ k = t.idCounter ∧ t' = t.pushVirt v := by
  unfold mulPolys at h
  obtain ⟨v, s1, h1, h2⟩ := Act.bind_eq_ok.1 h
  obtain ⟨e, rfl⟩ := Prod.mk.inj h1
  rw [trackVirt_run] at h2
  obtain ⟨e2, rfl⟩ := Prod.mk.inj h2
  injection e2 with e2
  exact ⟨v, e, e2.symm, rfl⟩

theorem mulScalar_inv {i k : Nat} {c : F} (h : mulScalar i c t = (.ok k, t')) : ∃ v, t.mulScalarRep i c = .ok v ∧ k = t.idCounter ∧ t' = t.pushVirt v := by
  unfold mulScalar at h
  obtain ⟨v, s1, h1, h2⟩ := Act.bind_eq_ok.1 h
  obtain ⟨e, rfl⟩ := Prod.mk.inj h1
  rw [trackVirt_run] at h2
  obtain ⟨e2, rfl⟩ := Prod.mk.inj h2
  injection e2 with e2
  exact ⟨v, e, e2.symm, rfl⟩

theorem addSubRep_deg {S : Nat → Prop} {d i j : Nat} {s : Bool} {v : VRep F} (h : Deg S d t) (hd : 1 ≤ d) (hi : S i) (hj : S j)
    (hv : t.addSubRep i j s = .ok v) : ∀ q ∈ v, q.2.length ≤ d := by
  have a := fun w => h i w hi
  have b := fun w => h j w hj
  unfold addSubRep at hv
  rcases g1 : t.mats.lookup i with _ | m1 <;> rcases h1 : t.virts.lookup i with _ | v1 <;> rcases g2 : t.mats.lookup j with _ | m2 <;>
    rcases h2 : t.virts.lookup j with _ | v2 <;> rw [g1, h1, g2, h2] at hv <;> simp only [reduceCtorEq] at hv <;> injection hv with hv <;> subst hv <;>
    intro q hq
  · rcases List.mem_append.1 hq with hq | hq
    · exact a v1 h1 q hq
    · obtain ⟨q', hq', rfl⟩ := List.mem_map.1 hq
      exact b v2 h2 q' hq'
  · rcases List.mem_append.1 hq with hq | hq
    · exact a v1 h1 q hq
    · obtain rfl : q = _ := by simpa using hq
      simpa using hd
  · rcases List.mem_cons.1 hq with rfl | hq
    · simpa using hd
    · obtain ⟨q', hq', rfl⟩ := List.mem_map.1 hq
      exact b v2 h2 q' hq'
  · simp only [List.mem_cons, List.not_mem_nil, or_false] at hq
    rcases hq with rfl | rfl <;> simpa using hd

theorem mulScalarRep_deg {S : Nat → Prop} {d i : Nat} {c : F} {v : VRep F} (h : Deg S d t) (hd : 1 ≤ d) (hi : S i)
    (hv : t.mulScalarRep i c = .ok v) : ∀ q ∈ v, q.2.length ≤ d := by
  unfold mulScalarRep at hv
  rcases g1 : t.mats.lookup i with _ | m <;> rw [g1] at hv
  · rcases h1 : t.virts.lookup i with _ | v1
    · rw [h1] at hv; simp [unwrap] at hv
    · rw [h1] at hv
      simp only [unwrap_some, ok_bind] at hv
      injection hv with hv; subst hv
      intro q hq
      obtain ⟨q', hq', rfl⟩ := List.mem_map.1 hq
      exact h i v1 hi h1 q' hq'
  · simp only at hv
    injection hv with hv; subst hv
    intro q hq
    obtain rfl : q = _ := by simpa using hq
    simpa using hd

theorem mulRep_deg {S : Nat → Prop} {d i j : Nat} {v : VRep F} (h : Deg S d t) (hd : 1 ≤ d) (hi : S i) {a : ArcMle F}
    (hj : t.mats.lookup j = some a) (hv : t.mulRep i j = .ok v) : ∀ q ∈ v, q.2.length ≤ d + 1 := by
  have a := fun w => h i w hi
  unfold mulRep at hv
  rw [hj] at hv
  rcases g1 : t.mats.lookup i with _ | m1 <;> rcases h1 : t.virts.lookup i with _ | v1 <;>
    rcases h2 : t.virts.lookup j with _ | v2 <;> rw [g1, h1, h2] at hv <;> simp only [reduceCtorEq] at hv <;> injection hv with hv <;> subst hv <;> intro q hq
  · obtain ⟨q', hq', rfl⟩ := List.mem_map.1 hq
    simpa using a v1 h1 q' hq'
  · obtain rfl : q = _ := by simpa using hq
    simpa using hd

/-- One step of the folding loops. -/
theorem foldStep_deg (H : Oracle F C) {label : String} {S : Nat → Prop} {d c agg p agg' : Nat} {ch : F} {t1 t2 : PTracker F C} (h : Deg S d t)
    (hd : 1 ≤ d) (hc : S c) (ha : S agg) (hS : ∀ n, t.idCounter ≤ n → S n) (h1 : challengeU H label t = (.ok ch, t1))
    (h2 : mulScalar c ch t1 = (.ok p, t2)) (h3 : addSubPolys agg p false t2 = (.ok agg', t')) :
    Deg S d t' ∧ S agg' ∧ t.idCounter ≤ t'.idCounter ∧ t'.sumClaims = t.sumClaims := by
  have e1 : t1.idCounter = t.idCounter ∧ t1.virts = t.virts ∧ t1.sumClaims = t.sumClaims := by
    unfold challengeU Act.expect challenge at h1
    rcases hc : t.transcript.challenge H label with e | ⟨x, tr⟩
    · rw [hc] at h1; simp at h1
    · rw [hc] at h1
      obtain ⟨-, rfl⟩ := Prod.mk.inj h1
      exact ⟨rfl, rfl, rfl⟩
  have d1 : Deg S d t1 := deg_virts h (by rw [e1.2.1]; exact fun _ _ h => h)
  obtain ⟨v, r1, rfl, rfl⟩ := mulScalar_inv h2
  have d2 := deg_pushVirt d1 (mulScalarRep_deg d1 hd hc r1)
  obtain ⟨w, r2, rfl, rfl⟩ := addSub_inv h3
  have s1 : S t1.idCounter := hS _ (le_of_eq e1.1.symm)
  refine ⟨deg_pushVirt d2 (addSubRep_deg d2 hd ha s1 r2), hS _ ?_, ?_, e1.2.2⟩
  · show t.idCounter ≤ t1.idCounter + 1; rw [e1.1]; omega
  · show t.idCounter ≤ t1.idCounter + 1 + 1; rw [e1.1]; omega

theorem foldZero_deg (H : Oracle F C) {S : Nat → Prop} {d : Nat} (hd : 1 ≤ d) (claims : List Nat) (agg : Nat) {r : Nat} (h : Deg S d t)
    (hc : ∀ c ∈ claims, S c) (ha : S agg) (hS : ∀ n, t.idCounter ≤ n → S n) (hr : foldZeroClaims H claims agg t = (.ok r, t')) :
    Deg S d t' ∧ S r ∧ t.idCounter ≤ t'.idCounter ∧ t'.sumClaims = t.sumClaims := by
  induction claims generalizing t agg with
  | nil =>
    obtain ⟨e, rfl⟩ := Prod.mk.inj hr
    injection e with e; subst e
    exact ⟨h, ha, le_refl _, rfl⟩
  | cons c cs ih =>
    unfold foldZeroClaims at hr
    obtain ⟨ch, t1, h1, hr⟩ := Act.bind_eq_ok.1 hr
    obtain ⟨p, t2, h2, hr⟩ := Act.bind_eq_ok.1 hr
    obtain ⟨a', t3, h3, hr⟩ := Act.bind_eq_ok.1 hr
    obtain ⟨g1, g2, g3, g4⟩ := foldStep_deg H h hd (hc c List.mem_cons_self) ha hS h1 h2 h3
    obtain ⟨k1, k2, k3, k4⟩ := ih a' g1 (fun c' h' => hc c' (List.mem_cons_of_mem _ h')) g2 (fun n hn => hS n (le_trans g3 hn)) hr
    exact ⟨k1, k2, le_trans g3 k3, k4.trans g4⟩

theorem foldSum_deg (H : Oracle F C) {S : Nat → Prop} {d : Nat} (hd : 1 ≤ d) (claims : List (Nat × F)) (agg : Nat) (s : F) {r : Nat × F} (h : Deg S d t)
    (hc : ∀ c ∈ claims, S c.1) (ha : S agg) (hS : ∀ n, t.idCounter ≤ n → S n) (hr : foldSumClaims H claims agg s t = (.ok r, t')) :
    Deg S d t' ∧ S r.1 := by
  induction claims generalizing t agg s with
  | nil =>
    obtain ⟨e, rfl⟩ := Prod.mk.inj hr
    injection e with e; subst e
    exact ⟨h, ha⟩
  | cons c cs ih =>
    unfold foldSumClaims at hr
    obtain ⟨ch, t1, h1, hr⟩ := Act.bind_eq_ok.1 hr
    obtain ⟨p, t2, h2, hr⟩ := Act.bind_eq_ok.1 hr
    obtain ⟨a', t3, h3, hr⟩ := Act.bind_eq_ok.1 hr
    obtain ⟨g1, g2, g3, g4⟩ := foldStep_deg H h hd (hc c List.mem_cons_self) ha hS h1 h2 h3
    exact ih a' _ g1 (fun c' h' => hc c' (List.mem_cons_of_mem _ h')) g2 (fun n hn => hS n (le_trans g3 hn)) hr

/-- Materialising only removes virtual polynomials. -/
theorem materialize_virts {i : Nat} (h : materialize i t = (.ok (), t')) : ∀ id v, t'.virts.lookup id = some v → t.virts.lookup id = some v := by
  unfold materialize at h
  split at h
  · obtain ⟨-, rfl⟩ := Prod.mk.inj h
    exact fun _ _ h => h
  · split at h
    · simp at h
    · obtain ⟨m, s1, h1, h⟩ := Act.bind_eq_ok.1 h
      obtain ⟨-, rfl⟩ := Prod.mk.inj h1
      obtain ⟨a, s2, h2, h⟩ := Act.bind_eq_ok.1 h
      obtain ⟨-, rfl⟩ := Prod.mk.inj h2
      obtain ⟨-, rfl⟩ := Prod.mk.inj h
      intro id v hv
      simp only [lookup_amErase] at hv
      split at hv
      · simp at hv
      · exact hv

theorem evaluations_virts {i : Nat} {l : List F} (h : evaluations i t = (.ok l, t')) : ∀ id v, t'.virts.lookup id = some v → t.virts.lookup id = some v := by
  unfold evaluations at h
  obtain ⟨u, s1, h1, h⟩ := Act.bind_eq_ok.1 h
  obtain ⟨a, s2, h2, h⟩ := Act.bind_eq_ok.1 h
  obtain ⟨-, rfl⟩ := Prod.mk.inj h2
  obtain ⟨-, rfl⟩ := Prod.mk.inj h
  exact materialize_virts h1

theorem trueSums_virts (claims : List (Nat × F)) {l : List F} (h : trueSums claims t = (.ok l, t')) :
    ∀ id v, t'.virts.lookup id = some v → t.virts.lookup id = some v := by
  induction claims generalizing t l with
  | nil =>
    obtain ⟨-, rfl⟩ := Prod.mk.inj h
    exact fun _ _ h => h
  | cons c cs ih =>
    unfold trueSums at h
    obtain ⟨e, s1, h1, h⟩ := Act.bind_eq_ok.1 h
    obtain ⟨r, s2, h2, h⟩ := Act.bind_eq_ok.1 h
    obtain ⟨-, rfl⟩ := Prod.mk.inj h
    exact fun id v hv => evaluations_virts h1 id v (ih h2 id v hv)

theorem equalize_virts {N : Nat} (h : equalize t = (.ok N, t')) : ∀ id v, t'.virts.lookup id = some v → t.virts.lookup id = some v := by
  unfold equalize at h
  obtain ⟨nv, s1, h1, h⟩ := Act.bind_eq_ok.1 h
  obtain ⟨-, rfl⟩ := Prod.mk.inj h1
  obtain ⟨r, s2, h2, h⟩ := Act.bind_eq_ok.1 h
  obtain ⟨-, rfl⟩ := Prod.mk.inj h2
  obtain ⟨u, s3, h3, h⟩ := Act.bind_eq_ok.1 h
  obtain ⟨-, rfl⟩ := Prod.mk.inj h3
  obtain ⟨cl, s4, h4, h⟩ := Act.bind_eq_ok.1 h
  obtain ⟨-, rfl⟩ := Prod.mk.inj h4
  obtain ⟨ss, s5, h5, h⟩ := Act.bind_eq_ok.1 h
  obtain ⟨u2, s6, h6, h⟩ := Act.bind_eq_ok.1 h
  obtain ⟨-, rfl⟩ := Prod.mk.inj h6
  obtain ⟨-, rfl⟩ := Prod.mk.inj h
  intro id v hv
  exact trueSums_virts cl h5 id v hv

theorem convertZero_deg (H : Oracle F C) {S : Nat → Prop} {d N : Nat} (hd : 1 ≤ d) (h : Deg S d t) (hz : ∀ c ∈ t.zeroClaims, S c)
    (hs : ∀ c ∈ t.sumClaims, S c.1) (hS : ∀ n, t.idCounter ≤ n → S n) (hr : convertZero H N t = (.ok (), t')) :
    Deg S (d + 1) t' ∧ t.idCounter ≤ t'.idCounter ∧ ∀ c ∈ t'.sumClaims, S c.1 := by
  unfold convertZero at hr
  obtain ⟨z, s1, h1, hr⟩ := Act.bind_eq_ok.1 hr
  obtain ⟨-, rfl⟩ := Prod.mk.inj h1
  obtain ⟨a0, s2, h2, hr⟩ := Act.bind_eq_ok.1 hr
  rw [trackMat_run] at h2
  obtain ⟨e2, rfl⟩ := Prod.mk.inj h2
  injection e2 with e2; subst e2
  obtain ⟨cl, s3, h3, hr⟩ := Act.bind_eq_ok.1 hr
  obtain ⟨e3, rfl⟩ := Prod.mk.inj h3
  injection e3 with e3; subst e3
  obtain ⟨agg, s4, h4, hr⟩ := Act.bind_eq_ok.1 hr
  obtain ⟨k1, k2, k3, k4⟩ := foldZero_deg H hd _ _ (t := t.pushMat z) (deg_virts h fun _ _ h => h) hz (hS _ (le_refl _))
    (fun n hn => hS n (le_trans (Nat.le_succ _) hn)) h4
  have k3' : t.idCounter + 1 ≤ s4.idCounter := k3
  obtain ⟨r, s5, h5, hr⟩ := Act.bind_eq_ok.1 hr
  have e5 : s5.idCounter = s4.idCounter ∧ s5.virts = s4.virts ∧ s5.sumClaims = s4.sumClaims := by
    unfold challengesU at h5
    split at h5
    · obtain ⟨-, rfl⟩ := Prod.mk.inj h5
      exact ⟨rfl, rfl, rfl⟩
    · simp at h5
  obtain ⟨e, s6, h6, hr⟩ := Act.bind_eq_ok.1 hr
  have e6 : s6 = s5 := by
    unfold Act.expect at h6
    split at h6
    · rename_i a s' hh
      obtain ⟨-, rfl⟩ := Prod.mk.inj hh
      obtain ⟨-, rfl⟩ := Prod.mk.inj h6
      rfl
    · simp at h6
  rw [e6] at hr
  clear h6 e6 s6
  rename' s5 => s6
  obtain ⟨eqId, s7, h7, hr⟩ := Act.bind_eq_ok.1 hr
  rw [trackMat_run] at h7
  obtain ⟨e7, rfl⟩ := Prod.mk.inj h7
  injection e7 with e7; subst e7
  obtain ⟨p, s8, h8, hr⟩ := Act.bind_eq_ok.1 hr
  obtain ⟨v, r1, rfl, rfl⟩ := mul_inv' h8
  obtain ⟨-, rfl⟩ := Prod.mk.inj hr
  have d6 : Deg S d (s6.pushMat e) := deg_virts k1 (by
    show ∀ id v, s6.virts.lookup id = some v → _
    rw [e5.2.1]; exact fun _ _ h => h)
  have hl : (s6.pushMat e).mats.lookup s6.idCounter = some ⟨s6.heap, e⟩ := by simp [pushMat, pushArc, lookup_amInsert]
  have d8 := deg_pushVirt (deg_mono (fun _ h => h) (Nat.le_succ d) d6) (mulRep_deg d6 hd k2 hl r1)
  refine ⟨d8, ?_, ?_⟩
  · show t.idCounter ≤ s6.idCounter + 1 + 1
    rw [e5.1]; omega
  · intro c hc
    have hc' : c ∈ s6.sumClaims ++ [(s6.idCounter + 1, (0 : F))] := hc
    rcases List.mem_append.1 hc' with hc' | hc'
    · rw [e5.2.2, k4] at hc'
      exact hs c hc'
    · obtain rfl : c = _ := by simpa using hc'
      exact hS _ (by show t.idCounter ≤ s6.idCounter + 1; rw [e5.1]; omega)

/-- The aggregated polynomial has degree at most one more than the claimed polynomials. -/
theorem aggregate_deg (H : Oracle F C) (hI : Inv R t) {d : Nat} (hd : 1 ≤ d) (hm : t.mats ≠ []) (hc : ∀ c ∈ t.sumClaims, ∃ nv, t.HasNv c.1 nv)
    (h : Deg (fun i => i ∈ t.zeroClaims ∨ i ∈ t.sumClaims.map (·.1)) d t) {r : Nat × F}
    (hr : aggregate H t = (.ok r, t')) : ∀ v, t'.virts.lookup r.1 = some v → ∀ q ∈ v, q.2.length ≤ d + 1 := by
  unfold aggregate at hr
  obtain ⟨N, te, h1, hr⟩ := Act.bind_eq_ok.1 hr
  obtain ⟨u, s2, h2, hr⟩ := Act.bind_eq_ok.1 hr
  obtain ⟨z, s3, h3, hr⟩ := Act.bind_eq_ok.1 hr
  obtain ⟨-, rfl⟩ := Prod.mk.inj h3
  obtain ⟨a0, s4, h4, hr⟩ := Act.bind_eq_ok.1 hr
  rw [trackMat_run] at h4
  obtain ⟨e4, rfl⟩ := Prod.mk.inj h4
  injection e4 with e4; subst e4
  obtain ⟨cl, s5, h5, hr⟩ := Act.bind_eq_ok.1 hr
  obtain ⟨e5, rfl⟩ := Prod.mk.inj h5
  injection e5 with e5; subst e5
  obtain ⟨N', t1, te', hle, hex, hE, hI1, heq, hI', hp, hcnt, _, _, hz, hs, _⟩ := equalize_run hI hm hc
  rw [h1] at heq
  obtain ⟨eN, rfl⟩ := Prod.mk.inj heq
  injection eN with eN; subst eN
  let S : Nat → Prop := fun i => (i ∈ t.zeroClaims ∨ i ∈ t.sumClaims.map (·.1)) ∨ te.idCounter ≤ i
  have dS : Deg S d te := by
    intro id v hi hv
    rcases hi with hi | hi
    · exact h id v hi (equalize_virts h1 id v hv)
    · exact absurd (hI'.virtOk id v hv).1 (by omega)
  obtain ⟨g1, g2, g3⟩ := convertZero_deg H hd dS (fun c h => .inl (.inl (hz ▸ h)))
    (fun c h => .inl (.inr (by
      rw [hs] at h
      obtain ⟨c', h', rfl⟩ := List.mem_map.1 h
      exact List.mem_map.2 ⟨c', h', rfl⟩))) (fun n hn => .inr hn) h2
  obtain ⟨k1, k2⟩ := foldSum_deg H (by omega : 1 ≤ d + 1) _ _ _ (t := s2.pushMat z) (deg_virts g1 fun _ _ h => h) g3 (.inr g2)
    (fun n hn => .inr (le_trans g2 (le_trans (Nat.le_succ _) hn))) hr
  exact fun v hv => k1 r.1 v k2 hv

/-- The degree of the arithmetised polynomial. -/
theorem toArith_deg (hI : Inv R t) {id nv d : Nat} (h : t.HasNv id nv) (hd : 1 ≤ d) (hv : ∀ v, t.virts.lookup id = some v → ∀ q ∈ v, q.2.length ≤ d)
    {vp : VirtPoly F} (he : t.toArith id = .ok vp) : 0 < vp.maxDegree ∧ vp.maxDegree ≤ d := by
  rcases h with ⟨a, h1, h2⟩ | ⟨h0, v, h1, h2⟩
  · simp only [toArith, h1] at he
    injection he with he; subst he
    exact ⟨by simp [VirtPoly.newFromMle], hd⟩
  · obtain ⟨vp', g1, g2, g3, g4, g5⟩ := toArith_loop hI v h2.2 (VirtPoly.new nv) (VirtPoly.inv_new _ _) rfl
    have : t.toArith id = .ok vp' := by
      simp only [toArith, h0, h1]
      rw [repNv_spec h2, ok_bind]
      exact g1
    rw [this] at he
    injection he with he; subst he
    rw [g5]
    have key : ∀ (l : VRep F) (m : Nat), m ≤ l.foldl (fun d q => max d q.2.length) m ∧ (∀ q ∈ l, q.2.length ≤ l.foldl (fun d q => max d q.2.length) m) ∧
        ∀ d, m ≤ d → (∀ q ∈ l, q.2.length ≤ d) → l.foldl (fun d q => max d q.2.length) m ≤ d := by
      intro l
      induction l with
      | nil => intro m; simp
      | cons q l ih =>
        intro m
        obtain ⟨i1, i2, i3⟩ := ih (max m q.2.length)
        rw [List.foldl_cons]
        refine ⟨by omega, ?_, ?_⟩
        · intro q' hq'
          rcases List.mem_cons.1 hq' with rfl | hq'
          · omega
          · exact i2 q' hq'
        · intro d h1 h2
          exact i3 d (by have := h2 q List.mem_cons_self; omega) fun q' h' => h2 q' (List.mem_cons_of_mem _ h')
    obtain ⟨k1, k2, k3⟩ := key v (VirtPoly.new nv : VirtPoly F).maxDegree
    constructor
    · obtain ⟨q, hq⟩ := List.exists_mem_of_ne_nil v h2.1
      have := k2 q hq
      have := List.length_pos_iff.2 (h2.2 q hq).1
      omega
    · exact k3 d (by simp [VirtPoly.new]) (hv v h1)

end Zksql.PTracker
