import Verif.Spec.Verified
import Verif.Lemmas.FoldSound
import Verif.Lemmas.Sound
import Verif.Lemmas.VerifierClaims
import Verif.Lemmas.Twin
/-! An aggregated polynomial has a value only where all claimed polynomials have one; degrees of handles. -/
set_option linter.unusedSectionVars false
namespace Zksql
open Spec
variable {F C B : Type} [Field F] [DecidableEq F]

/-! ### Values of the aggregated polynomial -/
namespace VSt
variable {s s' : VSt F C B}

theorem ev_add_inv {ans : Nat → List F → Res F} (hw : Wf s) {i j : Nat} (hi : s.Known i) (hj : s.Known j) {x : List F} {v : F}
    (h : (s.push (.add i j)).ev ans s.own.idCounter x = .ok v) : (∃ w, s.ev ans i x = .ok w) ∧ ∃ w, s.ev ans j x = .ok w := by
  rw [ev_push hw (c := .add i j) (refs2 (P := fun r => s.Known r) hi hj)] at h
  simp only [evalStep] at h
  obtain ⟨a, h1, h⟩ := twin_res_bind h
  obtain ⟨b, h2, -⟩ := twin_res_bind h
  exact ⟨⟨a, h1⟩, b, h2⟩

theorem ev_mul_inv {ans : Nat → List F → Res F} (hw : Wf s) {i j : Nat} (hi : s.Known i) (hj : s.Known j) {x : List F} {v : F}
    (h : (s.push (.mul i j)).ev ans s.own.idCounter x = .ok v) : (∃ w, s.ev ans i x = .ok w) ∧ ∃ w, s.ev ans j x = .ok w := by
  rw [ev_push hw (c := .mul i j) (refs2 (P := fun r => s.Known r) hi hj)] at h
  simp only [evalStep] at h
  obtain ⟨a, h1, h⟩ := twin_res_bind h
  obtain ⟨b, h2, -⟩ := twin_res_bind h
  exact ⟨⟨a, h1⟩, b, h2⟩

theorem ev_mulScalar_inv {ans : Nat → List F → Res F} (hw : Wf s) {i : Nat} {c : F} (hi : s.Known i) {x : List F} {v : F}
    (h : (s.push (.mulScalar i c)).ev ans s.own.idCounter x = .ok v) : ∃ w, s.ev ans i x = .ok w := by
  rw [ev_push hw (c := .mulScalar i c) (refs1 (P := fun r => s.Known r) hi)] at h
  simp only [evalStep] at h
  obtain ⟨a, h1, -⟩ := twin_res_bind h
  exact ⟨a, h1⟩

theorem foldStep_values (hw : Wf s) {c agg : Nat} (hc : s.Known c) (ha : s.Known agg) (tr : Transcript F C) (ch : F) :
    let s3 := ((s.setTr tr).push (.mulScalar c ch)).push (.add agg s.own.idCounter)
    Wf s3 ∧ VKeep s s3 ∧ s3.Known (s.own.idCounter + 1) ∧ s3.own.sumClaims = s.own.sumClaims ∧
      ∀ ans x v, s3.ev ans (s.own.idCounter + 1) x = .ok v → (∃ w, s.ev ans agg x = .ok w) ∧ ∃ w, s.ev ans c x = .ok w := by
  intro s3
  have hw1 : Wf (s.setTr tr) := wf_setTr hw _
  have hw2 : Wf ((s.setTr tr).push (.mulScalar c ch)) := wf_push hw1 (refs1 (P := fun r => (s.setTr tr).Known r) hc)
  have hk2 : VKeep (s.setTr tr) ((s.setTr tr).push (.mulScalar c ch)) := keep_push hw1 _
  have ka : ((s.setTr tr).push (.mulScalar c ch)).Known agg := hk2.known ha
  have kp : ((s.setTr tr).push (.mulScalar c ch)).Known s.own.idCounter := known_push (s.setTr tr) _
  refine ⟨wf_push hw2 (refs2 (P := fun r => ((s.setTr tr).push (.mulScalar c ch)).Known r) ka kp),
    ((keep_setTr s tr).trans hk2).trans (keep_push hw2 _), known_push _ _, rfl, fun ans x v h => ?_⟩
  obtain ⟨⟨a, h1⟩, b, h2⟩ := ev_add_inv hw2 ka kp h
  exact ⟨⟨a, (ev_keep hw1 hk2 ha ans x).symm.trans h1⟩, ev_mulScalar_inv hw1 hc h2⟩

theorem foldZeroClaims_values (H : Oracle F C) : ∀ (claims : List Nat) {agg r : Nat} {s s' : VSt F C B}, foldZeroClaims H claims agg s = (.ok r, s') → Wf s →
    (∀ c ∈ claims, s.Known c) → s.Known agg →
    Wf s' ∧ VKeep s s' ∧ s'.Known r ∧ s'.own.sumClaims = s.own.sumClaims ∧
      ∀ ans x v, s'.ev ans r x = .ok v → (∃ w, s.ev ans agg x = .ok w) ∧ ∀ c ∈ claims, ∃ w, s.ev ans c x = .ok w
  | [], agg, r, s, s', e, hw, _, ha => by
    obtain ⟨h1, rfl⟩ := Prod.mk.inj e
    obtain rfl := Except.ok.inj h1
    exact ⟨hw, VKeep.refl _, ha, rfl, fun ans x v h => ⟨⟨v, h⟩, by simp⟩⟩
  | c :: cs, agg, r, s, s', e, hw, hc, ha => by
    unfold foldZeroClaims at e
    obtain ⟨ch, s1, e1, e⟩ := Act.bind_eq_ok.1 e
    obtain ⟨tr, -, rfl⟩ := challengeU_inv e1
    have hc0 := hc c (List.mem_cons_self ..)
    obtain ⟨w3, k3, n3, c3, v3⟩ := foldStep_values hw hc0 ha tr ch
    have e' : foldZeroClaims H cs (s.own.idCounter + 1) (((s.setTr tr).push (.mulScalar c ch)).push (.add agg s.own.idCounter)) = (.ok r, s') := e
    obtain ⟨w4, k4, n4, c4, v4⟩ := foldZeroClaims_values H cs e' w3 (fun c' h' => k3.known (hc c' (List.mem_cons_of_mem _ h'))) n3
    refine ⟨w4, k3.trans k4, n4, c4.trans c3, fun ans x v h => ?_⟩
    obtain ⟨⟨a, h1⟩, h2⟩ := v4 ans x v h
    obtain ⟨h3, h4⟩ := v3 ans x a h1
    refine ⟨h3, fun c' h' => ?_⟩
    rcases List.mem_cons.1 h' with rfl | h'
    · exact h4
    · obtain ⟨w, h5⟩ := h2 c' h'
      exact ⟨w, (ev_keep hw k3 (hc c' (List.mem_cons_of_mem _ h')) ans x).symm.trans h5⟩

theorem foldSumClaims_values (H : Oracle F C) : ∀ (claims : List (Nat × F)) {agg : Nat} {sm : F} {r : Nat × F} {s s' : VSt F C B},
    foldSumClaims H claims agg sm s = (.ok r, s') → Wf s → (∀ c ∈ claims, s.Known c.1) → s.Known agg →
    Wf s' ∧ VKeep s s' ∧
      ∀ ans x v, s'.ev ans r.1 x = .ok v → (∃ w, s.ev ans agg x = .ok w) ∧ ∀ c ∈ claims, ∃ w, s.ev ans c.1 x = .ok w
  | [], agg, sm, r, s, s', e, hw, _, ha => by
    obtain ⟨h1, rfl⟩ := Prod.mk.inj e
    obtain rfl := Except.ok.inj h1
    exact ⟨hw, VKeep.refl _, fun ans x v h => ⟨⟨v, h⟩, by simp⟩⟩
  | c :: cs, agg, sm, r, s, s', e, hw, hc, ha => by
    unfold foldSumClaims at e
    obtain ⟨ch, s1, e1, e⟩ := Act.bind_eq_ok.1 e
    obtain ⟨tr, -, rfl⟩ := challengeU_inv e1
    have hc0 := hc c (List.mem_cons_self ..)
    obtain ⟨w3, k3, n3, -, v3⟩ := foldStep_values hw hc0 ha tr ch
    have e' : foldSumClaims H cs (s.own.idCounter + 1) (sm + c.2 * ch) (((s.setTr tr).push (.mulScalar c.1 ch)).push (.add agg s.own.idCounter)) = (.ok r, s') := e
    obtain ⟨w4, k4, v4⟩ := foldSumClaims_values H cs e' w3 (fun c' h' => k3.known (hc c' (List.mem_cons_of_mem _ h'))) n3
    refine ⟨w4, k3.trans k4, fun ans x v h => ?_⟩
    obtain ⟨⟨a, h1⟩, h2⟩ := v4 ans x v h
    obtain ⟨h3, h4⟩ := v3 ans x a h1
    refine ⟨h3, fun c' h' => ?_⟩
    rcases List.mem_cons.1 h' with rfl | h'
    · exact h4
    · obtain ⟨w, h5⟩ := h2 c' h'
      exact ⟨w, (ev_keep hw k3 (hc c' (List.mem_cons_of_mem _ h')) ans x).symm.trans h5⟩

/-- Where the aggregated polynomial has a value, so has every claimed polynomial. -/
theorem aggregate_values (H : Oracle F C) {r : Nat × F} (e : aggregate H s = (.ok r, s')) (hw : Wf s) (hz : ∀ c ∈ s.own.zeroClaims, s.Known c)
    (hs : ∀ c ∈ s.own.sumClaims, s.Known c.1) (ans : Nat → List F → Res F) (x : List F) (v : F) (h : s'.ev ans r.1 x = .ok v) :
    (∀ c ∈ s.own.zeroClaims, ∃ w, s.ev ans c x = .ok w) ∧ ∀ c ∈ s.own.sumClaims, ∃ w, s.ev ans c.1 x = .ok w := by
  unfold aggregate convertZero at e
  rw [Act.reads_bind, Act.bind_assoc, Act.bind_ok (trackVirtual_run _ s), Act.bind_assoc, Act.reads_bind, Act.bind_assoc] at e
  have hw1 : Wf (s.push (.fn fun _ => .ok 0)) := wf_push hw (by simp [VComm.refs])
  have hk1 := keep_push hw (.fn fun _ => .ok 0)
  obtain ⟨a, s2, e1, e⟩ := Act.bind_eq_ok.1 e
  obtain ⟨w2, k2, n2, c2, v2⟩ := foldZeroClaims_values H _ e1 hw1 (fun c hc => hk1.known (hz c hc)) (known_push s _)
  rw [Act.bind_assoc] at e
  obtain ⟨rr, s3, e2, e⟩ := Act.bind_eq_ok.1 e
  obtain ⟨tr, rfl⟩ : ∃ tr, s3 = s2.setTr tr := by
    unfold challengesU at e2
    split at e2
    · obtain ⟨-, rfl⟩ := Prod.mk.inj e2
      exact ⟨_, rfl⟩
    · simp at e2
  have w3 : Wf (s2.setTr tr) := wf_setTr w2 _
  rw [Act.bind_assoc, Act.bind_ok (trackVirtual_run _ _)] at e
  set s4 := (s2.setTr tr).push (.fn fun pt => eqEval pt rr) with hs4
  have w4 : Wf s4 := wf_push w3 (by simp [VComm.refs])
  have k4 : VKeep (s2.setTr tr) s4 := keep_push w3 _
  rw [Act.bind_assoc] at e
  unfold mulComms at e
  rw [Act.bind_ok (trackVirtual_run _ _)] at e
  have ka4 : s4.Known a := k4.known n2
  have ke4 : s4.Known (s2.setTr tr).own.idCounter := known_push _ _
  set s5 := s4.push (.mul a (s2.setTr tr).own.idCounter) with hs5
  have w5 : Wf s5 := wf_push w4 (refs2 (P := fun r => s4.Known r) ka4 ke4)
  have k5 : VKeep s4 s5 := keep_push w4 _
  unfold addSumClaim at e
  obtain ⟨_, s6, e3, e⟩ := Act.bind_eq_ok.1 e
  obtain ⟨-, rfl⟩ := Prod.mk.inj e3
  rw [Act.bind_ok (trackVirtual_run _ _), Act.reads_bind] at e
  set s6 : VSt F C B := { s5 with own := { s5.own with sumClaims := s5.own.sumClaims ++ [(s4.own.idCounter, 0)] } } with hs6
  have w6 : Wf s6 := ⟨w5.refs, w5.lt⟩
  have k6 : VKeep s5 s6 := ⟨le_refl _, fun _ _ h => h⟩
  have k06 : VKeep s s6 := ((((hk1.trans k2).trans (keep_setTr s2 tr)).trans k4).trans k5).trans k6
  have hsum6 : s6.own.sumClaims = s.own.sumClaims ++ [(s4.own.idCounter, 0)] := by
    show s2.own.sumClaims ++ _ = _
    rw [c2]; rfl
  have w7 : Wf (s6.push (.fn fun _ => .ok 0)) := wf_push w6 (by simp [VComm.refs])
  have k7 := keep_push w6 (.fn fun _ => .ok 0)
  have hkn : ∀ c ∈ s6.own.sumClaims, s6.Known c.1 := by
    intro c hc
    rw [hsum6] at hc
    rcases List.mem_append.1 hc with hc | hc
    · exact k06.known (hs c hc)
    · obtain rfl : c = _ := by simpa using hc
      exact known_push s4 _
  obtain ⟨w8, k8, v8⟩ := foldSumClaims_values H _ e w7 (fun c hc => k7.known (hkn c hc)) (known_push s6 _)
  obtain ⟨-, h2⟩ := v8 ans x v h
  have h3 : ∀ c ∈ s6.own.sumClaims, ∃ w, s6.ev ans c.1 x = .ok w := fun c hc => by
    obtain ⟨w, h4⟩ := h2 c hc
    exact ⟨w, (ev_keep w6 k7 (hkn c hc) ans x).symm.trans h4⟩
  refine ⟨fun c hc => ?_, fun c hc => ?_⟩
  · obtain ⟨w, h4⟩ := h3 (s4.own.idCounter, 0) (by rw [hsum6]; simp)
    have h5 : s5.ev ans s4.own.idCounter x = .ok w := h4
    obtain ⟨⟨w', h6⟩, -⟩ := ev_mul_inv w4 ka4 ke4 h5
    have h7 : s2.ev ans a x = .ok w' := (ev_keep w3 k4 (id := a) n2 ans x).symm.trans h6
    obtain ⟨-, h8⟩ := v2 ans x w' h7
    obtain ⟨w'', h9⟩ := h8 c hc
    exact ⟨w'', (ev_keep hw hk1 (hz c hc) ans x).symm.trans h9⟩
  · obtain ⟨w, h4⟩ := h3 c (by rw [hsum6]; simp [hc])
    exact ⟨w, (ev_keep hw k06 (hs c hc) ans x).symm.trans h4⟩

end VSt
end Zksql
