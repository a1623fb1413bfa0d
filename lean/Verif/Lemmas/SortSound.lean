import Verif.Lemmas.BagTab
/-! What the claims recorded by the permutation and sort protocols imply. -/
set_option linter.unusedSectionVars false
namespace Zksql
open Spec
variable {F C B : Type} [Field F] [DecidableEq F]
variable {E : Env F C} {s s1 s2 s' : VSt F C B} {N : Nat} {P : C → List F → F}

/-! ### Values of parts -/

section
variable {h i j : Nat} {T : Nat → F}

theorem vals_add_inv (hs : Sane s) (k : s.sh.comms.lookup h = some (.add i j)) (hv : Vals s P N h T) : (∃ T1, Vals s P N i T1) ∧ ∃ T2, Vals s P N j T2 := by
  have key : ∀ b < 2 ^ N, (∃ x, valueAt s P i (boolPt N b) = .ok x) ∧ ∃ y, valueAt s P j (boolPt N b) = .ok y := by
    intro b hb
    have := hv b hb
    rw [valueAt_look hs k] at this
    simp only [VSt.evalStep] at this
    rcases h1 : valueAt s P i (boolPt N b) with e | x
    · rw [h1] at this; simp [bind, Except.bind] at this
    · rw [h1] at this
      rcases h2 : valueAt s P j (boolPt N b) with e | y
      · rw [h2] at this; simp [bind, Except.bind] at this
      · exact ⟨⟨x, rfl⟩, y, rfl⟩
  classical
  refine ⟨⟨fun b => if hb : b < 2 ^ N then (key b hb).1.choose else 0, fun b hb => ?_⟩, ⟨fun b => if hb : b < 2 ^ N then (key b hb).2.choose else 0, fun b hb => ?_⟩⟩
  · simp only [dif_pos hb]; exact (key b hb).1.choose_spec
  · simp only [dif_pos hb]; exact (key b hb).2.choose_spec

theorem vals_sub_inv (hs : Sane s) (k : s.sh.comms.lookup h = some (.sub i j)) (hv : Vals s P N h T) : (∃ T1, Vals s P N i T1) ∧ ∃ T2, Vals s P N j T2 := by
  have key : ∀ b < 2 ^ N, (∃ x, valueAt s P i (boolPt N b) = .ok x) ∧ ∃ y, valueAt s P j (boolPt N b) = .ok y := by
    intro b hb
    have := hv b hb
    rw [valueAt_look hs k] at this
    simp only [VSt.evalStep] at this
    rcases h1 : valueAt s P i (boolPt N b) with e | x
    · rw [h1] at this; simp [bind, Except.bind] at this
    · rw [h1] at this
      rcases h2 : valueAt s P j (boolPt N b) with e | y
      · rw [h2] at this; simp [bind, Except.bind] at this
      · exact ⟨⟨x, rfl⟩, y, rfl⟩
  classical
  refine ⟨⟨fun b => if hb : b < 2 ^ N then (key b hb).1.choose else 0, fun b hb => ?_⟩, ⟨fun b => if hb : b < 2 ^ N then (key b hb).2.choose else 0, fun b hb => ?_⟩⟩
  · simp only [dif_pos hb]; exact (key b hb).1.choose_spec
  · simp only [dif_pos hb]; exact (key b hb).2.choose_spec

end

/-! ### Pairs -/

/-- Values of the challenge for which two different pairs are combined to the same element. -/
def coll (S : Finset (F × F)) : Finset F := (S ×ˢ S).image fun p => (p.1.1 - p.2.1) / (p.2.2 - p.1.2)

theorem coll_card (S : Finset (F × F)) : (coll S).card ≤ S.card * S.card := by
  unfold coll
  exact Finset.card_image_le.trans (by rw [Finset.card_product])

theorem coll_spec {S : Finset (F × F)} {γ : F} (h : γ ∉ coll S) {x y : F × F} (hx : x ∈ S) (hy : y ∈ S) (e : x.1 + γ * x.2 = y.1 + γ * y.2) : x = y := by
  by_cases h2 : x.2 = y.2
  · refine Prod.ext ?_ h2
    rw [h2] at e
    exact add_right_cancel e
  · exfalso
    apply h
    refine Finset.mem_image.2 ⟨(x, y), Finset.mem_product.2 ⟨hx, hy⟩, ?_⟩
    have : y.2 - x.2 ≠ 0 := fun h0 => h2 (sub_eq_zero.1 h0).symm
    rw [div_eq_iff this]
    linear_combination e

/-- The number of positions with the pair, as a field element. -/
def pw (N : Nat) (A T : Nat → F) (x y : F) : F := ∑ b ∈ Finset.range (2 ^ N), if A b = x ∧ T b = y then 1 else 0

theorem pw_of_cw {S : Finset (F × F)} {γ : F} (h : γ ∉ coll S) {A T H : Nat → F} (hS : ∀ b < 2 ^ N, (A b, T b) ∈ S) (hH : ∀ b < 2 ^ N, H b = A b + γ * T b)
    {x y : F} (hxy : (x, y) ∈ S) : cw N H (fun _ => 1) (x + γ * y) = pw N A T x y := by
  refine Finset.sum_congr rfl fun b hb => ?_
  have hb := Finset.mem_range.1 hb
  rw [hH b hb]
  congr 1
  rw [eq_iff_iff]
  constructor
  · intro e
    have := coll_spec h (hS b hb) hxy e
    exact ⟨congrArg Prod.fst this, congrArg Prod.snd this⟩
  · rintro ⟨rfl, rfl⟩; rfl

theorem pw_zero {A T : Nat → F} {x y : F} (h : ∀ b < 2 ^ N, ¬(A b = x ∧ T b = y)) : pw N A T x y = 0 :=
  Finset.sum_eq_zero fun b hb => if_neg (h b (Finset.mem_range.1 hb))

theorem pw_ne_zero {A T : Nat → F} {x y : F} (h : pw N A T x y ≠ 0) : ∃ b < 2 ^ N, A b = x ∧ T b = y := by
  by_contra hc
  push Not at hc
  exact h (pw_zero fun b hb ⟨h1, h2⟩ => hc b hb h1 h2)

/-! ### The prescribed permutation -/

theorem orderedGo (n b i : Nat) (r : F) : b < 2 ^ n → PrescPerm.orderedFn.go F i r (boolPt n b) = r + 2 ^ i * (b : F) := by
  induction n generalizing b i r with
  | zero =>
    intro hb
    obtain rfl : b = 0 := by simpa using hb
    simp [boolPt_zero, PrescPerm.orderedFn.go]
  | succ n ih =>
    intro hb
    rw [boolPt_succ, PrescPerm.orderedFn.go, ih (b / 2) _ _ (by rw [Nat.div_lt_iff_lt_mul (by norm_num)]; rwa [pow_succ] at hb)]
    have hd : (b : F) = 2 * ((b / 2 : Nat) : F) + ((b % 2 : Nat) : F) := by
      conv_lhs => rw [← Nat.div_add_mod b 2]
      push_cast; ring
    rw [hd]
    rcases Nat.mod_two_eq_zero_or_one b with h | h <;> simp [h, pow_succ] <;> ring

theorem vals_ordered (hs : Sane s) {h : Nat} (k : s.sh.comms.lookup h = some (PrescPerm.orderedFn F)) : Vals s P N h fun b => (b : F) :=
  vals_fn hs k fun b hb => by rw [orderedGo N b 0 0 hb]; simp

theorem prescPerm_sound {f g : BagComm} {perm : Nat} (hs : Sane s) (kf : Known s f.poly)
    (kg : Known s g.poly) (kp : Known s perm) (D1 D2 : Nat) :
    Snd (fun H => PrescPerm.verify (E.withH H) f g perm) s N [D1, D2] fun P => (∃ Tp, Vals s P N perm Tp) ∧ ∀ Tf Tg Tp, Vals s P N f.poly Tf → Vals s P N g.poly Tg → Vals s P N perm Tp →
      (2 * 2 ^ N) * (2 * 2 ^ N) ≤ D1 → 2 * 2 ^ N ≤ D2 →
      ∀ x y, scl F (max f.numVars g.numVars) f.numVars * pw N (fun b => (b : F)) Tf x y = scl F (max f.numVars g.numVars) g.numVars * pw N Tp Tg x y := by
  intro β K b2 Concl hK
  unfold PrescPerm.verify
  simp only [Act.bind_assoc, withH_H, withH_debug]
  let S : (C → List F → F) → Finset (F × F) := fun P =>
    ((Finset.range (2 ^ N)).image fun b : Nat => ((b : F), tv s P N f.poly b)) ∪ (Finset.range (2 ^ N)).image fun b => (tv s P N perm b, tv s P N g.poly b)
  have hScard : ∀ P, (S P).card ≤ 2 * 2 ^ N := fun P => by
    refine (Finset.card_union_le _ _).trans ?_
    have h1 := Finset.card_image_le (s := Finset.range (2 ^ N)) (f := fun b : Nat => ((b : F), tv s P N f.poly b))
    have h2 := Finset.card_image_le (s := Finset.range (2 ^ N)) (f := fun b => (tv s P N perm b, tv s P N g.poly b))
    rw [Finset.card_range] at h1 h2
    omega
  refine SoundF.chal hs (fun P => cap D1 (coll (S P))) (fun P => cap_card _ _) (fun P P' h => by
    have t := fun i b => tv_congr (N := N) h i b
    simp only [S, t]) fun γ s1 L1 => ?_
  have kf1 := L1.known kf
  have kg1 := L1.known kg
  have kp1 := L1.known kp
  refine step_fn L1.sane fun one s2 q2 l2 => ?_
  refine step_fn q2.sane fun ord s3 q3 l3 => ?_
  refine step_transfer q3.sane fun fhat cf s4 q4 l4 m4 => ?_
  refine step_transfer q4.sane fun ghat cg s5 q5 l5 m5 => ?_
  refine step_mulScalar q5.sane (by later) fun a s6 q6 l6 => ?_
  refine step_add q6.sane (by later) (by later) fun b s7 q7 l7 => ?_
  refine step_sub q7.sane (by later) (by later) fun fck s8 q8 l8 => ?_
  refine step_mulScalar q8.sane (by later) fun c s9 q9 l9 => ?_
  refine step_add q9.sane (by later) (by later) fun d s10 q10 l10 => ?_
  refine step_sub q10.sane (by later) (by later) fun gck s11 q11 l11 => ?_
  refine (bagEq_sound (N := N) q11.sane ⟨by later, by later⟩ ⟨by later, by later⟩ D2).bind fun _ s12 L12 => ?_
  have kfck : Known s11 fck := by later
  refine step_zeroClaim L12.sane (L12.known kfck) fun s13 q13 z13 => ?_
  refine step_zeroClaim q13.sane (q13.known (L12.known (known_look l11))) fun s14 q14 z14 => ?_
  have w : Whole s1 s11 := ⟨q2.trans (q3.trans (q4.trans (q5.trans (q6.trans (q7.trans (q8.trans (q9.trans (q10.trans q11))))))))⟩
  have w2 : Whole s12 s14 := ⟨q13.trans q14⟩
  refine (hK () s14 (((L1.trans w.q.toLater).trans L12).trans w2.q.toLater)).mono q14.sane fun P hc hC hbe hγn => hC ?_
  have hs' := q14.sane
  have hs11 := q11.sane
  have L11 : Later s s11 := L1.trans w.q.toLater
  have L11' : Later s11 s14 := L12.trans w2.q.toLater
  have z1 : Vals s11 P N fck fun _ => 0 := (L11'.vals hs11 (by later)).1 (hc.1 fck (q14.zeros _ z13))
  have z2 : Vals s11 P N gck fun _ => 0 := (L11'.vals hs11 (by later)).1 (hc.1 gck z14)
  have lperm : ∃ Tp, Vals s P N perm Tp := by
    obtain ⟨⟨Td, hd⟩, -⟩ := vals_sub_inv hs11 l11 z2
    obtain ⟨⟨Tp, hp⟩, -⟩ := vals_add_inv hs11 (i := perm) (j := c) (by later) hd
    exact ⟨Tp, (L11.vals hs kp).1 hp⟩
  refine ⟨lperm, fun Tf Tg Tp vf vg vp hD1 hD2 x y => ?_⟩
  have hγS : γ ∉ coll (S P) := by
    rw [cap, if_pos] at hγn
    · exact hγn
    · refine (coll_card _).trans (le_trans ?_ hD1)
      exact Nat.mul_le_mul (hScard P) (hScard P)
  have v1 := vals_one (P := P) (N := N) hs11 (h := one) (by later)
  have vo := vals_ordered (P := P) (N := N) hs11 (h := ord) (by later)
  have vfh := vals_query (P := P) (N := N) hs11 (h := fhat) (i := fhat) (c := cf) (by later) (by later)
  have vgh := vals_query (P := P) (N := N) hs11 (h := ghat) (i := ghat) (c := cg) (by later) (by later)
  have vf' := (L11.vals hs kf).2 vf
  have vg' := (L11.vals hs kg).2 vg
  have vp' := (L11.vals hs kp).2 vp
  have va := vals_mulScalar hs11 (h := a) (by later) vf'
  have vb := vals_add hs11 (h := b) (by later) vo va
  have vfk := vals_sub hs11 (h := fck) (by later) vb vfh
  have vc := vals_mulScalar hs11 (h := c) (by later) vg'
  have vd := vals_add hs11 (h := d) (by later) vp' vc
  have vgk := vals_sub hs11 (h := gck) (by later) vd vgh
  have hf : ∀ b < 2 ^ N, P cf (boolPt N b) = (b : F) + γ * Tf b := fun b hb => (sub_eq_zero.1 (z1.unique vfk hb).symm).symm
  have hg : ∀ b < 2 ^ N, P cg (boolPt N b) = Tp b + γ * Tg b := fun b hb => (sub_eq_zero.1 (z2.unique vgk hb).symm).symm
  have hc := hbe _ _ _ _ vfh v1 vgh v1 (by
    have h1 := Finset.card_image_le (s := Finset.range (2 ^ N)) (f := fun b => P cf (boolPt N b))
    have h2 := Finset.card_image_le (s := Finset.range (2 ^ N)) (f := fun b => P cg (boolPt N b))
    rw [Finset.card_range] at h1 h2
    unfold imgOf
    omega) (x + γ * y)
  dsimp only at hc
  have hS1 : ∀ b : Nat, b < 2 ^ N → ((b : F), Tf b) ∈ S P := fun b hb =>
    Finset.mem_union_left _ (Finset.mem_image.2 ⟨b, Finset.mem_range.2 hb, by rw [vf.tv hb]⟩)
  have hS2 : ∀ b < 2 ^ N, (Tp b, Tg b) ∈ S P := fun b hb =>
    Finset.mem_union_right _ (Finset.mem_image.2 ⟨b, Finset.mem_range.2 hb, by rw [vp.tv hb, vg.tv hb]⟩)
  by_cases hxy : (x, y) ∈ S P
  · rwa [pw_of_cw hγS hS1 hf hxy, pw_of_cw hγS hS2 hg hxy] at hc
  · rw [pw_zero fun b hb h => hxy (by rw [← h.1, ← h.2]; exact hS1 b hb), pw_zero fun b hb h => hxy (by rw [← h.1, ← h.2]; exact hS2 b hb)]
    simp

end Zksql
