import Verif.Lemmas.Sound
import Mathlib.Algebra.Polynomial.Roots
import Mathlib.Algebra.Polynomial.BigOperators
import Mathlib.Tactic.FieldSimp
import Mathlib.Tactic.LinearCombination
/-! The multiset check: sums of fractions determine the weights, and what the verifier's claims imply. -/
set_option linter.unusedSectionVars false
namespace Zksql
open Spec
variable {F C B : Type} [Field F] [DecidableEq F]

/-! ### Sums of fractions -/

/-- The numerator of `∑_{z ∈ S} d z / (X - z)`. -/
noncomputable def numer (S : Finset F) (d : F → F) : Polynomial F :=
  ∑ z ∈ S, Polynomial.C (d z) * ∏ z' ∈ S.erase z, (Polynomial.X - Polynomial.C z')

theorem numer_eval (S : Finset F) (d : F → F) (x : F) : (numer S d).eval x = ∑ z ∈ S, d z * ∏ z' ∈ S.erase z, (x - z') := by
  unfold numer
  rw [Polynomial.eval_finsetSum]
  refine Finset.sum_congr rfl fun z _ => ?_
  rw [Polynomial.eval_mul, Polynomial.eval_C, Polynomial.eval_prod]
  simp

theorem numer_at {S : Finset F} (d : F → F) {z : F} (hz : z ∈ S) : (numer S d).eval z = d z * ∏ z' ∈ S.erase z, (z - z') := by
  rw [numer_eval, Finset.sum_eq_single z]
  · intro y hy hyz
    rw [Finset.prod_eq_zero (i := z) (Finset.mem_erase.2 ⟨hyz.symm, hz⟩) (sub_self z), mul_zero]
  · intro h; exact absurd hz h

theorem numer_zero {S : Finset F} {d : F → F} (h : numer S d = 0) {z : F} (hz : z ∈ S) : d z = 0 := by
  have := numer_at d hz
  rw [h, Polynomial.eval_zero] at this
  rcases mul_eq_zero.1 this.symm with h | h
  · exact h
  · obtain ⟨y, hy, h⟩ := Finset.prod_eq_zero_iff.1 h
    exact absurd (sub_eq_zero.1 h).symm (Finset.mem_erase.1 hy).1

theorem numer_degree (S : Finset F) (d : F → F) : (numer S d).natDegree ≤ S.card := by
  unfold numer
  refine Polynomial.natDegree_sum_le_of_forall_le _ _ fun z hz => ?_
  refine (Polynomial.natDegree_C_mul_le _ _).trans ?_
  refine (Polynomial.natDegree_prod_le _ _).trans ?_
  refine (Finset.sum_le_card_nsmul _ _ 1 fun y _ => Polynomial.natDegree_X_sub_C_le y).trans ?_
  simpa using Finset.card_le_card (Finset.erase_subset z S)

/-- The challenges at which a non-zero weight goes unnoticed. -/
noncomputable def exceptional (S : Finset F) (d : F → F) : Finset F := (numer S d).roots.toFinset

theorem exceptional_card (S : Finset F) (d : F → F) : (exceptional S d).card ≤ S.card :=
  (Multiset.toFinset_card_le _).trans ((Polynomial.card_roots' _).trans (numer_degree S d))

theorem exceptional_spec {S : Finset F} {d : F → F} {γ : F} (hγ : γ ∉ S) (hs : ∑ z ∈ S, d z * (z - γ)⁻¹ = 0) (he : γ ∉ exceptional S d) :
    ∀ z ∈ S, d z = 0 := by
  have hev : (numer S d).eval γ = 0 := by
    rw [numer_eval]
    have : ∀ z ∈ S, d z * ∏ z' ∈ S.erase z, (γ - z') = -(∏ z' ∈ S, (γ - z')) * (d z * (z - γ)⁻¹) := by
      intro z hz
      rw [← Finset.mul_prod_erase S _ hz]
      have : z - γ ≠ 0 := fun h => hγ (by rw [← sub_eq_zero.1 h]; exact hz)
      field_simp
      ring
    rw [Finset.sum_congr rfl this, ← Finset.mul_sum, hs, mul_zero]
  intro z hz
  refine numer_zero ?_ hz
  by_contra h0
  apply he
  unfold exceptional
  rw [Multiset.mem_toFinset, Polynomial.mem_roots h0]
  exact hev

/-- Collecting equal denominators. -/
theorem collect {n : Nat} {T w : Nat → F} {S : Finset F} (hS : ∀ b < n, T b ∈ S) (γ : F) :
    ∑ b ∈ Finset.range n, (T b - γ)⁻¹ * w b = ∑ z ∈ S, (∑ b ∈ Finset.range n, if T b = z then w b else 0) * (z - γ)⁻¹ := by
  simp_rw [Finset.sum_mul]
  rw [Finset.sum_comm]
  refine Finset.sum_congr rfl fun b hb => ?_
  rw [Finset.sum_eq_single (T b)]
  · rw [if_pos rfl, mul_comm]
  · intro z _ hz
    rw [if_neg hz.symm, zero_mul]
  · intro h
    exact absurd (hS b (Finset.mem_range.1 hb)) h

/-! ### Weights of the tables behind the verifier's handles -/

variable {E : Env F C} {s s1 s2 s' : VSt F C B} {N : Nat} {P : C → List F → F}

/-- The value of a handle on the hypercube, zero when it cannot be evaluated. -/
def tv (s : VSt F C B) (P : C → List F → F) (N h b : Nat) : F :=
  match valueAt s P h (boolPt N b) with
  | .ok v => v
  | .error _ => 0

/-- The handle can be evaluated on the hypercube. -/
def Fine (s : VSt F C B) (P : C → List F → F) (N h : Nat) : Prop := Vals s P N h (tv s P N h)

theorem Spec.Vals.tv {h : Nat} {T : Nat → F} (hv : Vals s P N h T) {b : Nat} (hb : b < 2 ^ N) : tv s P N h b = T b := by
  unfold Zksql.tv
  rw [hv b hb]

theorem Spec.Vals.fine {h : Nat} {T : Nat → F} (hv : Vals s P N h T) : Fine s P N h := hv.congr fun _ hb => (hv.tv hb).symm

theorem tv_congr {P P' : C → List F → F} (h : ∀ i c, s.own.matComms.lookup i = some c → P c = P' c) (i b : Nat) : tv s P N i b = tv s P' N i b := by
  unfold tv
  rw [valueAt_congr h]

theorem Later.tv (h : Later s s') (hs : Sane s) {i : Nat} (k : Known s i) (b : Nat) : tv s' P N i b = tv s P N i b := by
  unfold Zksql.tv
  rw [h.value hs k]

theorem Later.fine (h : Later s s') (hs : Sane s) {i : Nat} (k : Known s i) : Fine s' P N i ↔ Fine s P N i := by
  unfold Fine Vals
  simp only [h.value hs k, h.tv hs k]

/-- A bag with its multiplicities, by handles. -/
abbrev Ent := BagComm × Nat

def EntFine (s : VSt F C B) (P : C → List F → F) (N : Nat) (q : Ent) : Prop := Fine s P N q.1.poly ∧ Fine s P N q.1.selector ∧ Fine s P N q.2
def EntKnown (s : VSt F C B) (q : Ent) : Prop := KnownBag s q.1 ∧ Known s q.2

/-- The weight of a value in a bag, over the whole hypercube. -/
def wt (s : VSt F C B) (P : C → List F → F) (N : Nat) (q : Ent) (z : F) : F :=
  ∑ b ∈ Finset.range (2 ^ N), if tv s P N q.1.poly b = z then tv s P N q.2 b * tv s P N q.1.selector b else 0

/-- The sum of fractions a bag contributes. -/
def frac (s : VSt F C B) (P : C → List F → F) (N : Nat) (q : Ent) (γ : F) : F :=
  ∑ b ∈ Finset.range (2 ^ N), (tv s P N q.1.poly b - γ)⁻¹ * (tv s P N q.2 b * tv s P N q.1.selector b)

/-- Weight of a value on one side, with the scaling the verifier uses. -/
def sideWt (s : VSt F C B) (P : C → List F → F) (N top : Nat) (l : List Ent) (z : F) : F :=
  (l.map fun q => ((2 : F) ^ (top - q.1.numVars))⁻¹ * wt s P N q z).sum

def sideFrac (s : VSt F C B) (P : C → List F → F) (N top : Nat) (l : List Ent) (γ : F) : F :=
  (l.map fun q => ((2 : F) ^ (top - q.1.numVars))⁻¹ * frac s P N q γ).sum

/-- The values occurring on one side. -/
def sideVals (s : VSt F C B) (P : C → List F → F) (N : Nat) (l : List Ent) : Finset F :=
  (l.flatMap fun q => (List.range (2 ^ N)).map (tv s P N q.1.poly)).toFinset

theorem mem_sideVals {l : List Ent} {q : Ent} (hq : q ∈ l) {b : Nat} (hb : b < 2 ^ N) : tv s P N q.1.poly b ∈ sideVals s P N l := by
  unfold sideVals
  rw [List.mem_toFinset, List.mem_flatMap]
  exact ⟨q, hq, List.mem_map.2 ⟨b, List.mem_range.2 hb, rfl⟩⟩

theorem mem_sideVals_iff {l : List Ent} {z : F} : z ∈ sideVals s P N l ↔ ∃ q ∈ l, ∃ b < 2 ^ N, tv s P N q.1.poly b = z := by
  unfold sideVals
  rw [List.mem_toFinset, List.mem_flatMap]
  simp [List.mem_map]

theorem sideWt_eq_zero {l : List Ent} {z : F} {top : Nat} (h : z ∉ sideVals s P N l) : sideWt s P N top l z = 0 := by
  unfold sideWt
  apply List.sum_eq_zero
  intro x hx
  obtain ⟨q, hq, rfl⟩ := List.mem_map.1 hx
  have : wt s P N q z = 0 := by
    unfold wt
    refine Finset.sum_eq_zero fun b hb => if_neg ?_
    rintro rfl
    exact h (mem_sideVals hq (Finset.mem_range.1 hb))
  rw [this, mul_zero]

theorem sideFrac_collect {S : Finset F} {top : Nat} {γ : F} {l : List Ent} (hS : ∀ z ∈ sideVals s P N l, z ∈ S) :
    sideFrac s P N top l γ = ∑ z ∈ S, sideWt s P N top l z * (z - γ)⁻¹ := by
  induction l with
  | nil => simp [sideFrac, sideWt]
  | cons q l ih =>
    have h1 : frac s P N q γ = ∑ z ∈ S, wt s P N q z * (z - γ)⁻¹ :=
      collect (fun b hb => hS _ (mem_sideVals (List.mem_cons_self ..) hb)) γ
    have h2 := ih fun z hz => hS z (by
      obtain ⟨q', hq, b, hb, e⟩ := mem_sideVals_iff.1 hz
      exact mem_sideVals_iff.2 ⟨q', List.mem_cons_of_mem _ hq, b, hb, e⟩)
    unfold sideFrac sideWt at h2 ⊢
    simp only [List.map_cons, List.sum_cons, add_mul, Finset.sum_add_distrib, h1, h2, Finset.mul_sum, mul_assoc]

variable {l : List Ent}

theorem Later.entKnown (h : Later s s') {q : Ent} (k : EntKnown s q) : EntKnown s' q := ⟨h.knownBag k.1, h.known k.2⟩

theorem Later.entFine (h : Later s s') (hs : Sane s) {q : Ent} (k : EntKnown s q) : EntFine s' P N q ↔ EntFine s P N q := by
  unfold EntFine
  rw [h.fine hs k.1.1, h.fine hs k.1.2, h.fine hs k.2]

theorem Later.wt (h : Later s s') (hs : Sane s) {q : Ent} (k : EntKnown s q) (z : F) : wt s' P N q z = wt s P N q z := by
  unfold Zksql.wt
  simp only [h.tv hs k.1.1, h.tv hs k.1.2, h.tv hs k.2]

theorem Later.frac (h : Later s s') (hs : Sane s) {q : Ent} (k : EntKnown s q) (z : F) : frac s' P N q z = frac s P N q z := by
  unfold Zksql.frac
  simp only [h.tv hs k.1.1, h.tv hs k.1.2, h.tv hs k.2]

theorem Later.sideWt (h : Later s s') (hs : Sane s) (k : ∀ q ∈ l, EntKnown s q) (top : Nat) (z : F) : sideWt s' P N top l z = sideWt s P N top l z := by
  unfold Zksql.sideWt
  congr 1
  exact List.map_congr_left fun q hq => by rw [h.wt hs (k q hq)]

theorem Later.sideFrac (h : Later s s') (hs : Sane s) (k : ∀ q ∈ l, EntKnown s q) (top : Nat) (z : F) :
    sideFrac s' P N top l z = sideFrac s P N top l z := by
  unfold Zksql.sideFrac
  congr 1
  exact List.map_congr_left fun q hq => by rw [h.frac hs (k q hq)]

/-! ### The verifier's subclaims -/

section
variable {ι α : Type} {bounds : List Nat} {Concl : ι → CompiledProof F C B → (C → List F → F) → Prop} {K : ι → F → Oracle F C → Act (VSt F C B) α}

/-- What the two claims about one bag imply. -/
theorem verifySub_rule {q : Ent} {γ : F} (hs : Sane s) (k : EntKnown s q)
    (h : ∀ s', Quiet s s' → SoundI (fun (i : ι × F) => K i.1 i.2) s' N bounds fun i pf P =>
      (EntFine s P N q → (∀ b < 2 ^ N, tv s P N q.1.poly b ≠ γ) ∧ i.2 = frac s P N q γ) → Concl i.1 pf P) :
    SoundI (fun i H => Multitool.verifySub E q.1 q.2 γ >>= fun v => K i v H) s N bounds Concl := by
  obtain ⟨⟨k1, k2⟩, k3⟩ := k
  unfold Multitool.verifySub
  simp only [Act.bind_assoc]
  refine step_transferI hs fun phat c s1 q1 l1 m1 _ _ => ?_
  refine step_mulI q1.sane (by later) (by later) fun pm s2 q2 l2 => ?_
  refine step_mulI q2.sane (by later) (by later) fun sc s3 q3 l3 => ?_
  refine step_mulI q3.sane (by later) (by later) fun pp s4 q4 l4 => ?_
  refine step_mulScalarI q4.sane (by later) fun gp s5 q5 l5 => ?_
  refine step_subI q5.sane (by later) (by later) fun d s6 q6 l6 => ?_
  refine step_addScalarI q6.sane (by later) fun ck s7 q7 l7 => ?_
  refine SoundI.claimedSum (SoundI.sumClaim (v := fun i : ι × F => i.2) q7.sane (by later) ?_)
  refine step_zeroClaimI q7.sane (by later) fun s9 q9 c9 => ?_
  have w : Whole _ _ := ⟨q1.trans (q2.trans (q3.trans (q4.trans (q5.trans (q6.trans (q7.trans q9))))))⟩
  refine (h s9 w.q).mono w.q.sane fun P hc hC ⟨T, t1, t2⟩ _ => hC fun hf => ?_
  have hs' := w.q.sane
  obtain ⟨f1, f2, f3⟩ := hf
  have f1 := (w.q.vals hs (by later)).2 f1
  have f2 := (w.q.vals hs (by later)).2 f2
  have f3 := (w.q.vals hs (by later)).2 f3
  have vp := vals_query (P := P) (N := N) hs' (h := phat) (i := phat) (c := c) (by later) (by later)
  have vpm := vals_mul hs' (h := pm) (by later) vp f3
  have vsc := vals_mul hs' (h := sc) (by later) vpm f2
  have vpp := vals_mul hs' (h := pp) (by later) f1 vp
  have vgp := vals_mulScalar hs' (h := gp) (by later) vp
  have vd := vals_sub hs' (h := d) (by later) vpp vgp
  have vck := vals_addScalar hs' (h := ck) (by later) vd
  have z := fun b hb => hc.zero c9 vck (b := b) hb
  have t1 := (q9.vals q7.sane (by later)).2 t1
  have hsum := (cubeSum_unique vsc t1).trans t2
  have inv : ∀ b < 2 ^ N, (tv s P N q.1.poly b - γ) * P c (boolPt N b) = 1 := by
    intro b hb
    linear_combination z b hb
  refine ⟨fun b hb h => ?_, ?_⟩
  · have := inv b hb
    rw [h, sub_self, zero_mul] at this
    exact zero_ne_one this
  · rw [← hsum]
    unfold frac cubeSum
    refine Finset.sum_congr rfl fun b hb => ?_
    beta_reduce
    rw [eq_inv_of_mul_eq_one_right (inv b (Finset.mem_range.1 hb))]
    ring

end

theorem divPow2_ok {v r : F} {k : Nat} (h : Multitool.divPow2 v k = .ok r) : r = ((2 : F) ^ k)⁻¹ * v := by
  unfold Multitool.divPow2 at h
  split at h
  · simp at h
  · rw [← Except.ok.inj h, div_eq_inv_mul]

theorem verifySubs_rule {ι α : Type} {bounds : List Nat} {Concl : ι → CompiledProof F C B → (C → List F → F) → Prop}
    {K : ι → F → Oracle F C → Act (VSt F C B) α} {γ : F} {acc : ι → F} {top : Nat} (hs : Sane s) (k : ∀ q ∈ l, EntKnown s q)
    (h : ∀ s', Quiet s s' → SoundI (fun (i : ι × F) => K i.1 i.2) s' N bounds fun i pf P => ((∀ q ∈ l, EntFine s P N q) →
      (∀ q ∈ l, ∀ b < 2 ^ N, tv s P N q.1.poly b ≠ γ) ∧ i.2 = acc i.1 + sideFrac s P N top l γ) → Concl i.1 pf P) :
    SoundI (fun i H => Multitool.verifySubs E γ top l (acc i) >>= fun v => K i v H) s N bounds Concl := by
  induction l generalizing ι s acc with
  | nil =>
    have := (h s (Quiet.refl hs)).comap fun i => (i, acc i)
    exact this.mono hs fun P _ hC => hC fun _ => ⟨by simp, by simp [sideFrac]⟩
  | cons q l ih =>
    obtain ⟨b, m⟩ := q
    simp only [Multitool.verifySubs, Act.bind_assoc]
    have k' : ∀ q ∈ l, EntKnown s q := fun q hq => k q (List.mem_cons_of_mem _ hq)
    refine verifySub_rule (q := (b, m)) hs (k _ (List.mem_cons_self ..)) fun s1 q1 => ?_
    refine SoundI.lift (r := fun i : ι × F => Multitool.divPow2 i.2 (top - b.numVars)) ?_
    refine ih (acc := fun i : (ι × F) × F => acc i.1.1 + i.2) q1.sane (fun q hq => q1.entKnown (k' q hq)) fun s2 q2 => ?_
    have := (h s2 (q1.trans q2)).comap fun i : ((ι × F) × F) × F => (i.1.1.1, i.2)
    refine this.mono q2.sane fun {i _} P hc hC h2 e2 h1 => hC fun hf => ?_
    obtain ⟨a1, a2⟩ := h1 (hf _ (List.mem_cons_self ..))
    obtain ⟨b1, b2⟩ := h2 fun q hq => (q1.entFine hs (k' q hq)).2 (hf q (List.mem_cons_of_mem _ hq))
    refine ⟨?_, ?_⟩
    · intro q hq b' hb
      rcases List.mem_cons.1 hq with rfl | hq
      · exact a1 b' hb
      · have := b1 q hq b' hb
        rwa [q1.tv hs (k' q hq).1.1] at this
    · rw [b2, q1.sideFrac hs k', divPow2_ok e2, a2]
      unfold sideFrac
      simp only [List.map_cons, List.sum_cons]
      ring

/-! ### The verifier's comparison -/

open Classical in
/-- The exceptional challenges, unless there are too many of them. -/
noncomputable def cap (D : Nat) (S : Finset F) : Finset F := if S.card ≤ D then S else ∅

theorem cap_card (D : Nat) (S : Finset F) : (cap D S).card ≤ D := by
  unfold cap
  split
  · assumption
  · simp

/-- The largest number of variables, as the verifier computes it. -/
def topOf (f g : List BagComm) : Nat := max (Multitool.maxNv f) (Multitool.maxNv g)

theorem verifySub_withH (H : Oracle F C) (b : BagComm) (m : Nat) (γ : F) :
    (Multitool.verifySub (E.withH H) b m γ : Act (VSt F C B) F) = Multitool.verifySub E b m γ := rfl

theorem verifySubs_withH (H : Oracle F C) (γ : F) (top : Nat) (l : List Ent) (acc : F) :
    (Multitool.verifySubs (E.withH H) γ top l acc : Act (VSt F C B) F) = Multitool.verifySubs E γ top l acc := by
  induction l generalizing acc with
  | nil => rfl
  | cons q l ih =>
    obtain ⟨b, m⟩ := q
    simp only [Multitool.verifySubs, verifySub_withH, ih]

theorem multitool_sound {f g : List BagComm} {mf mg : List Nat} (hs : Sane s)
    (kf : ∀ q ∈ f.zip mf, EntKnown s q) (kg : ∀ q ∈ g.zip mg, EntKnown s q) (D : Nat) :
    Snd (fun H => Multitool.verify (E.withH H) f g mf mg) s N [D] fun P => (∀ q ∈ f.zip mf, EntFine s P N q) → (∀ q ∈ g.zip mg, EntFine s P N q) →
      (sideVals s P N (f.zip mf ++ g.zip mg)).card ≤ D →
      ∀ z, sideWt s P N (topOf f g) (f.zip mf) z = sideWt s P N (topOf f g) (g.zip mg) z := by
  intro β K b2 Concl hK
  unfold Multitool.verify
  have err : ∀ b, SoundF (fun H => (Act.lift (.error (.err .invalidParameters)) : Act (VSt F C B) Unit) >>= fun a => K a H) s N b Concl :=
    fun b => SoundI.fail fun _ H t a s' e => by
      rw [Act.bind_error (m := Act.lift (.error (.err .invalidParameters))) (s' := t) (e := .err .invalidParameters) rfl] at e
      simp at e
  split
  · exact err _
  split
  · exact err _
  simp only [Act.bind_assoc, withH_H, verifySubs_withH]
  set d : (C → List F → F) → F → F := fun P z => sideWt s P N (topOf f g) (f.zip mf) z - sideWt s P N (topOf f g) (g.zip mg) z with hd
  set S : (C → List F → F) → Finset F := fun P => sideVals s P N (f.zip mf ++ g.zip mg) with hS
  refine SoundF.chal hs (fun P => cap D (exceptional (S P) (d P))) (fun P => cap_card _ _) (fun P P' hc => ?_) fun γ s1 L1 => ?_
  · have t := fun i b => tv_congr (N := N) hc i b
    have : S P = S P' ∧ d P = d P' := by
      constructor
      · simp only [hS, sideVals]
        congr 1
        congr 1
        funext q
        exact List.map_congr_left fun b _ => t _ b
      · simp only [hd, sideWt, wt, t]
    simp only [this.1, this.2]
  have kf1 : ∀ q ∈ f.zip mf, EntKnown s1 q := fun q hq => L1.entKnown (kf q hq)
  have kg1 : ∀ q ∈ g.zip mg, EntKnown s1 q := fun q hq => L1.entKnown (kg q hq)
  refine verifySubs_rule (acc := fun _ : Unit => 0) L1.sane kf1 fun s2 q2 => ?_
  refine verifySubs_rule (acc := fun _ : Unit × F => 0) q2.sane (fun q hq => q2.entKnown (kg1 q hq)) fun s3 q3 => ?_
  refine SoundI.guard (c := fun i : (Unit × F) × F => i.1.2 = i.2) ?_
  refine (hK () s3 ((L1.trans q2.toLater).trans q3.toLater)).const.mono q3.sane fun {i _} P hc hC e4 p3 p2 hb => hC fun hff hfg hcard z => ?_
  rw [cap, if_pos ((exceptional_card _ _).trans hcard)] at hb
  obtain ⟨a1, a2⟩ := p2 fun q hq => (L1.entFine hs (kf q hq)).2 (hff q hq)
  obtain ⟨b1, b2⟩ := p3 fun q hq => (((L1.trans q2.toLater)).entFine hs (kg q hq)).2 (hfg q hq)
  rw [L1.sideFrac hs kf, zero_add] at a2
  rw [(L1.trans q2.toLater).sideFrac hs kg, zero_add] at b2
  have hS1 : ∀ z ∈ sideVals s P N (f.zip mf), z ∈ S P := fun z hz => by
    obtain ⟨q, hq, w⟩ := mem_sideVals_iff.1 hz
    exact mem_sideVals_iff.2 ⟨q, List.mem_append_left _ hq, w⟩
  have hS2 : ∀ z ∈ sideVals s P N (g.zip mg), z ∈ S P := fun z hz => by
    obtain ⟨q, hq, w⟩ := mem_sideVals_iff.1 hz
    exact mem_sideVals_iff.2 ⟨q, List.mem_append_right _ hq, w⟩
  have hγ : γ ∉ S P := by
    intro h
    obtain ⟨q, hq, b, hb, e⟩ := mem_sideVals_iff.1 h
    rcases List.mem_append.1 hq with hq | hq
    · have := a1 q hq b hb
      rw [L1.tv hs (kf q hq).1.1] at this
      exact this e
    · have := b1 q hq b hb
      rw [(L1.trans q2.toLater).tv hs (kg q hq).1.1] at this
      exact this e
  have hz : ∑ z ∈ S P, d P z * (z - γ)⁻¹ = 0 := by
    simp only [hd, sub_mul, Finset.sum_sub_distrib]
    have e1 := sideFrac_collect (γ := γ) (top := topOf f g) hS1
    have e2 := sideFrac_collect (γ := γ) (top := topOf f g) hS2
    rw [← e1, ← e2, sub_eq_zero]
    exact (a2.symm.trans e4).trans b2
  by_cases hm : z ∈ S P
  · exact sub_eq_zero.1 (exceptional_spec hγ hz hb z hm)
  · rw [sideWt_eq_zero fun h => hm (hS1 z h), sideWt_eq_zero fun h => hm (hS2 z h)]

end Zksql
