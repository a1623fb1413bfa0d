import Verif.Lemmas.Logup
import Verif.Lemmas.Mle2
import Verif.Spec.SumCheck
/-! What the claims recorded by the bag protocols imply: single multiset checks and pointwise checks. -/
set_option linter.unusedSectionVars false
namespace Zksql
open Spec
variable {F C B : Type} [Field F] [DecidableEq F]
variable {E : Env F C} {s s1 s2 s' : VSt F C B} {N : Nat} {P : C → List F → F}

/-! ### Weights of functions on a hypercube -/

/-- Weight of a value over the hypercube. -/
def cw (N : Nat) (T w : Nat → F) (z : F) : F := ∑ b ∈ Finset.range (2 ^ N), if T b = z then w b else 0

theorem cw_congr {T T' w w' : Nat → F} (h1 : ∀ b < 2 ^ N, T b = T' b) (h2 : ∀ b < 2 ^ N, w b = w' b) (z : F) : cw N T w z = cw N T' w' z :=
  Finset.sum_congr rfl fun b hb => by rw [h1 b (Finset.mem_range.1 hb), h2 b (Finset.mem_range.1 hb)]

theorem cw_ne_zero {T w : Nat → F} {z : F} (h : cw N T w z ≠ 0) : ∃ b < 2 ^ N, T b = z ∧ w b ≠ 0 := by
  obtain ⟨b, hb, h⟩ := Finset.exists_ne_zero_of_sum_ne_zero h
  split at h
  · exact ⟨b, Finset.mem_range.1 hb, by assumption, h⟩
  · exact absurd rfl h

/-- A value in a single place. -/
theorem cw_single {T w : Nat → F} {z : F} {i : Nat} (hi : i < 2 ^ N) (hz : T i = z) (h : ∀ b < 2 ^ N, T b = z → w b ≠ 0 → b = i) : cw N T w z = w i := by
  unfold cw
  rw [Finset.sum_eq_single i, if_pos hz]
  · intro b hb hbi
    split
    · by_contra h0
      exact hbi (h b (Finset.mem_range.1 hb) (by assumption) h0)
    · rfl
  · intro h; exact absurd (Finset.mem_range.2 hi) h

theorem cubeSum_mod {nv : Nat} (h : nv ≤ N) (f : Nat → F) : cubeSum N (fun b => f (b % 2 ^ nv)) = 2 ^ (N - nv) * cubeSum nv f := by
  obtain ⟨k, rfl⟩ := Nat.exists_eq_add_of_le h
  rw [cubeSum_add]
  have : ∀ i ∈ Finset.range (2 ^ k), ∑ j ∈ Finset.range (2 ^ nv), f ((i * 2 ^ nv + j) % 2 ^ nv) = cubeSum nv f := by
    intro i _
    refine Finset.sum_congr rfl fun j hj => ?_
    rw [Nat.mul_add_mod_self_right, Nat.mod_eq_of_lt (Finset.mem_range.1 hj)]
  rw [Finset.sum_congr rfl this, Finset.sum_const, Finset.card_range, nsmul_eq_mul]
  simp

theorem cw_mod {nv : Nat} (h : nv ≤ N) (T w : Nat → F) (z : F) :
    cw N (fun b => T (b % 2 ^ nv)) (fun b => w (b % 2 ^ nv)) z = 2 ^ (N - nv) * cw nv T w z :=
  cubeSum_mod h fun b => if T b = z then w b else 0

/-- The scaling makes weights comparable. -/
theorem scale_mod (h2 : (2 : F) ≠ 0) {nv top : Nat} (h : nv ≤ N) (ht : nv ≤ top) (x : F) :
    ((2 : F) ^ (top - nv))⁻¹ * (2 ^ (N - nv) * x) = 2 ^ N * ((2 : F) ^ top)⁻¹ * x := by
  obtain ⟨k, rfl⟩ := Nat.exists_eq_add_of_le h
  obtain ⟨m, rfl⟩ := Nat.exists_eq_add_of_le ht
  have : (2 : F) ^ nv ≠ 0 := pow_ne_zero _ h2
  have : (2 : F) ^ m ≠ 0 := pow_ne_zero _ h2
  simp only [Nat.add_sub_cancel_left, pow_add]
  field_simp

theorem image_mod {nv : Nat} (h : nv ≤ N) (T : Nat → F) : ((Finset.range (2 ^ N)).image fun b => T (b % 2 ^ nv)).card ≤ 2 ^ nv := by
  have : ((Finset.range (2 ^ N)).image fun b => T (b % 2 ^ nv)) ⊆ (Finset.range (2 ^ nv)).image T := by
    intro x hx
    obtain ⟨b, hb, rfl⟩ := Finset.mem_image.1 hx
    exact Finset.mem_image.2 ⟨b % 2 ^ nv, Finset.mem_range.2 (Nat.mod_lt _ (by positivity)), rfl⟩
  refine (Finset.card_le_card this).trans (Finset.card_image_le.trans ?_)
  simp

/-! ### Multiset checks in terms of tables -/

/-- Tables behind a bag with multiplicities. -/
structure Tabs (F : Type) where
  T : Nat → F
  σ : Nat → F
  μ : Nat → F

def EntVals (s : VSt F C B) (P : C → List F → F) (N : Nat) (q : Ent) (e : Tabs F) : Prop :=
  Vals s P N q.1.poly e.T ∧ Vals s P N q.1.selector e.σ ∧ Vals s P N q.2 e.μ

/-- The weight contributed by a bag, with the verifier's scaling. -/
def Tabs.wt (N top : Nat) (q : Ent) (e : Tabs F) (z : F) : F := ((2 : F) ^ (top - q.1.numVars))⁻¹ * cw N e.T (fun b => e.μ b * e.σ b) z

/-- The values in the table. -/
def imgOf (N : Nat) (T : Nat → F) : Finset F := (Finset.range (2 ^ N)).image T

theorem EntVals.fine {q : Ent} {e : Tabs F} (h : EntVals s P N q e) : EntFine s P N q := ⟨h.1.fine, h.2.1.fine, h.2.2.fine⟩

theorem EntVals.wt {q : Ent} {e : Tabs F} (h : EntVals s P N q e) (z : F) : wt s P N q z = cw N e.T (fun b => e.μ b * e.σ b) z :=
  cw_congr (fun b hb => h.1.tv hb) (fun b hb => by rw [h.2.2.tv hb, h.2.1.tv hb]) z

theorem sideWt_eq {top : Nat} {l : List Ent} {es : List (Tabs F)} (h : List.Forall₂ (EntVals s P N) l es) (z : F) :
    sideWt s P N top l z = (List.zipWith (fun q e => Tabs.wt N top q e z) l es).sum := by
  unfold sideWt
  induction h with
  | nil => simp
  | cons h _ ih =>
    simp only [List.map_cons, List.sum_cons, List.zipWith_cons_cons, ih, h.wt, Tabs.wt]

theorem forall2_fine {l : List Ent} {es : List (Tabs F)} (h : List.Forall₂ (EntVals s P N) l es) : ∀ q ∈ l, EntFine s P N q := by
  induction h with
  | nil => simp
  | cons h _ ih =>
    intro q hq
    rcases List.mem_cons.1 hq with rfl | hq
    · exact h.fine
    · exact ih q hq

theorem sideVals_card {l : List Ent} {es : List (Tabs F)} (h : List.Forall₂ (EntVals s P N) l es) :
    (sideVals s P N l).card ≤ (es.map fun e => (imgOf N e.T).card).sum := by
  induction h with
  | nil => simp [sideVals]
  | @cons q e l es h _ ih =>
    have : sideVals s P N (q :: l) ⊆ imgOf N e.T ∪ sideVals s P N l := by
      intro z hz
      obtain ⟨q', hq, b, hb, rfl⟩ := mem_sideVals_iff.1 hz
      rcases List.mem_cons.1 hq with rfl | hq
      · exact Finset.mem_union_left _ (Finset.mem_image.2 ⟨b, Finset.mem_range.2 hb, (h.1.tv hb).symm⟩)
      · exact Finset.mem_union_right _ (mem_sideVals hq hb)
    refine (Finset.card_le_card this).trans ((Finset.card_union_le _ _).trans ?_)
    simp only [List.map_cons, List.sum_cons]
    omega

theorem multitool_tabs {f g : List BagComm} {mf mg : List Nat} (hs : Sane s)
    (kf : ∀ q ∈ f.zip mf, EntKnown s q) (kg : ∀ q ∈ g.zip mg, EntKnown s q) (D : Nat) :
    Snd (fun H => Multitool.verify (E.withH H) f g mf mg) s N [D] fun P => ∀ ef eg : List (Tabs F), List.Forall₂ (EntVals s P N) (f.zip mf) ef → List.Forall₂ (EntVals s P N) (g.zip mg) eg →
      ((ef ++ eg).map fun e => (imgOf N e.T).card).sum ≤ D →
      ∀ z, (List.zipWith (fun q e => Tabs.wt N (topOf f g) q e z) (f.zip mf) ef).sum =
        (List.zipWith (fun q e => Tabs.wt N (topOf f g) q e z) (g.zip mg) eg).sum := by
  refine (multitool_sound hs kf kg D).mono hs fun P _ h ef eg hf hg hD z => ?_
  rw [← sideWt_eq hf, ← sideWt_eq hg]
  exact h (forall2_fine hf) (forall2_fine hg) ((sideVals_card (List.rel_append hf hg)).trans hD) z

/-- One bag on each side. -/
theorem pair_sound {f g : BagComm} {mf mg : Nat} (hs : Sane s)
    (kf : KnownBag s f) (kmf : Known s mf) (kg : KnownBag s g) (kmg : Known s mg) (D : Nat) :
    Snd (fun H => Multitool.verify (E.withH H) [f] [g] [mf] [mg]) s N [D] fun P => ∀ a b : Tabs F, EntVals s P N (f, mf) a → EntVals s P N (g, mg) b → (imgOf N a.T).card + (imgOf N b.T).card ≤ D →
      ∀ z, ((2 : F) ^ (max f.numVars g.numVars - f.numVars))⁻¹ * cw N a.T (fun i => a.μ i * a.σ i) z =
        ((2 : F) ^ (max f.numVars g.numVars - g.numVars))⁻¹ * cw N b.T (fun i => b.μ i * b.σ i) z := by
  refine (multitool_tabs hs (by simpa [EntKnown] using ⟨kf, kmf⟩) (by simpa [EntKnown] using ⟨kg, kmg⟩) D).mono hs fun P _ h a b ha hb hD z => ?_
  have := h [a] [b] (.cons ha .nil) (.cons hb .nil) (by simpa using hD) z
  simpa [Tabs.wt, topOf, Multitool.maxNv] using this

/-- Two bags on one side. -/
theorem triple_sound {f0 f1 g : BagComm} {m0 m1 mg : Nat} (hs : Sane s)
    (k0 : KnownBag s f0) (km0 : Known s m0) (k1 : KnownBag s f1) (km1 : Known s m1) (kg : KnownBag s g) (kmg : Known s mg) (D : Nat) :
    Snd (fun H => Multitool.verify (E.withH H) [f0, f1] [g] [m0, m1] [mg]) s N [D] fun P => ∀ a0 a1 b : Tabs F, EntVals s P N (f0, m0) a0 → EntVals s P N (f1, m1) a1 → EntVals s P N (g, mg) b →
      (imgOf N a0.T).card + (imgOf N a1.T).card + (imgOf N b.T).card ≤ D →
      ∀ z, ((2 : F) ^ (max (max f0.numVars f1.numVars) g.numVars - f0.numVars))⁻¹ * cw N a0.T (fun i => a0.μ i * a0.σ i) z +
          ((2 : F) ^ (max (max f0.numVars f1.numVars) g.numVars - f1.numVars))⁻¹ * cw N a1.T (fun i => a1.μ i * a1.σ i) z =
        ((2 : F) ^ (max (max f0.numVars f1.numVars) g.numVars - g.numVars))⁻¹ * cw N b.T (fun i => b.μ i * b.σ i) z := by
  refine (multitool_tabs hs (by simpa [EntKnown] using ⟨⟨k0, km0⟩, ⟨k1, km1⟩⟩) (by simpa [EntKnown] using ⟨kg, kmg⟩) D).mono hs
    fun P _ h a0 a1 b h0 h1 hb hD z => ?_
  have := h [a0, a1] [b] (.cons h0 (.cons h1 .nil)) (.cons hb .nil) (by simpa [add_assoc] using hD) z
  simpa [Tabs.wt, topOf, Multitool.maxNv] using this

/-! ### Equality, sum, inclusion -/

/-- The scaling of a bag among bags whose largest number of variables is `top`. -/
def scl (F : Type) [Field F] (top nv : Nat) : F := ((2 : F) ^ (top - nv))⁻¹

theorem bagEq_sound {f g : BagComm} (hs : Sane s) (kf : KnownBag s f) (kg : KnownBag s g) (D : Nat) :
    Snd (fun H => BagEq.verify (E.withH H) f g) s N [D] fun P => ∀ Tf σf Tg σg, Vals s P N f.poly Tf → Vals s P N f.selector σf → Vals s P N g.poly Tg → Vals s P N g.selector σg →
      (imgOf N Tf).card + (imgOf N Tg).card ≤ D →
      ∀ z, scl F (max f.numVars g.numVars) f.numVars * cw N Tf σf z = scl F (max f.numVars g.numVars) g.numVars * cw N Tg σg z := by
  intro β K b2 Concl hK
  unfold BagEq.verify
  simp only [Act.bind_assoc]
  refine step_fn hs fun one s1 q1 l1 => ?_
  refine (pair_sound (N := N) q1.sane (q1.knownBag kf) (known_look l1) (q1.knownBag kg) (known_look l1) D).bind fun _ s2 L2 => ?_
  refine (hK () s2 (q1.toLater.trans L2)).mono L2.sane fun P _ hC h => hC fun Tf σf Tg σg h1 h2 h3 h4 hD z => ?_
  have v1 := vals_one (P := P) (N := N) q1.sane l1
  have := h ⟨Tf, σf, fun _ => 1⟩ ⟨Tg, σg, fun _ => 1⟩ ⟨(q1.vals hs kf.1).2 h1, (q1.vals hs kf.2).2 h2, v1⟩
    ⟨(q1.vals hs kg.1).2 h3, (q1.vals hs kg.2).2 h4, v1⟩ hD z
  simp only [one_mul] at this
  exact this

theorem bagSum_sound {f0 f1 g : BagComm} (hs : Sane s) (k0 : KnownBag s f0) (k1 : KnownBag s f1)
    (kg : KnownBag s g) (D : Nat) :
    Snd (fun H => BagSum.verify (E.withH H) f0 f1 g) s N [D] fun P => ∀ T0 σ0 T1 σ1 Tg σg, Vals s P N f0.poly T0 → Vals s P N f0.selector σ0 → Vals s P N f1.poly T1 → Vals s P N f1.selector σ1 →
      Vals s P N g.poly Tg → Vals s P N g.selector σg → (imgOf N T0).card + (imgOf N T1).card + (imgOf N Tg).card ≤ D →
      ∀ z, scl F (max (max f0.numVars f1.numVars) g.numVars) f0.numVars * cw N T0 σ0 z +
          scl F (max (max f0.numVars f1.numVars) g.numVars) f1.numVars * cw N T1 σ1 z =
        scl F (max (max f0.numVars f1.numVars) g.numVars) g.numVars * cw N Tg σg z := by
  intro β K b2 Concl hK
  unfold BagSum.verify
  simp only [Act.bind_assoc]
  refine step_fn hs fun one s1 q1 l1 => ?_
  refine step_fn q1.sane fun _ s2 q2 _ => ?_
  refine step_fn q2.sane fun _ s3 q3 _ => ?_
  have w : Whole s s3 := ⟨q1.trans (q2.trans q3)⟩
  have l3 : s3.sh.comms.lookup one = some (.fn fun _ => .ok 1) := by later
  refine (triple_sound (N := N) q3.sane (w.q.knownBag k0) (known_look l3) (w.q.knownBag k1) (known_look l3) (w.q.knownBag kg) (known_look l3) D).bind
    fun _ s4 L4 => ?_
  refine (hK () s4 (w.q.toLater.trans L4)).mono L4.sane fun P _ hC h => hC fun T0 σ0 T1 σ1 Tg σg h1 h2 h3 h4 h5 h6 hD z => ?_
  have v1 := vals_one (P := P) (N := N) q3.sane l3
  have := h ⟨T0, σ0, fun _ => 1⟩ ⟨T1, σ1, fun _ => 1⟩ ⟨Tg, σg, fun _ => 1⟩ ⟨(w.q.vals hs k0.1).2 h1, (w.q.vals hs k0.2).2 h2, v1⟩
    ⟨(w.q.vals hs k1.1).2 h3, (w.q.vals hs k1.2).2 h4, v1⟩ ⟨(w.q.vals hs kg.1).2 h5, (w.q.vals hs kg.2).2 h6, v1⟩ hD z
  simp only [one_mul] at this
  exact this

theorem inclusionAdvice_sound {f g : BagComm} {m : Nat} (hs : Sane s) (kf : KnownBag s f)
    (kg : KnownBag s g) (km : Known s m) (D : Nat) :
    Snd (fun H => Inclusion.verifyWithAdvice (E.withH H) f g m) s N [D] fun P => ∀ Tf σf Tg σg μ, Vals s P N f.poly Tf → Vals s P N f.selector σf → Vals s P N g.poly Tg → Vals s P N g.selector σg →
      Vals s P N m μ → (imgOf N Tf).card + (imgOf N Tg).card ≤ D →
      ∀ z, scl F (max f.numVars g.numVars) f.numVars * cw N Tf σf z = scl F (max f.numVars g.numVars) g.numVars * cw N Tg (fun b => μ b * σg b) z := by
  intro β K b2 Concl hK
  unfold Inclusion.verifyWithAdvice
  simp only [Act.bind_assoc]
  refine step_fn hs fun one s1 q1 l1 => ?_
  refine (pair_sound (N := N) q1.sane (q1.knownBag kf) (known_look l1) (q1.knownBag kg) (q1.known km) D).bind fun _ s2 L2 => ?_
  refine (hK () s2 (q1.toLater.trans L2)).mono L2.sane fun P _ hC h => hC fun Tf σf Tg σg μ h1 h2 h3 h4 h5 hD z => ?_
  have v1 := vals_one (P := P) (N := N) q1.sane l1
  have := h ⟨Tf, σf, fun _ => 1⟩ ⟨Tg, σg, μ⟩ ⟨(q1.vals hs kf.1).2 h1, (q1.vals hs kf.2).2 h2, v1⟩
    ⟨(q1.vals hs kg.1).2 h3, (q1.vals hs kg.2).2 h4, (q1.vals hs km).2 h5⟩ hD z
  simp only [one_mul] at this
  exact this

theorem inclusion_sound {f g : BagComm} (hs : Sane s) (kf : KnownBag s f)
    (kg : KnownBag s g) (D : Nat) :
    Snd (fun H => Inclusion.verify (E.withH H) f g) s N [D] fun P => ∀ Tf σf Tg σg, Vals s P N f.poly Tf → Vals s P N f.selector σf → Vals s P N g.poly Tg → Vals s P N g.selector σg →
      (imgOf N Tf).card + (imgOf N Tg).card ≤ D →
      ∃ μ : Nat → F, ∀ z, scl F (max f.numVars g.numVars) f.numVars * cw N Tf σf z =
        scl F (max f.numVars g.numVars) g.numVars * cw N Tg (fun b => μ b * σg b) z := by
  intro β K b2 Concl hK
  unfold Inclusion.verify
  simp only [Act.bind_assoc, withH_debug]
  refine step_transfer hs fun m c s1 q1 l1 m1 => ?_
  refine (inclusionAdvice_sound (N := N) q1.sane (q1.knownBag kf) (q1.knownBag kg) (known_look l1) D).bind fun _ s2 L2 => ?_
  refine (hK () s2 (q1.toLater.trans L2)).mono L2.sane fun P _ hC h => hC fun Tf σf Tg σg h1 h2 h3 h4 hD => ⟨_, h Tf σf Tg σg _ ((q1.vals hs kf.1).2 h1) ((q1.vals hs kf.2).2 h2)
    ((q1.vals hs kg.1).2 h3) ((q1.vals hs kg.2).2 h4) (vals_query q1.sane l1 m1) hD⟩

/-! ### Pointwise checks -/

theorem noZeros_sound {f : BagComm} (hs : Sane s) (kf : KnownBag s f) :
    Snd (fun H => NoZeros.verify (E.withH H) f) s N [] fun P =>
      ∀ T σ, Vals s P N f.poly T → Vals s P N f.selector σ → ∀ b < 2 ^ N, σ b ≠ 0 → T b ≠ 0 := by
  intro β K b2 Concl hK
  unfold NoZeros.verify
  obtain ⟨k1, k2⟩ := kf
  simp only [Act.bind_assoc, withH_debug]
  refine step_transfer hs fun inv c s1 q1 l1 m1 => ?_
  refine step_mul q1.sane (by later) (by later) fun ps s2 q2 l2 => ?_
  refine step_mul q2.sane (by later) (by later) fun psi s3 q3 l3 => ?_
  refine step_sub q3.sane (by later) (by later) fun ck s4 q4 l4 => ?_
  refine step_zeroClaim q4.sane (by later) fun s5 q5 c5 => ?_
  have w : Whole s s5 := ⟨q1.trans (q2.trans (q3.trans (q4.trans q5)))⟩
  refine (hK () s5 w.q.toLater).mono q5.sane fun P hc hC => hC fun T σ hT hσ b hb hb0 h0 => ?_
  have hs' := w.q.sane
  have vT := (w.q.vals hs (by later)).2 hT
  have vσ := (w.q.vals hs (by later)).2 hσ
  have vi := vals_query (P := P) (N := N) hs' (h := inv) (i := inv) (c := c) (by later) (by later)
  have v2 := vals_mul hs' (h := ps) (by later) vT vσ
  have v3 := vals_mul hs' (h := psi) (by later) v2 vi
  have v4 := vals_sub hs' (h := ck) (by later) v3 vσ
  have := hc.zero c5 v4 hb
  rw [h0, zero_mul, zero_mul, zero_sub, neg_eq_zero] at this
  exact hb0 this

theorem noZeros_claims {f : BagComm} (e : NoZeros.verify E f s = (.ok (), s')) :
    (∃ k, s'.own.zeroClaims = s.own.zeroClaims ++ [k]) ∧ s'.own.sumClaims = s.own.sumClaims := by
  unfold NoZeros.verify at e
  obtain ⟨id, s0, e0, e⟩ := Act.bind_eq_ok.1 e
  obtain ⟨-, rfl⟩ := Prod.mk.inj e0
  obtain ⟨n, s1, e1, e⟩ := Act.bind_eq_ok.1 e
  obtain ⟨c, -, -, rfl⟩ := transferComm_inv e1
  obtain ⟨-, rfl⟩ := Prod.mk.inj e
  exact ⟨⟨_, rfl⟩, rfl⟩

theorem selectorValid_run {sel : Nat} (e : SelectorValid.verify sel s = (.ok (), s')) (hs : Sane s) (k : Known s sel) :
    ∃ ck, Quiet s s' ∧ ck ∈ s'.own.zeroClaims ∧ s'.own.zeroClaims = s.own.zeroClaims ++ [ck] ∧ s'.own.sumClaims = s.own.sumClaims ∧
      ∀ P T, Vals s P N sel T → Vals s' P N ck fun b => T b * (-1 * T b + 1) := by
  unfold SelectorValid.verify at e
  have hcl : s'.own.zeroClaims = s.own.zeroClaims ++ [s.own.idCounter + 1 + 1 + 1] ∧ s'.own.sumClaims = s.own.sumClaims := by
    obtain ⟨-, rfl⟩ := Prod.mk.inj e
    exact ⟨rfl, rfl⟩
  obtain ⟨n, s1, e, q1, l1⟩ := run_mulScalar e hs (by later)
  obtain ⟨om, s2, e, q2, l2⟩ := run_addScalar e q1.sane (by later)
  obtain ⟨ck, s3, e, q3, l3⟩ := run_mul e q2.sane (by later) (by later)
  have hz : s'.own.zeroClaims = s3.own.zeroClaims ++ [ck] := by obtain ⟨-, rfl⟩ := Prod.mk.inj e; rfl
  obtain ⟨q4, c4⟩ := run_zeroClaim' e q3.sane (by later)
  have w : Whole s s' := ⟨q1.trans (q2.trans (q3.trans q4))⟩
  have hck : ck = s.own.idCounter + 1 + 1 + 1 := by
    have := hz.symm.trans hcl.1
    exact (List.append_inj' this rfl).2 |> List.cons.inj |>.1
  refine ⟨ck, w.q, c4, by rw [hck]; exact hcl.1, hcl.2, fun P T hT => ?_⟩
  have hs' := w.q.sane
  have vT := (w.q.vals hs (by later)).2 hT
  have v1 := vals_mulScalar hs' (h := n) (by later) vT
  have v2 := vals_addScalar hs' (h := om) (by later) v1
  exact vals_mul hs' (h := ck) (by later) vT v2

theorem selectorValid_sound {sel : Nat} (hs : Sane s) (k : Known s sel) :
    Snd (fun _ : Oracle F C => SelectorValid.verify sel) s N [] fun P => ∀ T, Vals s P N sel T → ∀ b < 2 ^ N, T b = 0 ∨ T b = 1 := by
  intro β K b2 Concl hK
  unfold SelectorValid.verify
  simp only [Act.bind_assoc]
  refine step_mulScalar hs (by later) fun n s1 q1 l1 => ?_
  refine step_addScalar q1.sane (by later) fun om s2 q2 l2 => ?_
  refine step_mul q2.sane (by later) (by later) fun ck s3 q3 l3 => ?_
  refine step_zeroClaim q3.sane (by later) fun s4 q4 c4 => ?_
  have w : Whole s s4 := ⟨q1.trans (q2.trans (q3.trans q4))⟩
  refine (hK () s4 w.q.toLater).mono q4.sane fun P hc hC => hC fun T hT b hb => ?_
  have hs' := w.q.sane
  have vT := (w.q.vals hs (by later)).2 hT
  have v1 := vals_mulScalar hs' (h := n) (by later) vT
  have v2 := vals_addScalar hs' (h := om) (by later) v1
  have := hc.zero c4 (vals_mul hs' (h := ck) (by later) vT v2) hb
  rcases mul_eq_zero.1 this with h | h
  · exact .inl h
  · right; linear_combination -h

end Zksql
