import Verif.Lemmas.BagTab
import Verif.Lemmas.IopEx
/-!
What the recorded claims of the multiset check and of the checks made directly from it imply about the committed tables.

Throughout, `s` is the verifier's state before the call and `s'` after it, `P` assigns a polynomial to every commitment (a dishonest prover chooses
it), and the claims recorded up to `s'` are taken to be true over the hypercube of dimension `N`.  The environment `E.withH H` is `E` with the random
oracle `H`: the exceptional challenges are fixed before the oracle and before the proof are.
-/
set_option linter.unusedSectionVars false
namespace Zksql
open Spec
variable {F C B : Type} [Field F] [DecidableEq F]
variable {E : Env F C} {s s' : VSt F C B} {N : Nat}

/-- The states the theorems speak about include every state a history of verifier calls leads to. -/
theorem reachable_sane {vs : VState F C B} {debug : Bool} {H : Oracle F C} (h : VReachable debug H vs) : Sane vs.st := h.sane

/-! ### C53 -/

/-- What acceptance implies, for a call that others may follow. -/
theorem multiset_snd {fxs gxs : List BagComm} {mfxs mgxs : List Nat} (h2 : (2 : F) ≠ 0) (hs : Sane s)
    (kb : ∀ b ∈ fxs ++ gxs, KnownBag s b) (km : ∀ m ∈ mfxs ++ mgxs, Known s m) :
    Snd (fun H => Multitool.verify (E.withH H) fxs gxs mfxs mgxs) s N [entries fxs + entries gxs] fun P =>
      ∀ fs gs : Side F, HoldsSide s P N fxs mfxs fs → HoldsSide s P N gxs mgxs gs → ∀ z, Side.total fs z = Side.total gs z := by
  refine ((multitool_tabs hs (fun q hq => ?_) (fun q hq => ?_) _).mono hs fun P _ h fs gs hf hg z => ?_)
  · have := List.of_mem_zip hq
    exact ⟨kb _ (List.mem_append_left _ this.1), km _ (List.mem_append_left _ this.2)⟩
  · have := List.of_mem_zip hq
    exact ⟨kb _ (List.mem_append_right _ this.1), km _ (List.mem_append_right _ this.2)⟩
  · have := h _ _ (holdsSide_vals hf).1 (holdsSide_vals hg).1 (by
      have a := side_card hf
      have b := side_card hg
      rw [List.map_append, List.sum_append]; omega) z
    rw [side_sum h2 hf (fun b hb => ?_), side_sum h2 hg (fun b hb => ?_)] at this
    · exact mul_left_cancel₀ (lead_ne h2 _ _) this
    · exact le_trans ((foldl_max_le _ 0).2 _ (List.mem_map_of_mem hb)) (le_max_right _ _)
    · exact le_trans ((foldl_max_le _ 0).2 _ (List.mem_map_of_mem hb)) (le_max_left _ _)

/-- C53.  When the multiset check accepts and the recorded claims are true, both sides give every field value the same total weight, unless the
challenge is one of at most as many exceptional ones as there are table entries; which ones is determined before the challenge is drawn. -/
theorem C53_multiset_sound {fxs gxs : List BagComm} {mfxs mgxs : List Nat} (h2 : (2 : F) ≠ 0) (hs : Sane s)
    (kb : ∀ b ∈ fxs ++ gxs, KnownBag s b) (km : ∀ m ∈ mfxs ++ mgxs, Known s m) :
    SoundExcept (fun H => Multitool.verify (E.withH H) fxs gxs mfxs mgxs) s N [entries fxs + entries gxs] fun _ P =>
      ∀ fs gs : Side F, HoldsSide s P N fxs mfxs fs → HoldsSide s P N gxs mgxs gs → ∀ z, Side.total fs z = Side.total gs z :=
  Snd.except hs (multiset_snd h2 hs kb km)

namespace BEx
open IEx

/-- Values 2, 3 against values 3, 2 and an inactive 6, with multiplicities: the check accepts, the claims are true, and the bags hold the tables. -/
def cols53 : List (Mle F7) := [⟨1, [2, 3]⟩, ⟨1, [1, 1]⟩, ⟨1, [2, 1]⟩, ⟨2, [3, 2, 6, 2]⟩, ⟨2, [1, 1, 0, 1]⟩, ⟨2, [1, 1, 1, 1]⟩]

theorem ok53 : check 5 2 cols53 (fun ps => Multitool.prove (env 5) [bag ps 0 1] [bag ps 3 4] [ps.getD 2 ⟨0, 0⟩] [ps.getD 5 ⟨0, 0⟩])
    (Multitool.verify (env 5) [⟨0, 1, 1⟩] [⟨3, 4, 2⟩] [2] [5]) = true := by decide +kernel

example : ∃ (vs : VState F7 Cm Unit) (s' : VSt F7 Cm Unit), VReachable true (env 5).H vs ∧
    Multitool.verify (env 5) [⟨0, 1, 1⟩] [⟨3, 4, 2⟩] [2] [5] vs.st = (.ok (), s') ∧ ClaimsTrue poly 2 s' ∧
    HoldsSide vs.st poly 2 [⟨0, 1, 1⟩] [2] [(tab ⟨1, [2, 3]⟩ ⟨1, [1, 1]⟩, fun b => [2, 1].getD b 0)] ∧
    HoldsSide vs.st poly 2 [⟨3, 4, 2⟩] [5] [(tab ⟨2, [3, 2, 6, 2]⟩ ⟨2, [1, 1, 0, 1]⟩, fun b => [1, 1, 1, 1].getD b 0)] := by
  obtain ⟨vs, s', h1, h2, h3, h4⟩ := run_of ok53
  exact ⟨vs, s', h1, h2, h3, ⟨holdsBag_of (h4 0 _ rfl).2 (h4 1 _ rfl).2 rfl, (h4 2 _ rfl).2, trivial⟩,
    ⟨holdsBag_of (h4 3 _ rfl).2 (h4 4 _ rfl).2 rfl, (h4 5 _ rfl).2, trivial⟩⟩

end BEx

/-! ### C55 -/

/-- What acceptance implies, for a call that others may follow. -/
theorem bagEq_snd {f g : BagComm} (h2 : (2 : F) ≠ 0) (hs : Sane s) (kf : KnownBag s f) (kg : KnownBag s g) :
    Snd (fun H => BagEq.verify (E.withH H) f g) s N [2 ^ f.numVars + 2 ^ g.numVars] fun P => ∀ tf tg : BagTab F, HoldsBag s P N f tf → HoldsBag s P N g tg →
      (∀ z, tf.weight (fun _ => 1) z = tg.weight (fun _ => 1) z) ∧
      (tf.Boolean → tg.Boolean → NatsNonzero F (max (2 ^ tf.nv) (2 ^ tg.nv)) → ∀ z, tf.count z = tg.count z) := by
  refine ((bagEq_sound hs kf kg _).mono hs fun P _ h tf tg hf hg => ?_)
  have key : ∀ z, tf.weight (fun _ => 1) z = tg.weight (fun _ => 1) z := by
    intro z
    have := h _ _ _ _ hf.vpoly hf.vsel hg.vpoly hg.vsel (by
      have a := img_rep hf.le tf.val
      have b := img_rep hg.le tg.val
      rw [hf.nv, hg.nv]; omega) z
    rw [hf.nv, hg.nv, scl_rep h2 hf.le (le_max_left _ _), scl_rep h2 hg.le (le_max_right _ _)] at this
    rw [weight_one, weight_one]
    exact mul_left_cancel₀ (lead_ne h2 _ _) this
  refine ⟨key, fun bf bg hn z => ?_⟩
  have := key z
  rw [weight_count bf, weight_count bg] at this
  exact natCast_inj_of hn (le_trans (count_le _ _) (le_max_left _ _)) (le_trans (count_le _ _) (le_max_right _ _)) this

/-- C55, what the claims imply.  When the equality check accepts and the claims are true, every field value has the same weight in both bags (the sum of the
selectors of its rows); so with 0/1 selectors and sizes below the characteristic, the two active multisets are equal. -/
theorem C55_bag_equality_sound {f g : BagComm} (h2 : (2 : F) ≠ 0) (hs : Sane s) (kf : KnownBag s f) (kg : KnownBag s g) :
    SoundExcept (fun H => BagEq.verify (E.withH H) f g) s N [2 ^ f.numVars + 2 ^ g.numVars] fun _ P => ∀ tf tg : BagTab F, HoldsBag s P N f tf → HoldsBag s P N g tg →
      (∀ z, tf.weight (fun _ => 1) z = tg.weight (fun _ => 1) z) ∧
      (tf.Boolean → tg.Boolean → NatsNonzero F (max (2 ^ tf.nv) (2 ^ tg.nv)) → ∀ z, tf.count z = tg.count z) :=
  Snd.except hs (bagEq_snd h2 hs kf kg)

namespace BEx
open IEx

theorem ok55 : check 5 1 [⟨1, [2, 3]⟩, ⟨1, [1, 1]⟩, ⟨1, [3, 2]⟩] (fun ps => BagEq.prove (env 5) (bag ps 0 1) (bag ps 2 1))
    (BagEq.verify (env 5) ⟨0, 1, 1⟩ ⟨2, 1, 1⟩) = true := by decide +kernel

example : ∃ (vs : VState F7 Cm Unit) (s' : VSt F7 Cm Unit), VReachable true (env 5).H vs ∧
    BagEq.verify (env 5) ⟨0, 1, 1⟩ ⟨2, 1, 1⟩ vs.st = (.ok (), s') ∧ ClaimsTrue poly 1 s' ∧
    HoldsBag vs.st poly 1 ⟨0, 1, 1⟩ (tab ⟨1, [2, 3]⟩ ⟨1, [1, 1]⟩) ∧ HoldsBag vs.st poly 1 ⟨2, 1, 1⟩ (tab ⟨1, [3, 2]⟩ ⟨1, [1, 1]⟩) := by
  obtain ⟨vs, s', h1, h2, h3, h4⟩ := run_of ok55
  exact ⟨vs, s', h1, h2, h3, holdsBag_of (h4 0 _ rfl).2 (h4 1 _ rfl).2 rfl, holdsBag_of (h4 2 _ rfl).2 (h4 1 _ rfl).2 rfl⟩

end BEx

/-! ### C56 -/

/-- C56, what the claims imply.  The weights of the third bag are the sums of the weights of the first two; with 0/1 selectors and sizes below
the characteristic, its active multiset is their disjoint sum. -/
theorem C56_bag_sum_sound {f0 f1 g : BagComm} (h2 : (2 : F) ≠ 0) (hs : Sane s) (k0 : KnownBag s f0) (k1 : KnownBag s f1) (kg : KnownBag s g) :
    SoundExcept (fun H => BagSum.verify (E.withH H) f0 f1 g) s N [2 ^ f0.numVars + 2 ^ f1.numVars + 2 ^ g.numVars] fun _ P => ∀ t0 t1 tg : BagTab F,
      HoldsBag s P N f0 t0 → HoldsBag s P N f1 t1 → HoldsBag s P N g tg →
      (∀ z, t0.weight (fun _ => 1) z + t1.weight (fun _ => 1) z = tg.weight (fun _ => 1) z) ∧
      (t0.Boolean → t1.Boolean → tg.Boolean → NatsNonzero F (max (2 ^ t0.nv + 2 ^ t1.nv) (2 ^ tg.nv)) → ∀ z, t0.count z + t1.count z = tg.count z) := by
  refine Snd.except hs ((bagSum_sound hs k0 k1 kg _).mono hs fun P _ h t0 t1 tg h0 h1 hg => ?_)
  have key : ∀ z, t0.weight (fun _ => 1) z + t1.weight (fun _ => 1) z = tg.weight (fun _ => 1) z := by
    intro z
    have := h _ _ _ _ _ _ h0.vpoly h0.vsel h1.vpoly h1.vsel hg.vpoly hg.vsel (by
      have a := img_rep h0.le t0.val
      have a' := img_rep h1.le t1.val
      have b := img_rep hg.le tg.val
      rw [h0.nv, h1.nv, hg.nv]; omega) z
    rw [h0.nv, h1.nv, hg.nv, scl_rep h2 h0.le (by omega), scl_rep h2 h1.le (by omega), scl_rep h2 hg.le (by omega), ← mul_add] at this
    rw [weight_one, weight_one, weight_one]
    exact mul_left_cancel₀ (lead_ne h2 _ _) this
  refine ⟨key, fun b0 b1 bg hn z => ?_⟩
  have := key z
  rw [weight_count b0, weight_count b1, weight_count bg, ← Nat.cast_add] at this
  have c0 := count_le t0 z
  have c1 := count_le t1 z
  have cg := count_le tg z
  exact natCast_inj_of hn (by omega) (by omega) this

namespace BEx
open IEx

theorem ok56 : check 5 2 [⟨1, [2, 3]⟩, ⟨1, [1, 0]⟩, ⟨0, [3]⟩, ⟨0, [1]⟩, ⟨2, [3, 6, 2, 6]⟩, ⟨2, [1, 0, 1, 0]⟩]
    (fun ps => BagSum.prove (env 5) (bag ps 0 1) (bag ps 2 3) (bag ps 4 5)) (BagSum.verify (env 5) ⟨0, 1, 1⟩ ⟨2, 3, 0⟩ ⟨4, 5, 2⟩) = true := by
  decide +kernel

example : ∃ (vs : VState F7 Cm Unit) (s' : VSt F7 Cm Unit), VReachable true (env 5).H vs ∧
    BagSum.verify (env 5) ⟨0, 1, 1⟩ ⟨2, 3, 0⟩ ⟨4, 5, 2⟩ vs.st = (.ok (), s') ∧ ClaimsTrue poly 2 s' ∧
    HoldsBag vs.st poly 2 ⟨0, 1, 1⟩ (tab ⟨1, [2, 3]⟩ ⟨1, [1, 0]⟩) ∧ HoldsBag vs.st poly 2 ⟨2, 3, 0⟩ (tab ⟨0, [3]⟩ ⟨0, [1]⟩) ∧
    HoldsBag vs.st poly 2 ⟨4, 5, 2⟩ (tab ⟨2, [3, 6, 2, 6]⟩ ⟨2, [1, 0, 1, 0]⟩) := by
  obtain ⟨vs, s', h1, h2, h3, h4⟩ := run_of ok56
  exact ⟨vs, s', h1, h2, h3, holdsBag_of (h4 0 _ rfl).2 (h4 1 _ rfl).2 rfl, holdsBag_of (h4 2 _ rfl).2 (h4 3 _ rfl).2 rfl,
    holdsBag_of (h4 4 _ rfl).2 (h4 5 _ rfl).2 rfl⟩

end BEx

/-! ### C57 -/

/-- C57, what the claims imply.  Whatever multiplicities the prover committed to, every value of non-zero weight in the included bag is active in the
other; with a 0/1 selector and a size below the characteristic, so is every active value. -/
theorem C57_inclusion_sound {f g : BagComm} (h2 : (2 : F) ≠ 0) (hs : Sane s) (kf : KnownBag s f) (kg : KnownBag s g) :
    SoundExcept (fun H => Inclusion.verify (E.withH H) f g) s N [2 ^ f.numVars + 2 ^ g.numVars] fun _ P => ∀ tf tg : BagTab F, HoldsBag s P N f tf → HoldsBag s P N g tg →
      (∀ z, tf.weight (fun _ => 1) z ≠ 0 → tg.Active z) ∧
      (tf.Boolean → NatsNonzero F (2 ^ tf.nv) → ∀ z, tf.Active z → tg.Active z) := by
  refine Snd.except hs ((inclusion_sound hs kf kg _).mono hs fun P _ h tf tg hf hg => ?_)
  have key : ∀ z, tf.weight (fun _ => 1) z ≠ 0 → tg.Active z := by
    intro z hz
    obtain ⟨μ, h⟩ := h _ _ _ _ hf.vpoly hf.vsel hg.vpoly hg.vsel (by
      have a := img_rep hf.le tf.val
      have b := img_rep hg.le tg.val
      rw [hf.nv, hg.nv]; omega)
    have h := h z
    rw [hf.nv, hg.nv, scl_rep h2 hf.le (le_max_left _ _), ← weight_one] at h
    have h0 := mul_ne_zero (lead_ne h2 N (max tf.nv tg.nv)) hz
    rw [h] at h0
    obtain ⟨b, hb, hz', hw⟩ := cw_ne_zero (right_ne_zero_of_mul h0)
    exact ⟨b % 2 ^ tg.nv, Nat.mod_lt _ (by positivity), right_ne_zero_of_mul hw, hz'⟩
  exact ⟨key, fun bf hn z hz => key z ((active_iff_weight bf hn z).1 hz)⟩

/-- What acceptance implies, for a call that others may follow. -/
theorem inclusionAdvice_snd {f g : BagComm} {m : Nat} (h2 : (2 : F) ≠ 0) (hs : Sane s) (kf : KnownBag s f) (kg : KnownBag s g) (km : Known s m) :
    Snd (fun H => Inclusion.verifyWithAdvice (E.withH H) f g m) s N [2 ^ f.numVars + 2 ^ g.numVars] fun P => ∀ (tf tg : BagTab F) (μ : Nat → F), HoldsBag s P N f tf → HoldsBag s P N g tg →
      Holds s P N m tg.nv μ → ∀ z, tf.weight (fun _ => 1) z = tg.weight μ z := by
  refine ((inclusionAdvice_sound hs kf kg km _).mono hs fun P _ h tf tg μ hf hg hm z => ?_)
  have := h _ _ _ _ _ hf.vpoly hf.vsel hg.vpoly hg.vsel hm.2 (by
      have a := img_rep hf.le tf.val
      have b := img_rep hg.le tg.val
      rw [hf.nv, hg.nv]; omega) z
  rw [hf.nv, hg.nv, scl_rep h2 hf.le (le_max_left _ _), show (fun b => μ (b % 2 ^ tg.nv) * rep tg.nv tg.sel b) = rep tg.nv fun b => μ b * tg.sel b from rfl,
    scl_rep h2 hg.le (le_max_right _ _)] at this
  rw [weight_one, weight_eq]
  exact mul_left_cancel₀ (lead_ne h2 _ _) this

/-- C57 for a given column of multiplicities.  Here the multiplicities are part of the input; they are not assumed to be the honest ones. -/
theorem C57_inclusion_advice_sound {f g : BagComm} {m : Nat} (h2 : (2 : F) ≠ 0) (hs : Sane s) (kf : KnownBag s f) (kg : KnownBag s g) (km : Known s m) :
    SoundExcept (fun H => Inclusion.verifyWithAdvice (E.withH H) f g m) s N [2 ^ f.numVars + 2 ^ g.numVars] fun _ P => ∀ (tf tg : BagTab F) (μ : Nat → F), HoldsBag s P N f tf → HoldsBag s P N g tg →
      Holds s P N m tg.nv μ → ∀ z, tf.weight (fun _ => 1) z = tg.weight μ z :=
  Snd.except hs (inclusionAdvice_snd h2 hs kf kg km)

namespace BEx
open IEx

theorem ok57 : check 5 2 [⟨1, [2, 2]⟩, ⟨1, [1, 1]⟩, ⟨2, [3, 2, 4, 2]⟩, ⟨2, [1, 1, 0, 1]⟩]
    (fun ps => Inclusion.prove (env 5) (bag ps 0 1) (bag ps 2 3)) (Inclusion.verify (env 5) ⟨0, 1, 1⟩ ⟨2, 3, 2⟩) = true := by
  decide +kernel

example : ∃ (vs : VState F7 Cm Unit) (s' : VSt F7 Cm Unit), VReachable true (env 5).H vs ∧
    Inclusion.verify (env 5) ⟨0, 1, 1⟩ ⟨2, 3, 2⟩ vs.st = (.ok (), s') ∧ ClaimsTrue poly 2 s' ∧
    HoldsBag vs.st poly 2 ⟨0, 1, 1⟩ (tab ⟨1, [2, 2]⟩ ⟨1, [1, 1]⟩) ∧ HoldsBag vs.st poly 2 ⟨2, 3, 2⟩ (tab ⟨2, [3, 2, 4, 2]⟩ ⟨2, [1, 1, 0, 1]⟩) := by
  obtain ⟨vs, s', h1, h2, h3, h4⟩ := run_of ok57
  exact ⟨vs, s', h1, h2, h3, holdsBag_of (h4 0 _ rfl).2 (h4 1 _ rfl).2 rfl, holdsBag_of (h4 2 _ rfl).2 (h4 3 _ rfl).2 rfl⟩

end BEx

/-! ### C59 -/

/-- C59.  The claims of the no-zeros check are satisfiable by some polynomial behind the commitment the verifier received iff no active entry is
zero; the selector is arbitrary. -/
theorem C59_no_zeros_iff {f : BagComm} (hs : Sane s) (kf : KnownBag s f) (e : NoZeros.verify E f s = (.ok (), s'))
    (hfresh : ∀ c, s.own.proof.comms.lookup s.own.idCounter = some c → TEvent.absorb "comm" (.comm c) ∉ s.own.transcript.events)
    {P : C → List F → F} (hP : ClaimsTrue P N s) {t : BagTab F} (ht : HoldsBag s P N f t) :
    (∃ P' : C → List F → F, (∀ c, TEvent.absorb "comm" (.comm c) ∈ s.own.transcript.events → P' c = P c) ∧ ClaimsTrue P' N s') ↔
      ∀ i < 2 ^ t.nv, t.sel i ≠ 0 → t.val i ≠ 0 := by
  constructor
  · rintro ⟨P', hag, hc⟩ i hi h0
    obtain ⟨bad, h⟩ := Snd.except hs (noZeros_sound (E := E) (N := N) hs kf)
    obtain ⟨hl, -, h⟩ := h s.own.proof E.H () s' e
    have := h P' hc (by rw [List.length_eq_zero_iff.1 hl]; simp)
    have cg : ∀ h T, Vals s P N h T → Vals s P' N h T := fun h T hv b hb => by
      rw [valueAt_congr (P := P') (P' := P) fun i c hi => hag c (hs.absorbed i c hi)]; exact hv b hb
    have := this _ _ (cg _ _ ht.vpoly) (cg _ _ ht.vsel) i (lt_of_lt_of_le hi (Nat.pow_le_pow_right (by norm_num) ht.le))
    unfold rep at this
    rw [Nat.mod_eq_of_lt hi] at this
    exact this h0
  · intro hnz
    have e0 := e
    unfold NoZeros.verify at e
    obtain ⟨k1, k2⟩ := kf
    obtain ⟨inv, c, s1, e, q1, l1, m1, hpf⟩ := run_transfer e hs
    obtain ⟨ps, s2, e, q2, l2⟩ := run_mul e q1.sane (by later) (by later)
    obtain ⟨psi, s3, e, q3, l3⟩ := run_mul e q2.sane (by later) (by later)
    obtain ⟨ck, s4, e, q4, l4⟩ := run_sub e q3.sane (by later) (by later)
    have hz : s'.own.zeroClaims = s4.own.zeroClaims ++ [ck] := by obtain ⟨-, rfl⟩ := Prod.mk.inj e; rfl
    have hcl : (∀ h ∈ s'.own.zeroClaims, h ∈ s.own.zeroClaims ∨ h = ck) ∧ s'.own.sumClaims = s.own.sumClaims := by
      have := noZeros_claims e0
      refine ⟨fun h hh => ?_, this.2⟩
      obtain ⟨k, hk⟩ := this.1
      have e1 : s4.own.zeroClaims ++ [ck] = s.own.zeroClaims ++ [k] := by rw [← hz, hk]
      have e2 := (List.append_inj' e1 rfl).2
      rw [hk] at hh
      rcases List.mem_append.1 hh with hh | hh
      · exact .inl hh
      · right
        have : h = k := by simpa using hh
        rw [this]; exact (List.cons.inj e2).1.symm
    obtain ⟨q5, c5⟩ := run_zeroClaim' e q4.sane (by later)
    have w : Whole s s' := ⟨q1.trans (q2.trans (q3.trans (q4.trans q5)))⟩
    classical
    let tblInv : List F → F := fun x => mle (fun b => (rep t.nv t.val b)⁻¹) x
    refine ⟨fun d => if d = c then tblInv else P d, fun d hd => ?_, ?_⟩
    · show (if d = c then tblInv else P d) = P d
      rw [if_neg]; rintro rfl; exact hfresh d hpf hd
    set P' : C → List F → F := fun d => if d = c then tblInv else P d with hP'
    have cg : ∀ h T, Known s h → Vals s P N h T → Vals s' P' N h T := fun h T hk hv => (w.q.vals hs hk).2 fun b hb => by
      rw [valueAt_congr (P := P') (P' := P) fun i d hi => ?_]
      · exact hv b hb
      · show (if d = c then tblInv else P d) = P d
        rw [if_neg]; rintro rfl; exact hfresh d hpf (hs.absorbed i d hi)
    have hs' := w.q.sane
    refine ⟨fun h hh => ?_, fun d hd => ?_⟩
    · rcases hcl.1 h hh with hh | rfl
      · exact cg _ _ (hs.zeros h hh) (hP.1 h hh)
      · have vi := vals_query (P := P') (N := N) hs' (h := inv) (i := inv) (c := c) (by later) (by later)
        have vT := cg _ _ k1 ht.vpoly
        have vσ := cg _ _ k2 ht.vsel
        have v2 := vals_mul hs' (h := ps) (by later) vT vσ
        have v3 := vals_mul hs' (h := psi) (by later) v2 vi
        have v4 := vals_sub hs' (h := h) (by later) v3 vσ
        refine v4.congr fun b hb => ?_
        have hmle : P' c (boolPt N b) = (rep t.nv t.val b)⁻¹ := by
          show (if c = c then tblInv else P c) (boolPt N b) = _
          rw [if_pos rfl]
          exact mle_boolPt _ N b hb
        rw [hmle]
        by_cases h0 : rep t.nv t.sel b = 0
        · rw [h0]; ring
        · have : rep t.nv t.val b ≠ 0 := hnz _ (Nat.mod_lt _ (by positivity)) h0
          field_simp; ring
    · rw [hcl.2] at hd
      obtain ⟨T, hT, hsum⟩ := hP.2 d hd
      exact ⟨T, cg _ _ (hs.sums d hd) hT, hsum⟩

namespace BEx
open IEx

theorem ok59 : check 5 1 [⟨1, [2, 0]⟩, ⟨1, [3, 0]⟩] (fun ps => NoZeros.prove (env 5) (bag ps 0 1)) (NoZeros.verify (env 5) ⟨0, 1, 1⟩) = true := by
  decide +kernel

example : ∃ (vs : VState F7 Cm Unit) (s' : VSt F7 Cm Unit), VReachable true (env 5).H vs ∧
    NoZeros.verify (env 5) ⟨0, 1, 1⟩ vs.st = (.ok (), s') ∧ ClaimsTrue poly 1 s' ∧ HoldsBag vs.st poly 1 ⟨0, 1, 1⟩ (tab ⟨1, [2, 0]⟩ ⟨1, [3, 0]⟩) := by
  obtain ⟨vs, s', h1, h2, h3, h4⟩ := run_of ok59
  exact ⟨vs, s', h1, h2, h3, holdsBag_of (h4 0 _ rfl).2 (h4 1 _ rfl).2 rfl⟩

end BEx

/-! ### C60 -/

/-- C60.  The claim recorded by the selector check is true iff every entry of the selector is 0 or 1. -/
theorem C60_selector_valid_iff {sel nv : Nat} (hs : Sane s) (k : Known s sel) (e : SelectorValid.verify sel s = (.ok (), s'))
    {P : C → List F → F} {T : Nat → F} (hT : Holds s P N sel nv T) :
    ClaimsTrue P N s' ↔ ClaimsTrue P N s ∧ ∀ i < 2 ^ nv, T i = 0 ∨ T i = 1 := by
  obtain ⟨ck, q, hz, hzs, hsum, hv⟩ := selectorValid_run (N := N) e hs k
  have hv := hv P _ hT.2
  constructor
  · intro hc
    refine ⟨q.claims hs hc, fun i hi => ?_⟩
    have := hc.zero hz hv (lt_of_lt_of_le hi (Nat.pow_le_pow_right (by norm_num) hT.1))
    simp only [Nat.mod_eq_of_lt hi] at this
    rcases mul_eq_zero.1 this with h | h
    · exact .inl h
    · right; linear_combination -h
  · rintro ⟨hc, hb⟩
    refine ⟨fun h hh => ?_, fun d hd => ?_⟩
    · rw [hzs] at hh
      rcases List.mem_append.1 hh with hh | hh
      · exact (q.vals hs (hs.zeros h hh)).2 (hc.1 h hh)
      · obtain rfl : h = ck := by simpa using hh
        refine hv.congr fun b _ => ?_
        rcases hb (b % 2 ^ nv) (Nat.mod_lt _ (by positivity)) with h | h <;> simp [h]
    · rw [hsum] at hd
      obtain ⟨U, hU, hs1⟩ := hc.2 d hd
      exact ⟨U, (q.vals hs (hs.sums d hd)).2 hU, hs1⟩

namespace BEx
open IEx

theorem ok60 : check 5 1 [⟨1, [1, 0]⟩] (fun ps => SelectorValid.prove (ps.getD 0 ⟨0, 0⟩)) (SelectorValid.verify 0) = true := by decide +kernel

example : ∃ (vs : VState F7 Cm Unit) (s' : VSt F7 Cm Unit), VReachable true (env 5).H vs ∧ SelectorValid.verify 0 vs.st = (.ok (), s') ∧
    ClaimsTrue poly 1 s' ∧ Holds vs.st poly 1 0 1 fun b => [1, 0].getD b 0 := by
  obtain ⟨vs, s', h1, h2, h3, h4⟩ := run_of ok60
  exact ⟨vs, s', h1, h2, h3, (h4 0 _ rfl).2⟩

end BEx

end Zksql
