import Verif.Lemmas.SetOps
import Verif.Lemmas.IopEx
import Verif.Props.Honest
/-!
What the recorded claims of the set operations and of the join reduction imply about the committed tables.  Conventions as in `Props/BagChecks`.
-/
set_option linter.unusedSectionVars false
namespace Zksql
open Spec
variable {F C B : Type} [Field F] [DecidableEq F]
variable {E : Env F C} {s s' : VSt F C B} {N : Nat}

/-! ### C66 -/

/-- With 0/1 selectors and sizes below the characteristic, equal weights are equal numbers of active rows. -/
theorem counts_of_weights {t0 t1 tg : BagTab F} (b0 : t0.Boolean) (b1 : t1.Boolean) (bg : tg.Boolean) (hn : NatsNonzero F (max (2 ^ t0.nv + 2 ^ t1.nv) (2 ^ tg.nv))) {z : F}
    (h : t0.weight (fun _ => 1) z + t1.weight (fun _ => 1) z = tg.weight (fun _ => 1) z) : t0.count z + t1.count z = tg.count z := by
  rw [weight_count b0, weight_count b1, weight_count bg, ← Nat.cast_add] at h
  have c0 := count_le t0 z
  have c1 := count_le t1 z
  have cg := count_le tg z
  exact natCast_inj_of hn (by omega) (by omega) h

theorem active_of_counts {t0 t1 tg : BagTab F} {z : F} (h : t0.count z + t1.count z = tg.count z) : tg.Active z ↔ t0.Active z ∨ t1.Active z := by
  rw [← count_pos, ← count_pos, ← count_pos]; omega

/-- What acceptance implies, for a call that others may follow. -/
theorem union_snd {a b union range : BagComm} (h2 : (2 : F) ≠ 0) (hn : NatsNonzero F (2 ^ union.numVars))
    (hab : NatsNonzero F (2 ^ a.numVars + 2 ^ b.numVars)) (hs : Sane s) (ka : KnownBag s a) (kb : KnownBag s b) (ku : KnownBag s union) (kr : Known s range.poly) :
    Snd (fun H => SetUnion.verify (E.withH H) a b union range) s N
      ([2 ^ a.numVars + 2 ^ b.numVars + 2 ^ union.numVars, 2 * 2 ^ union.numVars] ++ sortBounds union.numVars range.numVars) fun P =>
      ∀ M, NatsNonzero F (2 ^ union.numVars * M) → HoldsRange s P N range M → ∀ ta tb tu : BagTab F, HoldsBag s P N a ta → HoldsBag s P N b tb → HoldsBag s P N union tu → ta.Boolean → tb.Boolean →
        tu.Nodup ∧ ∀ z, tu.Active z ↔ ta.Active z ∨ tb.Active z := by
  refine ((setUnion_tabs (N := N) h2 hn hs ka kb ku kr).mono hs fun P _ h M hM hr ta tb tu va vb vu ba bb => ?_)
  obtain ⟨h1, h3⟩ := h.2 M hr hM ta tb tu va vb vu
  refine ⟨h1, fun z => ?_⟩
  rw [← h3 z, weight_count ba, weight_count bb, ← Nat.cast_add, ← count_pos, ← count_pos]
  have ca := count_le ta z
  have cb := count_le tb z
  constructor
  · intro h
    by_contra hc
    push Not at hc
    apply h
    rw [show ta.count z + tb.count z = 0 by omega]; simp
  · intro h
    exact hab _ (by omega) (by rw [va.nv, vb.nv]; omega)

/-- C66 for union.  The active values of the result are exactly those active in one of the inputs, each in one row. -/
theorem C66_set_union_sound {a b union range : BagComm} {M : Nat} (h2 : (2 : F) ≠ 0) (hM : 0 < M) (hn : NatsNonzero F (2 ^ union.numVars * M))
    (hab : NatsNonzero F (2 ^ a.numVars + 2 ^ b.numVars)) (hs : Sane s) (ka : KnownBag s a) (kb : KnownBag s b) (ku : KnownBag s union) (kr : Known s range.poly) :
    SoundExcept (fun H => SetUnion.verify (E.withH H) a b union range) s N
      ([2 ^ a.numVars + 2 ^ b.numVars + 2 ^ union.numVars, 2 * 2 ^ union.numVars] ++ sortBounds union.numVars range.numVars) fun _ P =>
      HoldsRange s P N range M → ∀ ta tb tu : BagTab F, HoldsBag s P N a ta → HoldsBag s P N b tb → HoldsBag s P N union tu → ta.Boolean → tb.Boolean →
        tu.Nodup ∧ ∀ z, tu.Active z ↔ ta.Active z ∨ tb.Active z :=
  Snd.except hs ((union_snd (N := N) h2 (natsNonzero_mono hn (Nat.le_mul_of_pos_right _ hM)) hab hs ka kb ku kr).mono hs fun _ _ h => h M hn)

namespace REx

/-- The run for the union of {2} and {2, 3} meets the hypotheses. -/
example : NatsNonzero G (2 ^ 2 * 4) ∧ NatsNonzero G (2 ^ 1 + 2 ^ 1) ∧ ∃ (H : Oracle G (Mle G)) (vs : VState G (Mle G) Unit) (s' : VSt G (Mle G) Unit), VReachable true H vs ∧ Sane vs.st ∧
    SetUnion.verify (env.withH H) ⟨0, 1, 1⟩ ⟨2, 3, 1⟩ ⟨4, 5, 2⟩ ⟨6, 6, 2⟩ vs.st = (.ok (), s') ∧ ClaimsTrue poly 2 s' ∧ HoldsRange vs.st poly 2 ⟨6, 6, 2⟩ 4 ∧
    HoldsBag vs.st poly 2 ⟨0, 1, 1⟩ (tab ⟨1, [2, 0]⟩ ⟨1, [1, 0]⟩) ∧ HoldsBag vs.st poly 2 ⟨2, 3, 1⟩ (tab ⟨1, [2, 3]⟩ ⟨1, [1, 1]⟩) ∧
    HoldsBag vs.st poly 2 ⟨4, 5, 2⟩ (tab ⟨2, [0, 0, 2, 3]⟩ ⟨2, [0, 0, 1, 1]⟩) ∧ (tab ⟨1, [2, 0]⟩ ⟨1, [1, 0]⟩).Boolean ∧ (tab ⟨1, [2, 3]⟩ ⟨1, [1, 1]⟩).Boolean := by
  obtain ⟨H, vs, s', h1, h2, h3, h4, h5, h6, h7⟩ := run_set_union
  exact ⟨natsNonzero_mono natsNonzero (by decide), natsNonzero_mono natsNonzero (by decide), H, vs, s', h1, h1.sane, h2, h3, ⟨_, h7, by decide +kernel⟩, h4, h5, h6,
    by decide +kernel, by decide +kernel⟩

end REx

/-- C66 for difference.  `l` holds the values of `a` outside `b`, and `m` the common ones, provided the prover's selector for the sum of `l` and `b` is
0/1, which the code does not check. -/
theorem C66_set_diff_sound_partial {a b l m range : BagComm} {bm M : Nat} (h2 : (2 : F) ≠ 0) (hM : 0 < M) (hn : NatsNonzero F (2 ^ (max l.numVars b.numVars + 1) * M))
    (hab : NatsNonzero F (max (2 ^ l.numVars + 2 ^ m.numVars) (2 ^ a.numVars))) (hs : Sane s) (ka : KnownBag s a) (kb : KnownBag s b) (kl : KnownBag s l)
    (km : KnownBag s m) (kbm : Known s bm) (kr : Known s range.poly) :
    SoundExcept (fun H => SetDiff.verify (E.withH H) a b l m bm range) s N
      (setDisjointBounds l.numVars b.numVars range.numVars ++ [2 ^ l.numVars + 2 ^ m.numVars + 2 ^ a.numVars, 2 ^ m.numVars + 2 ^ b.numVars]) fun pf P =>
      HoldsRange s P N range M → CommBoolean pf (s.own.idCounter + 1) P N → ∀ (ta tb tl tm : BagTab F) (μ : Nat → F),
        HoldsBag s P N a ta → HoldsBag s P N b tb → HoldsBag s P N l tl → HoldsBag s P N m tm → Vals s P N bm μ →
        ta.Boolean → tb.Boolean → tl.Boolean → tm.Boolean →
        (∀ z, tl.Active z ↔ ta.Active z ∧ ¬tb.Active z) ∧ ∀ z, tm.Active z ↔ ta.Active z ∧ tb.Active z := by
  refine SndP.except hs ((setDiff_sound (N := N) h2 (natsNonzero_mono hn (Nat.le_mul_of_pos_right _ hM)) hs ka kb kl km kbm kr).mono hs
    fun P _ h hr hbool ta tb tl tm μ va vb vl vm vμ ba bb bl bm => ?_)
  obtain ⟨h1, h3, h4⟩ := h M hr hn hbool ta tb tl tm μ va vb vl vm vμ bl bb
  rw [vl.nv, vm.nv, va.nv] at hab
  have hc := fun z => active_of_counts (counts_of_weights bl bm ba hab (h3 z))
  have hmb : ∀ z, tm.Active z → tb.Active z := fun z hz => h4 z ((active_iff_weight bm (natsNonzero_mono hab (le_trans (Nat.le_add_left _ _) (le_max_left _ _))) z).1 hz)
  refine ⟨fun z => ?_, fun z => ?_⟩ <;> have := hc z <;> have := hmb z <;> have := h1 z <;> tauto

/-- C66 for intersection.  `l` holds the values only in `a`, `m` the common ones and `r` those only in `b`, under the same assumption on the prover's selector
(the identifier counts the two sum checks before it). -/
theorem C66_set_intersect_sound_partial {a b l m r range : BagComm} {M : Nat} (h2 : (2 : F) ≠ 0) (hM : 0 < M)
    (hn : NatsNonzero F (2 ^ (max l.numVars r.numVars + 1) * M))
    (hla : NatsNonzero F (max (2 ^ l.numVars + 2 ^ m.numVars) (2 ^ a.numVars))) (hrb : NatsNonzero F (max (2 ^ m.numVars + 2 ^ r.numVars) (2 ^ b.numVars))) (hs : Sane s)
    (ka : KnownBag s a) (kb : KnownBag s b) (kl : KnownBag s l) (km : KnownBag s m) (krr : KnownBag s r) (kr : Known s range.poly) :
    SoundExcept (fun H => SetIntersect.verify (E.withH H) a b l m r range) s N
      ([2 ^ l.numVars + 2 ^ m.numVars + 2 ^ a.numVars, 2 ^ m.numVars + 2 ^ r.numVars + 2 ^ b.numVars] ++
        setDisjointBounds l.numVars r.numVars range.numVars) fun pf P =>
      HoldsRange s P N range M → CommBoolean pf (s.own.idCounter + 55) P N → ∀ ta tb tl tm tr : BagTab F,
        HoldsBag s P N a ta → HoldsBag s P N b tb → HoldsBag s P N l tl → HoldsBag s P N m tm → HoldsBag s P N r tr →
        ta.Boolean → tb.Boolean → tl.Boolean → tm.Boolean → tr.Boolean →
        (∀ z, ¬(tl.Active z ∧ tr.Active z)) ∧
        (∀ z, ta.count z = tl.count z + tm.count z) ∧ (∀ z, tb.count z = tm.count z + tr.count z) ∧
        (ta.Nodup → tb.Nodup → ∀ z, (tm.Active z ↔ ta.Active z ∧ tb.Active z) ∧ (tl.Active z ↔ ta.Active z ∧ ¬tb.Active z) ∧
          (tr.Active z ↔ tb.Active z ∧ ¬ta.Active z)) := by
  refine SndP.except hs ((setIntersect_sound (N := N) h2 (natsNonzero_mono hn (Nat.le_mul_of_pos_right _ hM)) hs ka kb kl km krr kr).mono hs
    fun P _ h hr hbool ta tb tl tm tr va vb vl vm vr ba bb bl bm br => ?_)
  obtain ⟨h1, h3, h4⟩ := h M hr hn hbool ta tb tl tm tr va vb vl vm vr bl br
  rw [vl.nv, vm.nv, va.nv] at hla
  rw [vm.nv, vr.nv, vb.nv] at hrb
  have c1 := fun z => counts_of_weights bl bm ba hla (h3 z)
  have c2 := fun z => counts_of_weights bm br bb hrb (h4 z)
  refine ⟨h1, fun z => (c1 z).symm, fun z => (c2 z).symm, fun na nb z => ?_⟩
  have n1 := nodup_count na z
  have n2 := nodup_count nb z
  have e1 := c1 z
  have e2 := c2 z
  have e3 := h1 z
  simp only [← count_pos] at e3 ⊢
  omega

/-! ### C69 -/

/-- C69, sizes: the claims of the join reduction can only be true if both key columns have the same size, and only over the hypercube of twice that size. -/
theorem C69_size_sound {a b range : BagComm} {lSel rSel : Nat} (h2 : (2 : F) ≠ 0) (hn : NatsNonzero F (2 ^ (max a.numVars b.numVars + 1))) (hs : Sane s)
    (ka : KnownBag s a) (kb : KnownBag s b) (kl : Known s lSel) (kr : Known s rSel) (krg : Known s range.poly) :
    SoundExcept (fun H => JoinReduction.verify (E.withH H) a b lSel rSel range) s N
      (disjointBounds a.numVars b.numVars range.numVars ++ (disjointBounds a.numVars a.numVars range.numVars ++
        (disjointBounds b.numVars b.numVars range.numVars ++ [2 ^ a.numVars + 2 ^ b.numVars, 2 ^ b.numVars + 2 ^ a.numVars]))) fun _ _ =>
      a.numVars = b.numVars ∧ N = a.numVars + 1 :=
  Snd.except hs ((joinReduction_sound (N := N) h2 hn hs ka kb kl kr krg).mono hs fun _ _ h => ⟨by have := h.1; omega, h.1.1⟩)

/-- C69, what the claims imply.  The selectors are 0/1, and an active row is marked iff its key is not active in the other table. -/
theorem C69_join_reduction_sound {a b range : BagComm} {lSel rSel M : Nat} (h2 : (2 : F) ≠ 0) (hM : 0 < M)
    (hn : NatsNonzero F (2 ^ (max a.numVars b.numVars + 1) * M)) (hs : Sane s)
    (ka : KnownBag s a) (kb : KnownBag s b) (kl : Known s lSel) (kr : Known s rSel) (krg : Known s range.poly) :
    SoundExcept (fun H => JoinReduction.verify (E.withH H) a b lSel rSel range) s N
      (disjointBounds a.numVars b.numVars range.numVars ++ (disjointBounds a.numVars a.numVars range.numVars ++
        (disjointBounds b.numVars b.numVars range.numVars ++ [2 ^ a.numVars + 2 ^ b.numVars, 2 ^ b.numVars + 2 ^ a.numVars]))) fun _ P =>
      HoldsRange s P N range M → ∀ (ta tb : BagTab F) (L R : Nat → F), HoldsBag s P N a ta → HoldsBag s P N b tb →
        Holds s P N lSel ta.nv L → Holds s P N rSel tb.nv R → ta.Boolean → tb.Boolean →
        (∀ i < 2 ^ ta.nv, L i = 0 ∨ L i = 1) ∧ (∀ i < 2 ^ tb.nv, R i = 0 ∨ R i = 1) ∧
        (∀ i < 2 ^ ta.nv, ta.sel i ≠ 0 → (L i = 1 ↔ ¬tb.Active (ta.val i))) ∧ ∀ i < 2 ^ tb.nv, tb.sel i ≠ 0 → (R i = 1 ↔ ¬ta.Active (tb.val i)) :=
  Snd.except hs ((joinReduction_sound (N := N) h2 (natsNonzero_mono hn (Nat.le_mul_of_pos_right _ hM)) hs ka kb kl kr krg).mono hs fun _ _ h hr => h.2 M hM hr hn)

namespace REx

/-- The run for the keys 1, 2 and 2, 2 meets the hypotheses. -/
example : NatsNonzero G (2 ^ (max 1 1 + 1) * 4) ∧ ∃ (H : Oracle G (Mle G)) (vs : VState G (Mle G) Unit) (s' : VSt G (Mle G) Unit), VReachable true H vs ∧ Sane vs.st ∧
    JoinReduction.verify (env.withH H) ⟨0, 1, 1⟩ ⟨2, 1, 1⟩ 3 4 ⟨5, 5, 2⟩ vs.st = (.ok (), s') ∧ ClaimsTrue poly 2 s' ∧ HoldsRange vs.st poly 2 ⟨5, 5, 2⟩ 4 ∧
    HoldsBag vs.st poly 2 ⟨0, 1, 1⟩ (tab ⟨1, [1, 2]⟩ ⟨1, [1, 1]⟩) ∧ HoldsBag vs.st poly 2 ⟨2, 1, 1⟩ (tab ⟨1, [2, 2]⟩ ⟨1, [1, 1]⟩) ∧
    Holds vs.st poly 2 3 1 (fun b => ([1, 0] : List G).getD b 0) ∧ Holds vs.st poly 2 4 1 (fun b => ([0, 0] : List G).getD b 0) ∧
    (tab ⟨1, [1, 2]⟩ ⟨1, [1, 1]⟩).Boolean ∧ (tab ⟨1, [2, 2]⟩ ⟨1, [1, 1]⟩).Boolean := by
  obtain ⟨H, vs, s', h1, h2, h3, h4, h5, h6, h7, h8⟩ := run_join_reduction
  exact ⟨natsNonzero_mono natsNonzero (by decide), H, vs, s', h1, h1.sane, h2, h3, ⟨_, h8, by decide +kernel⟩, h4, h5, h6, h7, by decide +kernel, by decide +kernel⟩

end REx

end Zksql
