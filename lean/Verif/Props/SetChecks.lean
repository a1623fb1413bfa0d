import Verif.Lemmas.SetTabs
import Verif.Lemmas.IopEx
import Verif.Props.Honest
/-!
What the recorded claims of the permutation, sort, support, disjointness, set and join-reduction checks imply about the committed tables.

The conventions are those of `Props/BagChecks`: `s` and `s'` are the verifier's states around the call, `P` assigns a polynomial to every commitment
and is chosen by the prover, and the claims are taken to be true over the hypercube of dimension `N`.
-/
set_option linter.unusedSectionVars false
namespace Zksql
open Spec
variable {F C B : Type} [Field F] [DecidableEq F]
variable {E : Env F C} {s s' : VSt F C B} {N : Nat}

/-! ### C61 -/

theorem pw_count (A T : Nat → F) (x y : F) : pw N A T x y = (pairCount N A T x y : F) := by
  unfold pw pairCount
  rw [Finset.sum_boole, ← List.countP_eq_length_filter]
  congr 1
  have : ∀ n, (Finset.filter (fun b => A b = x ∧ T b = y) (Finset.range n)).card = List.countP (fun i => decide (A i = x ∧ T i = y)) (List.range n) := by
    intro n
    induction n with
    | zero => rfl
    | succ n ih =>
      rw [Finset.range_add_one, Finset.filter_insert, List.range_succ, List.countP_append, ← ih]
      by_cases h : A n = x ∧ T n = y
      · rw [if_pos h, Finset.card_insert_of_notMem (by simp)]; simp [h]
      · rw [if_neg h]; simp [h]
  exact this _

/-- What acceptance implies, for a call that others may follow. -/
theorem permutation_snd {f g : BagComm} {perm : Nat} (h2 : (2 : F) ≠ 0) (hs : Sane s) (kf : Known s f.poly) (kg : Known s g.poly)
    (kp : Known s perm) (hnv : f.numVars = g.numVars) (hn : NatsNonzero F (2 ^ N)) :
    Snd (fun H => PrescPerm.verify (E.withH H) f g perm) s N [(2 * 2 ^ N) * (2 * 2 ^ N), 2 * 2 ^ N] fun P => ∀ tf tg tp : Nat → F, Vals s P N f.poly tf → Vals s P N g.poly tg → Vals s P N perm tp →
      (∀ x y, pairCount N (fun i : Nat => (i : F)) tf x y = pairCount N tp tg x y) ∧
      ∀ π : Nat → Nat, (∀ i < 2 ^ N, π i < 2 ^ N ∧ tp i = (π i : F)) → ∀ i < 2 ^ N, tf (π i) = tg i := by
  refine ((prescPerm_sound (N := N) hs kf kg kp _ _).mono hs fun P _ h tf tg tp hf hg hp => ?_)
  have key := h.2 tf tg tp hf hg hp le_rfl le_rfl
  have cnt : ∀ x y, pairCount N (fun i : Nat => (i : F)) tf x y = pairCount N tp tg x y := by
    intro x y
    have := key x y
    rw [hnv, pw_count, pw_count] at this
    have hle : ∀ A T : Nat → F, pairCount N A T x y ≤ 2 ^ N := fun A T => (List.length_filter_le _ _).trans (by simp)
    exact natCast_inj_of hn (hle _ _) (hle _ _) (mul_left_cancel₀ (scl_ne h2 _ _) this)
  refine ⟨cnt, fun π hπ i hi => ?_⟩
  have hpos : 0 < pairCount N tp tg (π i : F) (tg i) := by
    unfold pairCount
    rw [List.length_pos_iff_exists_mem]
    exact ⟨i, by simp [List.mem_filter, hi, (hπ i hi).2]⟩
  rw [← cnt] at hpos
  unfold pairCount at hpos
  rw [List.length_pos_iff_exists_mem] at hpos
  obtain ⟨j, hj⟩ := hpos
  simp only [List.mem_filter, List.mem_range, decide_eq_true_eq] at hj
  obtain ⟨h1, h3, h4⟩ := hj
  have : j = π i := natCast_inj_of hn h1.le (hπ i hi).1.le h3
  rw [← this]; exact h4

/-- C61, what the claims imply.  For tables of equal size, over the hypercube of the claims the pairs (index, f) and the pairs (perm, g) are the same
multiset.  If moreover the permutation column holds the numbers `π i`, then `f (π i) = g i` for every row. -/
theorem C61_prescribed_permutation_sound_partial {f g : BagComm} {perm : Nat} (h2 : (2 : F) ≠ 0) (hs : Sane s) (kf : Known s f.poly) (kg : Known s g.poly)
    (kp : Known s perm) (hnv : f.numVars = g.numVars) (hn : NatsNonzero F (2 ^ N)) :
    SoundExcept (fun H => PrescPerm.verify (E.withH H) f g perm) s N [(2 * 2 ^ N) * (2 * 2 ^ N), 2 * 2 ^ N] fun _ P => ∀ tf tg tp : Nat → F, Vals s P N f.poly tf → Vals s P N g.poly tg → Vals s P N perm tp →
      (∀ x y, pairCount N (fun i : Nat => (i : F)) tf x y = pairCount N tp tg x y) ∧
      ∀ π : Nat → Nat, (∀ i < 2 ^ N, π i < 2 ^ N ∧ tp i = (π i : F)) → ∀ i < 2 ^ N, tf (π i) = tg i :=
  Snd.except hs (permutation_snd h2 hs kf kg kp hnv hn)

namespace SEx
open IEx

theorem ok61 : check 5 1 [⟨1, [2, 3]⟩, ⟨1, [1, 1]⟩, ⟨1, [3, 2]⟩, ⟨1, [1, 0]⟩] (fun ps => PrescPerm.prove (env 5) (bag ps 0 1) (bag ps 2 1) (ps.getD 3 ⟨0, 0⟩))
    (PrescPerm.verify (env 5) ⟨0, 1, 1⟩ ⟨2, 1, 1⟩ 3) = true := by decide +kernel

example : ∃ (vs : VState F7 Cm Unit) (s' : VSt F7 Cm Unit), VReachable true (env 5).H vs ∧
    PrescPerm.verify (env 5) ⟨0, 1, 1⟩ ⟨2, 1, 1⟩ 3 vs.st = (.ok (), s') ∧ ClaimsTrue poly 1 s' ∧ Vals vs.st poly 1 0 (fun b => [2, 3].getD (b % 2) 0) ∧
    Vals vs.st poly 1 2 (fun b => [3, 2].getD (b % 2) 0) ∧ Vals vs.st poly 1 3 (fun b => [1, 0].getD (b % 2) 0) := by
  obtain ⟨vs, s', h1, h2, h3, h4⟩ := run_of ok61
  exact ⟨vs, s', h1, h2, h3, (h4 0 _ rfl).2.2, (h4 2 _ rfl).2.2, (h4 3 _ rfl).2.2⟩

end SEx

/-! ### C62 -/

/-- C62, what the claims imply.  Consecutive rows of the sorted bag differ by an element of the range, and by a non-zero one after an active row.
If the range holds numbers below `M`, the rows increase from the first; with `rows * M` below the characteristic no active value occurs twice. -/
theorem C62_strict_sort_sound_partial {sorted range : BagComm} (h2 : (2 : F) ≠ 0) (hn : NatsNonzero F (2 ^ sorted.numVars)) (hs : Sane s)
    (kb : KnownBag s sorted) (kr : Known s range.poly) :
    SoundExcept (fun H => StrictSort.verify (E.withH H) sorted range) s N (sortBounds sorted.numVars range.numVars) fun _ P =>
      ∀ t ρ, HoldsBag s P N sorted t → Holds s P N range.poly range.numVars ρ →
        (∀ i, i + 1 < 2 ^ t.nv → (∃ j < 2 ^ range.numVars, t.val (i + 1) - t.val i = ρ j) ∧ (t.sel i ≠ 0 → t.val (i + 1) - t.val i ≠ 0)) ∧
        ∀ M : Nat, (∀ j < 2 ^ range.numVars, ∃ k < M, ρ j = (k : F)) → t.Increasing ∧ (NatsNonzero F (2 ^ t.nv * M) → t.Nodup) :=
  Snd.except hs ((sort_tabs (N := N) h2 hn hs kb kr).mono hs fun _ _ h => h.2)

namespace SEx
open IEx

theorem ok62 : check 5 1 [⟨1, [2, 3]⟩, ⟨1, [1, 1]⟩, ⟨1, [0, 1]⟩] (fun ps => StrictSort.prove (env 5) (bag ps 0 1) (bag ps 2 1))
    (StrictSort.verify (env 5) ⟨0, 1, 1⟩ ⟨2, 1, 1⟩) = true := by decide +kernel

example : ∃ (vs : VState F7 Cm Unit) (s' : VSt F7 Cm Unit), VReachable true (env 5).H vs ∧
    StrictSort.verify (env 5) ⟨0, 1, 1⟩ ⟨2, 1, 1⟩ vs.st = (.ok (), s') ∧ ClaimsTrue poly 1 s' ∧
    HoldsBag vs.st poly 1 ⟨0, 1, 1⟩ (tab ⟨1, [2, 3]⟩ ⟨1, [1, 1]⟩) ∧ Holds vs.st poly 1 2 1 fun b => [0, 1].getD b 0 := by
  obtain ⟨vs, s', h1, h2, h3, h4⟩ := run_of ok62
  exact ⟨vs, s', h1, h2, h3, holdsBag_of (h4 0 _ rfl).2 (h4 1 _ rfl).2 rfl, (h4 2 _ rfl).2⟩

end SEx

/-! ### C63 -/

/-- What acceptance implies, for a call that others may follow. -/
theorem support_snd {bag supp range : BagComm} (h2 : (2 : F) ≠ 0) (hn : NatsNonzero F (2 ^ supp.numVars))
    (hb : NatsNonzero F (2 ^ bag.numVars)) (hs : Sane s) (kb : KnownBag s bag) (ks : KnownBag s supp) (kr : Known s range.poly) :
    Snd (fun H => Supp.verify (E.withH H) bag supp range) s N ([2 ^ bag.numVars + 2 ^ supp.numVars] ++ sortBounds supp.numVars range.numVars) fun P =>
      ∀ M, NatsNonzero F (2 ^ supp.numVars * M) → HoldsRange s P N range M → ∀ tb ts : BagTab F, HoldsBag s P N bag tb → HoldsBag s P N supp ts → tb.Boolean →
        ts.Nodup ∧ ∀ z, tb.Active z ↔ ts.Active z := by
  intro β K b2 Concl hK
  unfold Supp.verify
  simp only [Act.bind_assoc, withH_debug]
  refine step_transfer hs fun m c s1 q1 l1 m1 => ?_
  refine (supp_tabs (N := N) h2 hn q1.sane (q1.knownBag kb) (q1.knownBag ks) (known_look l1) (q1.known kr)).bind fun _ s2 L2 => ?_
  refine (hK () s2 (q1.toLater.trans L2)).mono L2.sane fun P _ hC h => hC fun M hM hr tb ts ht hts hbool => ?_
  have vm := vals_query (P := P) (N := N) q1.sane (h := m) (i := m) (c := c) (by later) (by later)
  have := h.2 M ((q1.holdsRange hs kr).2 hr) hM tb ts _ ((q1.holdsBag hs kb).2 ht) ((q1.holdsBag hs ks).2 hts) vm
  exact ⟨this.1, fun z => by rw [← this.2 z, active_iff_weight hbool (by rw [← ht.nv]; exact hb) z]⟩

/-- C63.  With a 0/1 selector on the bag and sizes below the characteristic, the active values of the support are exactly the active values of the bag,
each in one row, whatever multiplicities the prover committed to. -/
theorem C63_support_sound {bag supp range : BagComm} {M : Nat} (h2 : (2 : F) ≠ 0) (hM : 0 < M) (hn : NatsNonzero F (2 ^ supp.numVars * M))
    (hb : NatsNonzero F (2 ^ bag.numVars)) (hs : Sane s) (kb : KnownBag s bag) (ks : KnownBag s supp) (kr : Known s range.poly) :
    SoundExcept (fun H => Supp.verify (E.withH H) bag supp range) s N ([2 ^ bag.numVars + 2 ^ supp.numVars] ++ sortBounds supp.numVars range.numVars) fun _ P =>
      HoldsRange s P N range M → ∀ tb ts : BagTab F, HoldsBag s P N bag tb → HoldsBag s P N supp ts → tb.Boolean →
        ts.Nodup ∧ ∀ z, tb.Active z ↔ ts.Active z :=
  Snd.except hs ((support_snd (N := N) h2 (natsNonzero_mono hn (Nat.le_mul_of_pos_right _ hM)) hb hs kb ks kr).mono hs fun _ _ h => h M hn)

/-- What acceptance implies, for a call that others may follow. -/
theorem supportAdvice_snd {bag supp range : BagComm} {m : Nat} (h2 : (2 : F) ≠ 0) (hn : NatsNonzero F (2 ^ supp.numVars))
    (hb : NatsNonzero F (2 ^ bag.numVars)) (hs : Sane s) (kb : KnownBag s bag) (ks : KnownBag s supp) (km : Known s m) (kr : Known s range.poly) :
    Snd (fun H => Supp.verifyWithAdvice (E.withH H) bag supp m range) s N ([2 ^ bag.numVars + 2 ^ supp.numVars] ++ sortBounds supp.numVars range.numVars) fun P =>
      ∀ M, NatsNonzero F (2 ^ supp.numVars * M) → HoldsRange s P N range M → ∀ (tb ts : BagTab F) (μ : Nat → F), HoldsBag s P N bag tb → HoldsBag s P N supp ts → Vals s P N m μ → tb.Boolean →
        ts.Nodup ∧ ∀ z, tb.Active z ↔ ts.Active z := by
  refine ((supp_tabs (N := N) h2 hn hs kb ks km kr).mono hs fun P _ h M hM hr tb ts μ ht hts hm hbool => ?_)
  have := h.2 M hr hM tb ts _ ht hts hm
  exact ⟨this.1, fun z => by rw [← this.2 z, active_iff_weight hbool (by rw [← ht.nv]; exact hb) z]⟩

/-- C63 for a given column of multiplicities. -/
theorem C63_support_advice_sound {bag supp range : BagComm} {m M : Nat} (h2 : (2 : F) ≠ 0) (hM : 0 < M) (hn : NatsNonzero F (2 ^ supp.numVars * M))
    (hb : NatsNonzero F (2 ^ bag.numVars)) (hs : Sane s) (kb : KnownBag s bag) (ks : KnownBag s supp) (km : Known s m) (kr : Known s range.poly) :
    SoundExcept (fun H => Supp.verifyWithAdvice (E.withH H) bag supp m range) s N ([2 ^ bag.numVars + 2 ^ supp.numVars] ++ sortBounds supp.numVars range.numVars) fun _ P =>
      HoldsRange s P N range M → ∀ (tb ts : BagTab F) (μ : Nat → F), HoldsBag s P N bag tb → HoldsBag s P N supp ts → Vals s P N m μ → tb.Boolean →
        ts.Nodup ∧ ∀ z, tb.Active z ↔ ts.Active z :=
  Snd.except hs ((supportAdvice_snd (N := N) h2 (natsNonzero_mono hn (Nat.le_mul_of_pos_right _ hM)) hb hs kb ks km kr).mono hs fun _ _ h => h M hn)

namespace REx

/-- The run for the support {3} of {3, 3} meets the hypotheses. -/
example : NatsNonzero G (2 ^ 1 * 2) ∧ NatsNonzero G (2 ^ 1) ∧ ∃ (H : Oracle G (Mle G)) (vs : VState G (Mle G) Unit) (s' : VSt G (Mle G) Unit), VReachable true H vs ∧ Sane vs.st ∧
    Supp.verify (env.withH H) ⟨0, 1, 1⟩ ⟨2, 3, 1⟩ ⟨3, 1, 1⟩ vs.st = (.ok (), s') ∧ ClaimsTrue poly 1 s' ∧ HoldsRange vs.st poly 1 ⟨3, 1, 1⟩ 2 ∧
    HoldsBag vs.st poly 1 ⟨0, 1, 1⟩ (tab ⟨1, [3, 3]⟩ ⟨1, [1, 1]⟩) ∧ HoldsBag vs.st poly 1 ⟨2, 3, 1⟩ (tab ⟨1, [2, 3]⟩ ⟨1, [0, 1]⟩) ∧ (tab ⟨1, [3, 3]⟩ ⟨1, [1, 1]⟩).Boolean := by
  obtain ⟨H, vs, s', h1, h2, h3, h4, h5, h6⟩ := run_support
  exact ⟨natsNonzero_mono natsNonzero (by decide), natsNonzero_mono natsNonzero (by decide), H, vs, s', h1, h1.sane, h2, h3, ⟨_, h6, by decide +kernel⟩, h4, h5, by decide +kernel⟩

end REx

/-! ### C65 -/

/-- What acceptance implies, for a call that others may follow. -/
theorem disjoint_snd {a b range : BagComm} (h2 : (2 : F) ≠ 0)
    (hn : NatsNonzero F (2 ^ (max a.numVars b.numVars + 1))) (hs : Sane s)
    (ka : KnownBag s a) (kb : KnownBag s b) (kr : Known s range.poly) :
    Snd (fun H => Disjoint.verify (E.withH H) a b range) s N (disjointBounds a.numVars b.numVars range.numVars) fun P => ∀ M, NatsNonzero F (2 ^ (max a.numVars b.numVars + 1) * M) → HoldsRange s P N range M →
      ∀ ta tb : BagTab F, HoldsBag s P N a ta → HoldsBag s P N b tb → ta.Boolean → tb.Boolean → ∀ z, ¬(ta.Active z ∧ tb.Active z) := by
  refine ((disjoint_tabs (N := N) h2 hn hs ka kb kr).mono hs fun P _ h M hM hr ta tb ha hb ba bb z hz => ?_)
  have nle : ∀ k, k ≤ max a.numVars b.numVars → NatsNonzero F (2 ^ k) := fun k hk => natsNonzero_mono hn (Nat.pow_le_pow_right (by norm_num) (by omega))
  refine h.2 M hr hM ta tb ha hb z ⟨(active_iff_weight ba ?_ z).1 hz.1, (active_iff_weight bb ?_ z).1 hz.2⟩
  · rw [← ha.nv]; exact nle _ (le_max_left _ _)
  · rw [← hb.nv]; exact nle _ (le_max_right _ _)

/-- C65 for multisets, what the claims imply.  No value is active in both bags. -/
theorem C65_disjoint_sound_partial {a b range : BagComm} {M : Nat} (h2 : (2 : F) ≠ 0) (hM : 0 < M)
    (hn : NatsNonzero F (2 ^ (max a.numVars b.numVars + 1) * M)) (hs : Sane s)
    (ka : KnownBag s a) (kb : KnownBag s b) (kr : Known s range.poly) :
    SoundExcept (fun H => Disjoint.verify (E.withH H) a b range) s N (disjointBounds a.numVars b.numVars range.numVars) fun _ P => HoldsRange s P N range M →
      ∀ ta tb : BagTab F, HoldsBag s P N a ta → HoldsBag s P N b tb → ta.Boolean → tb.Boolean → ∀ z, ¬(ta.Active z ∧ tb.Active z) :=
  Snd.except hs ((disjoint_snd (N := N) h2 (natsNonzero_mono hn (Nat.le_mul_of_pos_right _ hM)) hs ka kb kr).mono hs fun _ _ h => h M hn)

/-- C65 for sets, what the claims imply.  No value is active in both bags provided the prover's selector for the sum is 0/1, which the code does not check;
`C65_violated_set_disjoint` shows that without it the statement is false. -/
theorem C65_set_disjoint_sound_partial {a b range : BagComm} {M : Nat} (h2 : (2 : F) ≠ 0) (hM : 0 < M)
    (hn : NatsNonzero F (2 ^ (max a.numVars b.numVars + 1) * M)) (hs : Sane s)
    (ka : KnownBag s a) (kb : KnownBag s b) (kr : Known s range.poly) :
    SoundExcept (fun H => SetDisjoint.verify (E.withH H) a b range) s N (setDisjointBounds a.numVars b.numVars range.numVars) fun pf P => HoldsRange s P N range M → CommBoolean pf (s.own.idCounter + 1) P N →
      ∀ ta tb : BagTab F, HoldsBag s P N a ta → HoldsBag s P N b tb → ta.Boolean → tb.Boolean → ∀ z, ¬(ta.Active z ∧ tb.Active z) :=
  SndP.except hs ((setDisjoint_tabs (N := N) h2 (natsNonzero_mono hn (Nat.le_mul_of_pos_right _ hM)) hs ka kb kr).mono hs fun _ _ h hr hbool => h.2 M hr hn hbool)

namespace REx

/-- The run for {2} and {3, 3} meets the hypotheses of the multiset version. -/
example : NatsNonzero G (2 ^ (max 1 1 + 1) * 4) ∧ ∃ (H : Oracle G (Mle G)) (vs : VState G (Mle G) Unit) (s' : VSt G (Mle G) Unit), VReachable true H vs ∧ Sane vs.st ∧
    Disjoint.verify (env.withH H) ⟨0, 1, 1⟩ ⟨2, 3, 1⟩ ⟨4, 4, 2⟩ vs.st = (.ok (), s') ∧ ClaimsTrue poly 2 s' ∧ HoldsRange vs.st poly 2 ⟨4, 4, 2⟩ 4 ∧
    HoldsBag vs.st poly 2 ⟨0, 1, 1⟩ (tab ⟨1, [2, 0]⟩ ⟨1, [1, 0]⟩) ∧ HoldsBag vs.st poly 2 ⟨2, 3, 1⟩ (tab ⟨1, [3, 3]⟩ ⟨1, [1, 1]⟩) ∧
    (tab ⟨1, [2, 0]⟩ ⟨1, [1, 0]⟩).Boolean ∧ (tab ⟨1, [3, 3]⟩ ⟨1, [1, 1]⟩).Boolean := by
  obtain ⟨H, vs, s', h1, h2, h3, h4, h5, h6⟩ := run_disjoint
  exact ⟨natsNonzero_mono natsNonzero (by decide), H, vs, s', h1, h1.sane, h2, h3, ⟨_, h6, by decide +kernel⟩, h4, h5, by decide +kernel, by decide +kernel⟩

end REx
end Zksql
