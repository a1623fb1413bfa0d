import Verif.Lemmas.Advice2
import Verif.Lemmas.RunEx
import Verif.Props.Honest
/-!
The advice computed by the prover, and the shape checks of the multiset check.

`Returns` (Spec/Honest) says what a call that only reads the prover's tables returns.
-/
set_option linter.unusedSectionVars false
namespace Zksql
open Spec
variable {F C B : Type} [Field F] [DecidableEq F]
variable {E : Env F C} {t : PTracker F C}

/-! ### C54 -/

/-- One side of the multiset check is malformed: no bags, another number of multiplicity tables, or one of another size than its bag. -/
def Malformed (xs : List Bag) (ms : List TPoly) : Prop :=
  xs = [] ∨ xs.length ≠ ms.length ∨ ∃ (i : Nat) (b : Bag) (m : TPoly), xs[i]? = some b ∧ ms[i]? = some m ∧ b.poly.numVars ≠ m.numVars

theorem shapeOk_iff (xs : List Bag) (ms : List TPoly) : Multitool.shapeOk xs ms = true ↔ ¬ Malformed xs ms := by
  unfold Multitool.shapeOk Malformed
  simp only [Bool.and_eq_true, Bool.not_eq_true', beq_iff_eq, List.all_eq_true, List.isEmpty_eq_false_iff]
  push Not
  constructor
  · rintro ⟨⟨h1, h2⟩, h3⟩
    refine ⟨h1, h2, fun i b m hb hm => ?_⟩
    have : (xs.zip ms)[i]? = some (b, m) := by
      rw [List.getElem?_zip_eq_some]; exact ⟨hb, hm⟩
    exact h3 (b, m) (List.mem_of_getElem? this)
  · rintro ⟨h1, h2, h3⟩
    refine ⟨⟨h1, h2⟩, fun q hq => ?_⟩
    obtain ⟨i, hi⟩ := List.getElem?_of_mem hq
    rw [List.getElem?_zip_eq_some] at hi
    exact h3 i _ _ hi.1 hi.2

/-- C54 in full, for the prover: on bags and multiplicities it knows, of sizes it can commit to, the call never panics, and it fails if a side is malformed. -/
def C54_statement : Prop :=
  ∀ (F C : Type) [Field F] [DecidableEq F] (E : Env F C) (N : Nat) (t : PTracker F C) (fxs gxs : List Bag) (mfxs mgxs : List TPoly),
    CanCommit E.commit N → Ready E.commit t →
    (∀ b ∈ fxs ++ gxs, b.poly.numVars ≤ N ∧ b.selector.numVars ≤ N ∧ (∃ T, HoldsP t b.poly T) ∧ ∃ T, HoldsP t b.selector T) →
    (∀ m ∈ mfxs ++ mgxs, m.numVars ≤ N ∧ ∃ T, HoldsP t m T) →
    (Multitool.prove E fxs gxs mfxs mgxs t).1 ≠ .error .panic ∧
      (Malformed fxs mfxs ∨ Malformed gxs mgxs → ∃ e, (Multitool.prove E fxs gxs mfxs mgxs t).1 = .error (.err e))

/-- C54 for the prover: a malformed side is an error, and nothing has happened.  If no side is malformed and the selectors have the sizes of their bags,
the call succeeds.  Missing: a selector of another size than its bag (`C54_violated`). -/
theorem C54_prover_partial {N : Nat} {fxs gxs : List Bag} {mfxs mgxs : List TPoly} :
    (Malformed fxs mfxs ∨ Malformed gxs mgxs → Multitool.prove E fxs gxs mfxs mgxs t = (.error (.err .invalidParameters), t)) ∧
    (¬ Malformed fxs mfxs → ¬ Malformed gxs mgxs → (2 : F) ≠ 0 → CanCommit E.commit N → Ready E.commit t →
      (∀ b ∈ fxs ++ gxs, b.poly.numVars ≤ N ∧ b.selector.numVars = b.poly.numVars ∧ (∃ T, HoldsP t b.poly T) ∧ ∃ T, HoldsP t b.selector T) →
      (∀ m ∈ mfxs ++ mgxs, ∃ T, HoldsP t m T) → (Multitool.prove E fxs gxs mfxs mgxs t).1 = .ok ()) := by
  refine ⟨fun h => ?_, fun hf hg h2 hC hr hb hm => ?_⟩
  · unfold Multitool.prove
    by_cases h1 : Multitool.shapeOk fxs mfxs = true
    · have h3 : ¬ Multitool.shapeOk gxs mgxs = true := fun h3 => h.elim ((shapeOk_iff _ _).1 h1) ((shapeOk_iff _ _).1 h3)
      rw [if_neg (by simp [h1]), if_pos (by simp [h3])]
      rfl
    · rw [if_pos (by simp [h1])]
      rfl
  · -- the entries of a side
    have mk : ∀ (xs : List Bag) (ms : List TPoly), ¬ Malformed xs ms → (∀ b ∈ xs, b ∈ fxs ++ gxs) → (∀ m ∈ ms, m ∈ mfxs ++ mgxs) →
        ∃ l : List (Entry F), l.map (·.bag) = xs ∧ l.map (·.mult) = ms ∧ ∀ e ∈ l, e.HoldsP t ∧ e.tab.nv ≤ N := by
      intro xs ms h hx hms
      unfold Malformed at h
      push Not at h
      obtain ⟨-, h4, h5⟩ := h
      clear hf hg
      induction xs generalizing ms with
      | nil =>
        rw [List.length_nil] at h4
        rw [List.length_eq_zero_iff.1 h4.symm]
        exact ⟨[], rfl, rfl, by simp⟩
      | cons b xs ih =>
        rcases ms with _ | ⟨m, ms⟩
        · simp at h4
        obtain ⟨l, l1, l2, l3⟩ := ih ms (fun b hb => hx b (List.mem_cons_of_mem _ hb)) (fun m hm => hms m (List.mem_cons_of_mem _ hm)) (by simpa using h4)
          fun i b m h6 h7 => h5 (i + 1) b m (by simpa using h6) (by simpa using h7)
        obtain ⟨b1, b2, ⟨T, b3⟩, S, b4⟩ := hb b (hx b List.mem_cons_self)
        obtain ⟨M, m1⟩ := hm m (hms m List.mem_cons_self)
        have e := h5 0 b m rfl rfl
        refine ⟨⟨b, m, ⟨b.poly.numVars, T, S⟩, M⟩ :: l, by simp [l1], by simp [l2], fun e' he => ?_⟩
        rcases List.mem_cons.1 he with rfl | he
        · exact ⟨⟨⟨rfl, b2, b3, b4⟩, e.symm, m1⟩, b1⟩
        · exact l3 e' he
    obtain ⟨fs, f1, f2, f3⟩ := mk fxs mfxs hf (fun b hb => List.mem_append_left _ hb) fun m hm => List.mem_append_left _ hm
    obtain ⟨gs, g1, g2, g3⟩ := mk gxs mgxs hg (fun b hb => List.mem_append_right _ hb) fun m hm => List.mem_append_right _ hm
    have hfs : fs ≠ [] := fun h => hf (.inl (by rw [← f1, h]; rfl))
    have hgs : gs ≠ [] := fun h => hg (.inl (by rw [← g1, h]; rfl))
    have all : ∀ e ∈ fs ++ gs, e.HoldsP t ∧ e.tab.nv ≤ N := fun e he => (List.mem_append.1 he).elim (f3 e) (g3 e)
    obtain ⟨a, t', h, -⟩ := C52_multiset_complete (B := Unit) (P := fun _ _ => 0) (fs := fs) (gs := gs) h2 hC hr hfs hgs (fun e he => (all e he).1) (fun e he => (all e he).2) E.H
    rw [f1, f2, g1, g2] at h
    have h' : Multitool.prove E fxs gxs mfxs mgxs t = (.ok a, t') := h
    rw [h']

/-- C54 for the verifier: a side without bags, or with another number of multiplicities, is an error and nothing has happened. -/
theorem C54_verifier {s : VSt F C B} {fxs gxs : List BagComm} {mfxs mgxs : List Nat}
    (h : fxs = [] ∨ fxs.length ≠ mfxs.length ∨ gxs = [] ∨ gxs.length ≠ mgxs.length) :
    Multitool.verify E fxs gxs mfxs mgxs s = (.error (.err .invalidParameters), s) := by
  unfold Multitool.verify
  by_cases h1 : (fxs.isEmpty || fxs.length != mfxs.length) = true
  · rw [if_pos h1]; rfl
  · rw [if_neg h1, if_pos]
    · rfl
    · simp only [Bool.or_eq_true, List.isEmpty_iff, bne_iff_ne, not_or, not_not, ne_eq] at h1 ⊢
      tauto

namespace AdvEx
open REx

/-- A bag of two rows, a selector of one row and multiplicities of two rows. -/
def cols : List (Mle G) := [⟨1, [2, 3]⟩, ⟨0, [1]⟩, ⟨1, [1, 1]⟩]

/-- The prover has committed to them. -/
def st : PTracker G (Mle G) := startP env.commit cols PTracker.new

theorem st_facts {cols : List (Mle G)} {N : Nat} (h : (cols.all fun p => p.evals.length = 2 ^ p.numVars ∧ p.numVars ≤ N) = true) (hne : cols ≠ []) :
    Ready env.commit (startP env.commit cols PTracker.new) ∧ ∀ i p, cols[i]? = some p → HoldsP (startP env.commit cols PTracker.new) ⟨i, p.numVars⟩ p.tbl := by
  have hi0 : (PTracker.new : PTracker G (Mle G)).Inv (commR env.commit) := (stInv_init (commit := env.commit)).inv
  have hcols : ∀ p ∈ cols, p.WF ∧ p.numVars ≤ N := fun p hp => by
    have := List.all_eq_true.1 h p hp
    simp only [decide_eq_true_eq] at this
    exact ⟨this.1, this.2⟩
  obtain ⟨i1, i2, -, -, -, -, i7, -⟩ := start_run (B := Unit) (E := env) (P := poly) env.debug (fun _ _ => 0) (canCommit N) cols hcols (Γ := Facts.none) hi0
  have hr : Ready env.commit (startP env.commit cols PTracker.new) := ⟨i1, i2 (.inl hne)⟩
  refine ⟨hr, fun i p hip => ?_⟩
  have := (i7 i p hip).holdsP hr
  rw [show (PTracker.new : PTracker G (Mle G)).idCounter = 0 from rfl, Nat.zero_add] at this
  exact this

end AdvEx

open REx AdvEx in
/-- C54 fails: a selector shorter than its bag passes the shape checks and is read out of range. -/
theorem C54_violated : ¬ C54_statement := by
  intro h
  obtain ⟨h1, h2⟩ := st_facts (cols := cols) (N := 1) (by decide) (by decide)
  have hb : (∃ T, HoldsP st (⟨0, 1⟩ : TPoly) T) ∧ (∃ T, HoldsP st (⟨1, 0⟩ : TPoly) T) ∧ ∃ T, HoldsP st (⟨2, 1⟩ : TPoly) T :=
    ⟨⟨_, h2 0 _ rfl⟩, ⟨_, h2 1 _ rfl⟩, ⟨_, h2 2 _ rfl⟩⟩
  refine (h G (Mle G) env 1 st [⟨⟨0, 1⟩, ⟨1, 0⟩⟩] [⟨⟨0, 1⟩, ⟨1, 0⟩⟩] [⟨2, 1⟩] [⟨2, 1⟩] (canCommit 1) h1 ?_ ?_).1 (by decide +kernel)
  · intro b hb'
    have : b = ⟨⟨0, 1⟩, ⟨1, 0⟩⟩ := by simpa using hb'
    subst this
    exact ⟨by decide, by decide, hb.1, hb.2.1⟩
  · intro m hm'
    have : m = ⟨2, 1⟩ := by simpa using hm'
    subst this
    exact ⟨by decide, hb.2.2⟩

namespace AdvEx
open REx

/-- The bag {2, 3} with a one-row table of multiplicities is malformed, with two rows it is not and the hypotheses of the second part hold. -/
example : Malformed [⟨⟨0, 1⟩, ⟨2, 1⟩⟩] [⟨1, 0⟩] ∧ ¬ Malformed [⟨⟨0, 1⟩, ⟨2, 1⟩⟩] [⟨2, 1⟩] ∧ Ready env.commit st ∧
    (∃ T, HoldsP st (⟨0, 1⟩ : TPoly) T) ∧ (∃ T, HoldsP st (⟨2, 1⟩ : TPoly) T) := by
  obtain ⟨h1, h2⟩ := st_facts (cols := cols) (N := 1) (by decide) (by decide)
  refine ⟨.inr (.inr ⟨0, _, _, rfl, rfl, by decide⟩), ?_, h1, ⟨_, h2 0 _ rfl⟩, ⟨_, h2 2 _ rfl⟩⟩
  rw [← shapeOk_iff]
  decide

end AdvEx

/-! ### C58 -/

/-- C58.  The advice for including `I` in `S` has the size of `S`; row `i` holds the number of active occurrences in `I` of the value of `S` at `i`, if `i`
is the first active row of `S` with that value, and 0 otherwise. -/
theorem C58_inclusion_advice {inc sup : Bag} {I S : BagTab F} (hr : Ready E.commit t) (hI : HoldsBagP t inc I) (hS : HoldsBagP t sup S) :
    Returns E.commit (Inclusion.advice inc sup) t
      ⟨S.nv, (List.range (2 ^ S.nv)).map fun i => if S.FirstActive i then (I.count (S.val i) : F) else 0⟩ :=
  returns_incAdvice hr hI hS

/-- C58, consequence.  With 0/1 selectors, the advice gives every value that is active in `S` the total weight it has in `I`, and if `I` is included in
`S` then all totals match. -/
theorem C58_totals {I S : BagTab F} (hI : I.Boolean) (hS : S.Boolean) :
    (∀ z, S.Active z → S.weight (fun i => if S.FirstActive i then (I.count (S.val i) : F) else 0) z = I.weight (fun _ => 1) z) ∧
    ((∀ z, I.Active z → S.Active z) → ∀ z, S.weight (fun i => if S.FirstActive i then (I.count (S.val i) : F) else 0) z = I.weight (fun _ => 1) z) := by
  refine ⟨fun z hz => ?_, fun h z => (incMult_total hI hS h z).symm⟩
  classical
  have := incMult_weight (I := I) hS z
  rw [if_pos hz] at this
  rw [weight_count hI, ← this]
  rfl

namespace AdvEx
open REx

/-- {3, 3, -, 2} in {2, 3, 3, -}: the advice is 1, 2, 0, 0. -/
example : ∃ t : PTracker G (Mle G), Ready env.commit t ∧ HoldsBagP t (bag 0 1 2) (tab ⟨2, [3, 3, 2, 2]⟩ ⟨2, [1, 1, 0, 1]⟩) ∧
    HoldsBagP t (bag 2 3 2) (tab ⟨2, [2, 3, 3, 3]⟩ ⟨2, [1, 1, 1, 0]⟩) ∧ (tab ⟨2, [3, 3, 2, 2]⟩ ⟨2, [1, 1, 0, 1]⟩).Boolean ∧
    (tab ⟨2, [2, 3, 3, 3]⟩ ⟨2, [1, 1, 1, 0]⟩).Boolean ∧
    (∀ z, (tab ⟨2, [3, 3, 2, 2]⟩ ⟨2, [1, 1, 0, 1]⟩).Active z → (tab ⟨2, [2, 3, 3, 3]⟩ ⟨2, [1, 1, 1, 0]⟩).Active z) ∧
    ((Inclusion.advice (bag 0 1 2) (bag 2 3 2) t).1.toOption.map fun m => m.evals) = some [1, 2, 0, 0] := by
  obtain ⟨h1, h2⟩ := st_facts (cols := [⟨2, [3, 3, 2, 2]⟩, ⟨2, [1, 1, 0, 1]⟩, ⟨2, [2, 3, 3, 3]⟩, ⟨2, [1, 1, 1, 0]⟩]) (N := 2) (by decide) (by decide)
  exact ⟨_, h1, ⟨rfl, rfl, h2 0 _ rfl, h2 1 _ rfl⟩, ⟨rfl, rfl, h2 2 _ rfl, h2 3 _ rfl⟩, by decide +kernel, by decide +kernel, by decide +kernel, by decide +kernel⟩

end AdvEx

/-! ### C64 -/

/-- C64.  For a bag with a 0/1 selector, the computed support is the increasing list of distinct active values with zeros in front, its selector marks
exactly those rows, and the multiplicities are the numbers of active occurrences. -/
theorem C64_support_advice {b : Bag} {T : BagTab F} (hr : Ready E.commit t) (hc : Canonical E.rep) (hT : HoldsBagP t b T) (hb : T.Boolean) :
    ∃ L, T.Support E.rep L ∧ L.length ≤ 2 ^ T.nv ∧
      Returns E.commit (Supp.advice E b) t (frontPadded T.nv L, frontPadded T.nv (L.map fun _ => 1), frontPadded T.nv (L.map fun z => (T.count z : F))) :=
  returns_suppAdvice hr hc hT hb

namespace AdvEx
open REx

/-- The support of {5, 3, 5, -} is {3, 5} with multiplicities 1 and 2. -/
example : ∃ t : PTracker G (Mle G), Ready env.commit t ∧ Canonical env.rep ∧ HoldsBagP t (bag 0 1 2) (tab ⟨2, [5, 3, 5, 1]⟩ ⟨2, [1, 1, 1, 0]⟩) ∧
    (tab ⟨2, [5, 3, 5, 1]⟩ ⟨2, [1, 1, 1, 0]⟩).Boolean ∧
    ((Supp.advice env (bag 0 1 2) t).1.toOption.map fun m => (m.1.evals, m.2.1.evals, m.2.2.evals)) = some ([0, 0, 3, 5], [0, 0, 1, 1], [0, 0, 1, 2]) := by
  obtain ⟨h1, h2⟩ := st_facts (cols := [⟨2, [5, 3, 5, 1]⟩, ⟨2, [1, 1, 1, 0]⟩]) (N := 2) (by decide) (by decide)
  exact ⟨_, h1, canonical, ⟨rfl, rfl, h2 0 _ rfl, h2 1 _ rfl⟩, by decide +kernel, by decide +kernel⟩

end AdvEx

/-! ### C69 -/

open Classical in
/-- C69, the computed selectors.  For tables of the stated sizes, a row is marked exactly if its key is not active in the other table, so the active rows that
are marked are those to be removed.  (Inactive rows are marked by the same rule.) -/
theorem C69_join_reduction_advice (Ta Tb : BagTab F) :
    JoinReduction.advice ⟨Ta.nv, (List.range (2 ^ Ta.nv)).map Ta.val⟩ ⟨Ta.nv, (List.range (2 ^ Ta.nv)).map Ta.sel⟩
      ⟨Tb.nv, (List.range (2 ^ Tb.nv)).map Tb.val⟩ ⟨Tb.nv, (List.range (2 ^ Tb.nv)).map Tb.sel⟩ =
      .ok (⟨Ta.nv, (List.range (2 ^ Ta.nv)).map fun i => if Tb.Active (Ta.val i) then 0 else 1⟩,
        ⟨Tb.nv, (List.range (2 ^ Tb.nv)).map fun i => if Ta.Active (Tb.val i) then 0 else 1⟩) := by
  rw [joinAdvice_spec]
  have e : ∀ (T : BagTab F) (z : F), (if T.count z = 0 then (1 : F) else 0) = if T.Active z then 0 else 1 := fun T z => by
    rw [← count_pos]
    by_cases h : T.count z = 0
    · simp [h]
    · simp [h, Nat.pos_of_ne_zero h]
  simp only [e]

/-- The keys {1, 2} and {2, 2}. -/
example : JoinReduction.advice (F := ZMod 101) ⟨1, [1, 2]⟩ ⟨1, [1, 1]⟩ ⟨1, [2, 2]⟩ ⟨1, [1, 0]⟩ = .ok (⟨1, [1, 0]⟩, ⟨1, [0, 0]⟩) := by decide +kernel

end Zksql
