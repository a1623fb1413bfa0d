import Verif.Lemmas.LmrMult
import Verif.Props.Advice
/-!
The split of two bags and the advice of the one-to-many join.
-/
set_option linter.unusedSectionVars false
namespace Zksql
open Spec
variable {F C B : Type} [Field F] [DecidableEq F]
variable {E : Env F C} {t : PTracker F C} {N : Nat}

/-! ### C67 -/

/-- C67 in full: whatever the order of the rows, the split succeeds and splits the active values. -/
def C67_statement : Prop :=
  ∀ (F C : Type) [Field F] [DecidableEq F] (E : Env F C) (N : Nat) (t : PTracker F C) (a b : Bag) (S T : BagTab F),
    Canonical E.rep → CanCommit E.commit N → Ready E.commit t → HoldsBagP t a S → HoldsBagP t b T → S.nv ≤ N → T.nv ≤ N → S.Boolean → T.Boolean →
    ∃ l ma mb r t' Tl Tma Tmb Tr, LmrSplit.bag E a b t = (.ok (l, ma, mb, r), t') ∧ HoldsBagP t' l Tl ∧ HoldsBagP t' ma Tma ∧ HoldsBagP t' mb Tmb ∧
      HoldsBagP t' r Tr ∧ SplitOf S T Tl Tma Tmb Tr

theorem split_of (S T : BagTab F) : SplitOf S T (LmrSplit.listTab S.nv ((LmrSplit.activeList S).filter fun x => decide (x ∉ LmrSplit.activeList T)))
    (LmrSplit.listTab S.nv ((LmrSplit.activeList S).filter fun x => decide (x ∈ LmrSplit.activeList T)))
    (LmrSplit.listTab T.nv ((LmrSplit.activeList T).filter fun x => decide (x ∈ LmrSplit.activeList S)))
    (LmrSplit.listTab T.nv ((LmrSplit.activeList T).filter fun x => decide (x ∉ LmrSplit.activeList S))) := by
  have key : ∀ (S : BagTab F) (p : F → Bool) (z : F), (LmrSplit.listTab S.nv ((LmrSplit.activeList S).filter p)).count z = if p z then S.count z else 0 := by
    intro S p z
    rw [← LmrSplit.count_activeList, LmrSplit.activeList_listTab ((List.length_filter_le _ _).trans (LmrSplit.length_activeList S)), ← LmrSplit.count_activeList]
    by_cases h : p z
    · rw [if_pos h, List.count_filter h]
    · rw [if_neg h, List.count_eq_zero]
      exact fun hz => h (List.mem_filter.1 hz).2
  refine ⟨⟨LmrSplit.listTab_boolean _ _, LmrSplit.listTab_boolean _ _, LmrSplit.listTab_boolean _ _, LmrSplit.listTab_boolean _ _⟩,
    fun z => ⟨fun h => ?_, fun h => ?_⟩, fun z => ⟨fun h => ?_, fun h => ?_⟩⟩ <;>
  · rw [key, key]
    simp [LmrSplit.mem_activeList, h]

/-- C67 for bags whose active rows come first in ascending order: the split succeeds, keeps what the prover has, and splits the active values.  Missing:
other orders (`C67_violated`). -/
theorem C67_split_partial {a b : Bag} {S T : BagTab F} (hc : Canonical E.rep) (hC : CanCommit E.commit N) (hr : Ready E.commit t) (ha : HoldsBagP t a S)
    (hb : HoldsBagP t b T) (hNa : S.nv ≤ N) (hNb : T.nv ≤ N) (hS : ActiveAscending E.rep S) (hT : ActiveAscending E.rep T) :
    ∃ l ma mb r t' Tl Tma Tmb Tr, LmrSplit.bag E a b t = (.ok (l, ma, mb, r), t') ∧ Ready E.commit t' ∧ (∀ x U, HoldsP t x U → HoldsP t' x U) ∧
      HoldsBagP t' l Tl ∧ HoldsBagP t' ma Tma ∧ HoldsBagP t' mb Tmb ∧ HoldsBagP t' r Tr ∧ SplitOf S T Tl Tma Tmb Tr := by
  obtain ⟨l, ma, mb, r, t', h1, h2, h3, h4, h5, h6, h7⟩ := LmrSplit.bag_spec (Supp.rep_inj hc) hC hr ha hb hS hT hNa hNb
  exact ⟨l, ma, mb, r, t', _, _, _, _, h1, h2, h3, h4, h5, h6, h7, split_of S T⟩

/-- C67 for sets whose active rows come first in ascending order: the three results are sets, of the values only in the first, in both, and only in the
second.  Missing: other orders (`C67_violated`). -/
theorem C67_set_split_partial {a b : Bag} {S T : BagTab F} (hc : Canonical E.rep) (hC : CanCommit E.commit N) (hr : Ready E.commit t) (ha : HoldsBagP t a S)
    (hb : HoldsBagP t b T) (hNa : S.nv ≤ N) (hNb : T.nv ≤ N) (hS : ActiveAscending E.rep S) (hT : ActiveAscending E.rep T) (dS : S.Nodup) (dT : T.Nodup) :
    ∃ l m r t' Tl Tm Tr, LmrSplit.set E a b t = (.ok (l, m, r), t') ∧ Ready E.commit t' ∧ (∀ x U, HoldsP t x U → HoldsP t' x U) ∧
      HoldsBagP t' l Tl ∧ HoldsBagP t' m Tm ∧ HoldsBagP t' r Tr ∧ (Tl.Boolean ∧ Tm.Boolean ∧ Tr.Boolean) ∧ (Tl.Nodup ∧ Tm.Nodup ∧ Tr.Nodup) ∧
      Tm.nv = min S.nv T.nv ∧
      ∀ z, (Tl.Active z ↔ S.Active z ∧ ¬ T.Active z) ∧ (Tm.Active z ↔ S.Active z ∧ T.Active z) ∧ (Tr.Active z ↔ T.Active z ∧ ¬ S.Active z) := by
  obtain ⟨l, ma, mb, r, t', h1, h2, h3, h4, h5, h6, h7⟩ := LmrSplit.bag_spec (Supp.rep_inj hc) hC hr ha hb hS hT hNa hNb
  have run : LmrSplit.set E a b t = (.ok (l, if a.numVars < b.numVars then ma else mb, r), t') := by
    unfold LmrSplit.set
    rw [Act.bind_ok h1]; rfl
  have nd : ∀ (S : BagTab F) (p : F → Bool), S.Nodup → (LmrSplit.listTab S.nv ((LmrSplit.activeList S).filter p)).Nodup :=
    fun S p h => LmrSplit.listTab_nodup ((LmrSplit.nodup_activeList h).filter _)
  have ac : ∀ (S : BagTab F) (p : F → Bool) (z : F), (LmrSplit.listTab S.nv ((LmrSplit.activeList S).filter p)).Active z ↔ S.Active z ∧ p z := by
    intro S p z
    rw [← LmrSplit.mem_activeList, LmrSplit.activeList_listTab ((List.length_filter_le _ _).trans (LmrSplit.length_activeList S)), List.mem_filter, LmrSplit.mem_activeList]
  have na : a.numVars = S.nv := ha.nv
  have nb : b.numVars = T.nv := hb.nv
  by_cases hlt : a.numVars < b.numVars
  · rw [if_pos hlt] at run
    refine ⟨l, ma, r, t', _, _, _, run, h2, h3, h4, h5, h7, ⟨LmrSplit.listTab_boolean _ _, LmrSplit.listTab_boolean _ _, LmrSplit.listTab_boolean _ _⟩,
      ⟨nd _ _ dS, nd _ _ dS, nd _ _ dT⟩, ?_, fun z => ?_⟩
    · show S.nv = _
      rw [na, nb] at hlt; omega
    · rw [ac, ac, ac]; simp [LmrSplit.mem_activeList]
  · rw [if_neg hlt] at run
    refine ⟨l, mb, r, t', _, _, _, run, h2, h3, h4, h6, h7, ⟨LmrSplit.listTab_boolean _ _, LmrSplit.listTab_boolean _ _, LmrSplit.listTab_boolean _ _⟩,
      ⟨nd _ _ dS, nd _ _ dT, nd _ _ dT⟩, ?_, fun z => ?_⟩
    · show T.nv = _
      rw [na, nb] at hlt; omega
    · rw [ac, ac, ac]; simp [LmrSplit.mem_activeList, and_comm]

namespace TabEx
open REx AdvEx

/-- {3, 1} and {1, 2}, all active. -/
def cols1 : List (Mle G) := [⟨1, [3, 1]⟩, ⟨1, [1, 1]⟩, ⟨1, [1, 2]⟩, ⟨1, [1, 1]⟩]

def st1 : PTracker G (Mle G) := startP env.commit cols1 PTracker.new

/-- {1, 3, 3, -} and {3, 4}. -/
def cols2 : List (Mle G) := [⟨2, [1, 3, 3, 9]⟩, ⟨2, [1, 1, 1, 0]⟩, ⟨1, [3, 4]⟩, ⟨1, [1, 1]⟩]

def st2 : PTracker G (Mle G) := startP env.commit cols2 PTracker.new

theorem asc (T : BagTab G) (n : Nat) (h : (n ≤ 2 ^ T.nv ∧ (∀ i < 2 ^ T.nv, T.sel i ≠ 0 ↔ i < n) ∧ ∀ j < n, ∀ i < j, env.rep (T.val i) ≤ env.rep (T.val j))) :
    ActiveAscending env.rep T := ⟨n, h.1, h.2.1, fun i j h1 h2 => h.2.2 j h2 i h1⟩

end TabEx

open REx AdvEx TabEx in
/-- C67 fails: in {3, 1} and {1, 2} the common value 1 is not found. -/
theorem C67_violated : ¬ C67_statement := by
  intro h
  obtain ⟨h1, h2⟩ := st_facts (cols := cols1) (N := 1) (by decide) (by decide)
  obtain ⟨l, ma, mb, r, t', Tl, Tma, Tmb, Tr, e, -, o, -, -, hs⟩ := h G (Mle G) env 1 st1 (bag 0 1 1) (bag 2 3 1) (tab ⟨1, [3, 1]⟩ ⟨1, [1, 1]⟩) (tab ⟨1, [1, 2]⟩ ⟨1, [1, 1]⟩)
    canonical (canCommit 1) h1 ⟨rfl, rfl, h2 0 _ rfl, h2 1 _ rfl⟩ ⟨rfl, rfl, h2 2 _ rfl, h2 3 _ rfl⟩ (by decide) (by decide) (by decide +kernel) (by decide +kernel)
  have run : ((LmrSplit.bag env (bag 0 1 1) (bag 2 3 1) >>= fun q => q.2.1.selector.evaluations) st1).1 = .ok [0, 0] := by decide +kernel
  rw [Act.bind_ok e] at run
  have hsel := Except.ok.inj (run.symm.trans o.sel.2)
  rw [o.nvSel] at hsel
  have hz : Tma.count 1 = 0 := by
    unfold BagTab.count
    rw [List.length_eq_zero_iff, List.filter_eq_nil_iff]
    intro i hi hc
    simp only [decide_eq_true_eq] at hc
    have : Tma.sel i ∈ ([0, 0] : List G) := by rw [hsel]; exact List.mem_map_of_mem hi
    exact hc.1 (by simpa using this)
  have := ((hs.left 1).1 (by decide +kernel)).2
  rw [hz] at this
  exact absurd this (by decide +kernel)

namespace TabEx
open REx AdvEx

/-- {1, 3, 3, -} and {3, 4} meet the hypotheses of the bag split; the common part in the first is {3, 3}. -/
example : Ready env.commit st2 ∧ HoldsBagP st2 (bag 0 1 2) (tab ⟨2, [1, 3, 3, 9]⟩ ⟨2, [1, 1, 1, 0]⟩) ∧ HoldsBagP st2 (bag 2 3 1) (tab ⟨1, [3, 4]⟩ ⟨1, [1, 1]⟩) ∧
    ActiveAscending env.rep (tab ⟨2, [1, 3, 3, 9]⟩ ⟨2, [1, 1, 1, 0]⟩) ∧ ActiveAscending env.rep (tab ⟨1, [3, 4]⟩ ⟨1, [1, 1]⟩) ∧
    ((LmrSplit.bag env (bag 0 1 2) (bag 2 3 1) >>= fun q => q.2.1.poly.evaluations) st2).1 = .ok [3, 3, 0, 0] := by
  obtain ⟨h1, h2⟩ := st_facts (cols := cols2) (N := 2) (by decide) (by decide)
  exact ⟨h1, ⟨rfl, rfl, h2 0 _ rfl, h2 1 _ rfl⟩, ⟨rfl, rfl, h2 2 _ rfl, h2 3 _ rfl⟩, asc _ 3 (by decide +kernel), asc _ 2 (by decide +kernel), by decide +kernel⟩

/-- {1, 3, -, -} and {3, 4} are sets. -/
example : ActiveAscending env.rep (tab ⟨2, [1, 3, 3, 9]⟩ ⟨2, [1, 1, 0, 0]⟩) ∧ (tab ⟨2, [1, 3, 3, 9]⟩ ⟨2, [1, 1, 0, 0]⟩).Nodup ∧
    ActiveAscending env.rep (tab ⟨1, [3, 4]⟩ ⟨1, [1, 1]⟩) ∧ (tab ⟨1, [3, 4]⟩ ⟨1, [1, 1]⟩).Nodup :=
  ⟨asc _ 2 (by decide +kernel), by decide +kernel, asc _ 2 (by decide +kernel), by decide +kernel⟩

end TabEx

/-! ### C78 -/

/-- C78 in full, for bags whose active rows come first in ascending order: the split with multiplicities lists the values only in the first bag, in
both, and only in the second, each once, with their numbers of occurrences. -/
def C78_statement : Prop :=
  ∀ (F C : Type) [Field F] [DecidableEq F] (E : Env F C) (N : Nat) (t : PTracker F C) (a b : Bag) (S T : BagTab F),
    Canonical E.rep → CanCommit E.commit N → Ready E.commit t → HoldsBagP t a S → HoldsBagP t b T → S.nv ≤ N → T.nv ≤ N →
    ActiveAscending E.rep S → ActiveAscending E.rep T →
    ∃ l m r lm am bm rm t' Tl Tm Tr Ul Ua Ub Ur, LmrSplit.multBag E a b t = (.ok (l, m, r, lm, am, bm, rm), t') ∧
      HoldsBagP t' l Tl ∧ HoldsBagP t' m Tm ∧ HoldsBagP t' r Tr ∧ HoldsP t' lm Ul ∧ HoldsP t' am Ua ∧ HoldsP t' bm Ub ∧ HoldsP t' rm Ur ∧
      Lists Tl Ul (fun z => S.Active z ∧ ¬ T.Active z) S.count ∧ Lists Tm Ua (fun z => S.Active z ∧ T.Active z) S.count ∧
      Lists Tm Ub (fun z => S.Active z ∧ T.Active z) T.count ∧ Lists Tr Ur (fun z => T.Active z ∧ ¬ S.Active z) T.count

/-- C78 when both bags have the same values, ascending and active first: every value is listed once with its numbers of occurrences, and the other two
bags are empty.  Missing: bags with different values (`C78_violated`, `C78_wrong_value`). -/
theorem C78_same_values_partial {a b : Bag} {S T : BagTab F} (hc : Canonical E.rep) (hC : CanCommit E.commit N) (hr : Ready E.commit t) (ha : HoldsBagP t a S)
    (hb : HoldsBagP t b T) (hNa : S.nv ≤ N) (hNb : T.nv ≤ N) (hS : ActiveAscending E.rep S) (hT : ActiveAscending E.rep T)
    (he : ∀ z, S.Active z ↔ T.Active z) :
    ∃ l m r lm am bm rm t' Tl Tm Tr Ul Ua Ub Ur, LmrSplit.multBag E a b t = (.ok (l, m, r, lm, am, bm, rm), t') ∧ Ready E.commit t' ∧
      (∀ x U, HoldsP t x U → HoldsP t' x U) ∧ HoldsBagP t' l Tl ∧ HoldsBagP t' m Tm ∧ HoldsBagP t' r Tr ∧
      HoldsP t' lm Ul ∧ HoldsP t' am Ua ∧ HoldsP t' bm Ub ∧ HoldsP t' rm Ur ∧
      Lists Tl Ul (fun z => S.Active z ∧ ¬ T.Active z) S.count ∧ Lists Tm Ua (fun z => S.Active z ∧ T.Active z) S.count ∧
      Lists Tm Ub (fun z => S.Active z ∧ T.Active z) T.count ∧ Lists Tr Ur (fun z => T.Active z ∧ ¬ S.Active z) T.count :=
  LmrSplit.multBag_same (Supp.rep_inj hc) hC hr ha hb hS hT he hNa hNb

namespace TabEx
open REx AdvEx

/-- {1, 2} and {3, 4}, all active. -/
def cols3 : List (Mle G) := [⟨1, [1, 2]⟩, ⟨1, [1, 1]⟩, ⟨1, [3, 4]⟩, ⟨1, [1, 1]⟩]

def st3 : PTracker G (Mle G) := startP env.commit cols3 PTracker.new

/-- {1, 1, 2, -} and {1, 2}. -/
def cols4 : List (Mle G) := [⟨2, [1, 1, 2, 0]⟩, ⟨2, [1, 1, 1, 0]⟩, ⟨1, [1, 2]⟩, ⟨1, [1, 1]⟩]

def st4 : PTracker G (Mle G) := startP env.commit cols4 PTracker.new

/-- {5, -} and {7, -}. -/
def cols5 : List (Mle G) := [⟨1, [5, 0]⟩, ⟨1, [1, 0]⟩, ⟨1, [7, 0]⟩, ⟨1, [1, 0]⟩]

def st5 : PTracker G (Mle G) := startP env.commit cols5 PTracker.new

end TabEx

open REx AdvEx TabEx in
/-- C78 fails: for {1, 2} and {3, 4} the call panics. -/
theorem C78_violated : ¬ C78_statement := by
  intro h
  obtain ⟨h1, h2⟩ := st_facts (cols := cols3) (N := 1) (by decide) (by decide)
  obtain ⟨l, m, r, lm, am, bm, rm, t', -, -, -, -, -, -, -, e, -⟩ := h G (Mle G) env 1 st3 (bag 0 1 1) (bag 2 3 1) (tab ⟨1, [1, 2]⟩ ⟨1, [1, 1]⟩) (tab ⟨1, [3, 4]⟩ ⟨1, [1, 1]⟩)
    canonical (canCommit 1) h1 ⟨rfl, rfl, h2 0 _ rfl, h2 1 _ rfl⟩ ⟨rfl, rfl, h2 2 _ rfl, h2 3 _ rfl⟩ (by decide) (by decide) (asc _ 2 (by decide +kernel)) (asc _ 2 (by decide +kernel))
  have run : (LmrSplit.multBag env (bag 0 1 1) (bag 2 3 1) st3).1.toOption.isNone = true := by decide +kernel
  rw [e] at run
  exact absurd run (by simp [Except.toOption])

/-- C78, the failure in general: a bag with all rows active, whatever its values are, panics against a bag without active rows. -/
theorem C78_full_panics {a b : Bag} {S T : BagTab F} (hr : Ready E.commit t) (ha : HoldsBagP t a S) (hb : HoldsBagP t b T)
    (hS : ∀ i < 2 ^ S.nv, S.sel i ≠ 0) (hT : ∀ i < 2 ^ T.nv, T.sel i = 0) : (LmrSplit.multBag E a b t).1 = .error .panic :=
  LmrSplit.multBag_full hr ha hb hS hT

/-- The same with the bags exchanged. -/
theorem C78_full_panics_right {a b : Bag} {S T : BagTab F} (hr : Ready E.commit t) (ha : HoldsBagP t a S) (hb : HoldsBagP t b T)
    (hS : ∀ i < 2 ^ S.nv, S.sel i = 0) (hT : ∀ i < 2 ^ T.nv, T.sel i ≠ 0) : (LmrSplit.multBag E a b t).1 = .error .panic :=
  LmrSplit.multBag_full_right hr ha hb hS hT

open REx AdvEx TabEx in
/-- C78, another failure: for {5, -} and {7, -} the call succeeds, but the left bag lists the padding value 0 instead of 5 and the right bag lists 0 instead
of 7. -/
theorem C78_wrong_value : ActiveAscending env.rep (tab ⟨1, [5, 0]⟩ ⟨1, [1, 0]⟩) ∧ ActiveAscending env.rep (tab ⟨1, [7, 0]⟩ ⟨1, [1, 0]⟩) ∧
    HoldsBagP st5 (bag 0 1 1) (tab ⟨1, [5, 0]⟩ ⟨1, [1, 0]⟩) ∧ HoldsBagP st5 (bag 2 3 1) (tab ⟨1, [7, 0]⟩ ⟨1, [1, 0]⟩) ∧
    ((LmrSplit.multBag env (bag 0 1 1) (bag 2 3 1) >>= fun q => q.1.poly.evaluations) st5).1 = .ok [0, 0] ∧
    ((LmrSplit.multBag env (bag 0 1 1) (bag 2 3 1) >>= fun q => q.1.selector.evaluations) st5).1 = .ok [1, 0] ∧
    ((LmrSplit.multBag env (bag 0 1 1) (bag 2 3 1) >>= fun q => q.2.2.1.poly.evaluations) st5).1 = .ok [0, 0] := by
  obtain ⟨h1, h2⟩ := st_facts (cols := cols5) (N := 1) (by decide) (by decide)
  exact ⟨asc _ 1 (by decide +kernel), asc _ 1 (by decide +kernel), ⟨rfl, rfl, h2 0 _ rfl, h2 1 _ rfl⟩, ⟨rfl, rfl, h2 2 _ rfl, h2 3 _ rfl⟩, by decide +kernel, by decide +kernel,
    by decide +kernel⟩

namespace TabEx
open REx AdvEx

/-- {1, 2} and {-, -}. -/
example : let cols : List (Mle G) := [⟨1, [1, 2]⟩, ⟨1, [1, 1]⟩, ⟨1, [3, 4]⟩, ⟨1, [0, 0]⟩]
    Ready env.commit (startP env.commit cols PTracker.new) ∧ HoldsBagP (startP env.commit cols PTracker.new) (bag 0 1 1) (tab ⟨1, [1, 2]⟩ ⟨1, [1, 1]⟩) ∧
    HoldsBagP (startP env.commit cols PTracker.new) (bag 2 3 1) (tab ⟨1, [3, 4]⟩ ⟨1, [0, 0]⟩) ∧
    (∀ i < 2 ^ 1, (tab (⟨1, [1, 2]⟩ : Mle G) ⟨1, [1, 1]⟩).sel i ≠ 0) ∧ ∀ i < 2 ^ 1, (tab (⟨1, [3, 4]⟩ : Mle G) ⟨1, [0, 0]⟩).sel i = 0 := by
  intro cols
  obtain ⟨h1, h2⟩ := st_facts (cols := cols) (N := 1) (by decide) (by decide)
  exact ⟨h1, ⟨rfl, rfl, h2 0 _ rfl, h2 1 _ rfl⟩, ⟨rfl, rfl, h2 2 _ rfl, h2 3 _ rfl⟩, by decide +kernel, by decide +kernel⟩

/-- {1, 1, 2, -} and {1, 2} meet the hypotheses; the multiplicities are 2, 1 and 1, 1. -/
example : Ready env.commit st4 ∧ HoldsBagP st4 (bag 0 1 2) (tab ⟨2, [1, 1, 2, 0]⟩ ⟨2, [1, 1, 1, 0]⟩) ∧ HoldsBagP st4 (bag 2 3 1) (tab ⟨1, [1, 2]⟩ ⟨1, [1, 1]⟩) ∧
    ActiveAscending env.rep (tab ⟨2, [1, 1, 2, 0]⟩ ⟨2, [1, 1, 1, 0]⟩) ∧ ActiveAscending env.rep (tab ⟨1, [1, 2]⟩ ⟨1, [1, 1]⟩) ∧
    (∀ z, (tab ⟨2, [1, 1, 2, 0]⟩ ⟨2, [1, 1, 1, 0]⟩).Active z ↔ (tab ⟨1, [1, 2]⟩ ⟨1, [1, 1]⟩).Active z) ∧
    ((LmrSplit.multBag env (bag 0 1 2) (bag 2 3 1) >>= fun q => q.2.2.2.2.1.evaluations) st4).1 = .ok [2, 1, 0, 0] := by
  obtain ⟨h1, h2⟩ := st_facts (cols := cols4) (N := 2) (by decide) (by decide)
  exact ⟨h1, ⟨rfl, rfl, h2 0 _ rfl, h2 1 _ rfl⟩, ⟨rfl, rfl, h2 2 _ rfl, h2 3 _ rfl⟩, asc _ 3 (by decide +kernel), asc _ 2 (by decide +kernel), by decide +kernel,
    by decide +kernel⟩

end TabEx

/-! ### C71 -/

/-- C71.  If every active row of the second table has a partner in the first, the computed index column gives each active row the last active row of the
first table with the same key, and 0 to inactive rows. -/
theorem C71_index_column {a b : Table} {A T : TabData F} {ai bi : Nat} (hr : Ready E.commit t) (ha : HoldsTabP t a A) (hb : HoldsTabP t b T)
    (hai : ai < A.cols.length) (hbi : bi < T.cols.length) (bA : A.Boolean) (bT : T.Boolean) (h : Matched A T ai bi) :
    ∃ ks, Returns E.commit (FinalJoin.transform a b ai bi) t ks ∧ IndexColumn A T ai bi ks :=
  (FinalJoin.transform_core hr ha hb hai hbi bA bT).1 h

/-- C71, the error: if an active row has no partner, the call fails with `InvalidParameters`. -/
theorem C71_error {a b : Table} {A T : TabData F} {ai bi : Nat} (hr : Ready E.commit t) (ha : HoldsTabP t a A) (hb : HoldsTabP t b T)
    (hai : ai < A.cols.length) (hbi : bi < T.cols.length) (bA : A.Boolean) (bT : T.Boolean) (h : ¬ Matched A T ai bi) :
    (FinalJoin.transform a b ai bi t).1 = .error (.err .invalidParameters) :=
  (FinalJoin.transform_core hr ha hb hai hbi bA bT).2 h

/-- C71, the moved columns: every active row gets the value of the column at its index, inactive rows get 0. -/
theorem C71_moved_column {old act : TPoly} {f S : Nat → F} {ks : List Nat} (hr : Ready E.commit t) (ho : HoldsP t old f) (hs : HoldsP t act S)
    (hl : ks.length = 2 ^ act.numVars) (hk : ∀ i < 2 ^ act.numVars, S i ≠ 0 → ks.getD i 0 < 2 ^ old.numVars) (hb : ∀ i < 2 ^ act.numVars, S i = 0 ∨ S i = 1) :
    Returns E.commit (FinalJoin.applyTransform E ks old act) t
      ⟨act.numVars, (List.range (2 ^ act.numVars)).map fun i => if S i ≠ 0 then f (ks.getD i 0) else 0⟩ :=
  FinalJoin.returns_apply hr ho hs hl hk hb

namespace TabEx
open REx AdvEx

/-- Keys 5, 7, 5, - and keys 7, 5, -, 7. -/
def cols6 : List (Mle G) := [⟨2, [5, 7, 5, 5]⟩, ⟨2, [1, 1, 1, 0]⟩, ⟨2, [7, 5, 9, 7]⟩, ⟨2, [1, 1, 0, 1]⟩]

def st6 : PTracker G (Mle G) := startP env.commit cols6 PTracker.new

def tabA : TabData G := ⟨2, [(⟨2, [5, 7, 5, 5]⟩ : Mle G).tbl], (⟨2, [1, 1, 1, 0]⟩ : Mle G).tbl⟩
def tabB : TabData G := ⟨2, [(⟨2, [7, 5, 9, 7]⟩ : Mle G).tbl], (⟨2, [1, 1, 0, 1]⟩ : Mle G).tbl⟩

theorem matched_of {A B : TabData G} {ai bi : Nat} (h : ∀ i < 2 ^ B.nv, B.sel i ≠ 0 → ∃ j < 2 ^ A.nv, A.sel j ≠ 0 ∧ A.col ai j = B.col bi i) : Matched A B ai bi := by
  intro i hi
  obtain ⟨j, h1, h2, h3⟩ := h i hi.1 hi.2
  exact ⟨j, ⟨h1, h2⟩, h3⟩

/-- The index column is 1, 2, 0, 1; in the other direction, too, all keys are found, and if the key 7 is missing the call fails. -/
example : Ready env.commit st6 ∧ HoldsTabP st6 ⟨[⟨0, 2⟩], ⟨1, 2⟩⟩ tabA ∧ HoldsTabP st6 ⟨[⟨2, 2⟩], ⟨3, 2⟩⟩ tabB ∧ (∀ i < 2 ^ 2, tabA.sel i = 0 ∨ tabA.sel i = 1) ∧
    (∀ i < 2 ^ 2, tabB.sel i = 0 ∨ tabB.sel i = 1) ∧ Matched tabA tabB 0 0 ∧
    (FinalJoin.transform ⟨[⟨0, 2⟩], ⟨1, 2⟩⟩ ⟨[⟨2, 2⟩], ⟨3, 2⟩⟩ 0 0 st6).1 = .ok [1, 2, 0, 1] := by
  obtain ⟨h1, h2⟩ := st_facts (cols := cols6) (N := 2) (by decide) (by decide)
  exact ⟨h1, ⟨rfl, h2 1 _ rfl, rfl, h2 0 _ rfl, trivial⟩, ⟨rfl, h2 3 _ rfl, rfl, h2 2 _ rfl, trivial⟩, by decide +kernel, by decide +kernel, matched_of (by decide +kernel),
    by decide +kernel⟩

/-- Without the key 7 in the first table some row has no partner. -/
example : ¬ Matched (⟨2, [(⟨2, [5, 7, 5, 5]⟩ : Mle G).tbl], (⟨2, [1, 0, 1, 0]⟩ : Mle G).tbl⟩ : TabData G) tabB 0 0 := by
  intro h
  obtain ⟨j, hj, hk⟩ := h 0 ⟨by decide, by decide +kernel⟩
  have : ∀ j < 2 ^ 2, (⟨2, [1, 0, 1, 0]⟩ : Mle G).tbl j ≠ 0 → (⟨2, [5, 7, 5, 5]⟩ : Mle G).tbl j ≠ tabB.col 0 0 := by decide +kernel
  exact this j hj.1 hj.2 hk

end TabEx

end Zksql
