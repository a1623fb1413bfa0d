import Verif.Props.TableChecks
/-!
Results and failures of group-by calls (C72).

The property has three parts: the result has the grouping column and one column for each aggregate, no requested aggregate makes the call panic, and malformed requests are
rejected by an error.  All three fail.
-/
set_option linter.unusedSectionVars false
namespace Zksql
open Spec
section
variable {F C B : Type} [Field F] [DecidableEq F]
variable {E : Env F C} {t t' : PTracker F C} {N : Nat}

/-- C72, the columns: a successful call on a request with these contents returns the groups and one column for each aggregate. -/
def C72_columns_statement : Prop :=
  ∀ (F C : Type) [Field F] [DecidableEq F] (E : Env F C) (N : Nat) (t t' : PTracker F C) (a x : Table) (T : TabData F) (i : GroupInstr TPoly) (R : GroupData F) (range : Bag) (ρ : Nat → F),
    (2 : F) ≠ 0 → CanCommit E.commit N → Ready E.commit t → HoldsTabP t a T → HoldsRequestP t i R → HoldsP t range.poly ρ → T.nv = R.groups.nv → R.groups.nv ≤ N → range.poly.numVars ≤ N →
    GroupBy.proveWithAdvice E a i range t = (.ok x, t') → HoldsTabP t' x R.full

/-- C72, aggregates: a call on a request with these contents and columns of the table does not panic. -/
def C72_aggregates_statement : Prop :=
  ∀ (F C : Type) [Field F] [DecidableEq F] (E : Env F C) (N : Nat) (t : PTracker F C) (a : Table) (T : TabData F) (i : GroupInstr TPoly) (R : GroupData F) (range : Bag) (ρ : Nat → F),
    (2 : F) ≠ 0 → CanCommit E.commit N → Ready E.commit t → HoldsTabP t a T → HoldsRequestP t i R → HoldsP t range.poly ρ → T.nv = R.groups.nv → R.groups.nv ≤ N → range.poly.numVars ≤ N →
    (R.key < T.cols.length ∧ ∀ e ∈ R.aggs, e.1 < T.cols.length) → (GroupBy.proveWithAdvice E a i range t).1 ≠ .error .panic

/-- C72, malformed requests: a request without exactly one grouping column and one group column, or naming a column that does not exist, is rejected by an error. -/
def C72_malformed_statement : Prop :=
  ∀ (F C : Type) [Field F] [DecidableEq F] (E : Env F C) (t : PTracker F C) (a : Table) (i : GroupInstr TPoly) (range : Bag),
    i.groupingCols.length ≠ 1 ∨ i.supportCols.length ≠ 1 ∨ (∃ g ∈ i.groupingCols, a.colVals.length ≤ g) ∨ (∃ e ∈ i.aggs, a.colVals.length ≤ e.1) →
    ∃ e, (GroupBy.proveWithAdvice E a i range t).1 = .error (.err e)

/-- C72. -/
def C72_statement : Prop := C72_columns_statement ∧ C72_aggregates_statement ∧ C72_malformed_statement

/-! #### Columns -/

theorem proveAggs_cols {inp : Table} {pre grp : Bag} {mult : TPoly} : ∀ {aggs : List (Nat × AggType × TPoly)} {cols xs : List TPoly} {t t' : PTracker F C},
    GroupBy.proveAggs E inp pre grp mult aggs cols t = (.ok xs, t') →
      xs = cols ++ ((aggs.filter fun e => e.2.1 = .count).map fun _ => mult) ∧ ∀ e ∈ aggs, e.2.1 = .count ∨ e.2.1 = .sum
  | [], cols, xs, t, t', h => by
    obtain ⟨h, -⟩ := Prod.mk.inj h
    exact ⟨by simpa using (Except.ok.inj h).symm, by simp⟩
  | (_, .count, _) :: r, cols, xs, t, t', h => by
    obtain ⟨e, h1⟩ := proveAggs_cols (aggs := r) h
    exact ⟨by simp [e], by simpa using h1⟩
  | (c, .sum, p) :: r, cols, xs, t, t', h => by
    simp only [GroupBy.proveAggs] at h
    obtain ⟨_, _, -, h⟩ := Act.bind_eq_ok.1 h
    obtain ⟨_, _, -, h⟩ := Act.bind_eq_ok.1 h
    obtain ⟨e, h1⟩ := proveAggs_cols (aggs := r) h
    exact ⟨by simp [e], by simpa using h1⟩
  | (_, .avg, _) :: _, _, _, _, _, h => by cases h
  | (_, .min, _) :: _, _, _, _, _, h => by cases h
  | (_, .max, _) :: _, _, _, _, _, h => by cases h

theorem verifyAggs_cols {s s' : VSt F C B} {inp : TableComm} {pre grp : BagComm} {mult : Nat} : ∀ {aggs : List (Nat × AggType × Nat)} {cols xs : List Nat} {s s' : VSt F C B},
    GroupBy.verifyAggs E inp pre grp mult aggs cols s = (.ok xs, s') →
      xs = cols ++ ((aggs.filter fun e => e.2.1 = .count).map fun _ => mult) ∧ ∀ e ∈ aggs, e.2.1 = .count ∨ e.2.1 = .sum
  | [], cols, xs, t, t', h => by
    obtain ⟨h, -⟩ := Prod.mk.inj h
    exact ⟨by simpa using (Except.ok.inj h).symm, by simp⟩
  | (_, .count, _) :: r, cols, xs, t, t', h => by
    obtain ⟨e, h1⟩ := verifyAggs_cols (s := s) (s' := s') (aggs := r) h
    exact ⟨by simp [e], by simpa using h1⟩
  | (c, .sum, p) :: r, cols, xs, t, t', h => by
    simp only [GroupBy.verifyAggs] at h
    obtain ⟨_, _, -, h⟩ := Act.bind_eq_ok.1 h
    obtain ⟨_, _, -, h⟩ := Act.bind_eq_ok.1 h
    obtain ⟨e, h1⟩ := verifyAggs_cols (s := s) (s' := s') (aggs := r) h
    exact ⟨by simp [e], by simpa using h1⟩
  | (_, .avg, _) :: _, _, _, _, _, h => by cases h
  | (_, .min, _) :: _, _, _, _, _, h => by cases h
  | (_, .max, _) :: _, _, _, _, _, h => by cases h

theorem tableNew_ok {cs : List TPoly} {sel : TPoly} {x : Table} {d : Bool} (h : Table.new d cs sel t = (.ok x, t')) : x = ⟨cs, sel⟩ := by
  unfold Table.new at h
  obtain ⟨_, _, -, h⟩ := Act.bind_eq_ok.1 h
  exact (Except.ok.inj (Prod.mk.inj h).1).symm

/-- C72, what a successful prover call returns, for every state and request: the groups and one multiplicity column for each count; all aggregates are counts or sums. -/
theorem C72_prover_result {a x : Table} {i : GroupInstr TPoly} {range : Bag} (h : GroupBy.proveWithAdvice E a i range t = (.ok x, t')) :
    (∃ c l, i.supportCols = c :: l ∧ x = ⟨c :: (i.aggs.filter fun e => e.2.1 = .count).map fun _ => i.supportMult, i.supportSel⟩) ∧ ∀ e ∈ i.aggs, e.2.1 = .count ∨ e.2.1 = .sum := by
  unfold GroupBy.proveWithAdvice at h
  obtain ⟨y, _, hy, h⟩ := Act.bind_eq_ok.1 h
  obtain ⟨_, _, -, h⟩ := Act.bind_eq_ok.1 h
  obtain ⟨_, _, -, h⟩ := Act.bind_eq_ok.1 h
  obtain ⟨_, _, -, h⟩ := Act.bind_eq_ok.1 h
  obtain ⟨_, _, -, h⟩ := Act.bind_eq_ok.1 h
  obtain ⟨res, _, hr, h⟩ := Act.bind_eq_ok.1 h
  obtain ⟨cols, _, hc, h⟩ := Act.bind_eq_ok.1 h
  obtain ⟨_, l', -, e2, -⟩ := validate_inv (Prod.mk.inj hy).1
  obtain rfl := tableNew_ok hr
  obtain ⟨e, h1⟩ := proveAggs_cols hc
  exact ⟨⟨_, _, e2, by rw [← Except.ok.inj (Prod.mk.inj h).1, e]; rfl⟩, h1⟩

/-- C72, what a successful verifier call returns. -/
theorem C72_verifier_result {s s' : VSt F C B} {a x : TableComm} {i : GroupInstr Nat} {range : BagComm} (h : GroupBy.verifyWithAdvice E a i range s = (.ok x, s')) :
    (∃ c l, i.supportCols = c :: l ∧ x = ⟨c :: (i.aggs.filter fun e => e.2.1 = .count).map fun _ => i.supportMult, i.supportSel, a.numVars⟩) ∧
      ∀ e ∈ i.aggs, e.2.1 = .count ∨ e.2.1 = .sum := by
  unfold GroupBy.verifyWithAdvice at h
  obtain ⟨y, _, hy, h⟩ := Act.bind_eq_ok.1 h
  obtain ⟨_, _, -, h⟩ := Act.bind_eq_ok.1 h
  obtain ⟨_, _, -, h⟩ := Act.bind_eq_ok.1 h
  obtain ⟨cols, _, hc, h⟩ := Act.bind_eq_ok.1 h
  obtain ⟨_, l', -, e2, -⟩ := validate_inv (Prod.mk.inj hy).1
  obtain ⟨e, h1⟩ := verifyAggs_cols (s := s) (s' := s') hc
  exact ⟨⟨_, _, e2, by rw [← Except.ok.inj (Prod.mk.inj h).1, e]; rfl⟩, h1⟩

theorem table_full {R : GroupData F} (h : ∀ e ∈ R.aggs, e.2.1 = .count) : R.table = R.full := by
  unfold GroupData.table GroupData.full
  congr 2
  rw [List.filter_eq_self.2 (by simpa using h)]
  exact List.map_congr_left fun e he => by rw [if_pos (h e he)]

/-- C72 for requests of counts only: the call succeeds and returns the groups and one column for each aggregate.  Missing: sums (`C72_columns_violated`), averages, minima and maxima
(`C72_aggregates_violated`). -/
theorem C72_counts_partial {a : Table} {T : TabData F} {i : GroupInstr TPoly} {R : GroupData F} {range : Bag} {ρ : Nat → F} {r : Nat} (h2 : (2 : F) ≠ 0) (hC : CanCommit E.commit N)
    (hr : Ready E.commit t) (ha : HoldsTabP t a T) (hi : HoldsRequestP t i R) (hR : HoldsP t range.poly ρ) (hrn : range.poly.numVars = r) (hn : T.nv = R.groups.nv) (hN : R.groups.nv ≤ N)
    (hNr : r ≤ N) (hk : R.key < T.cols.length) (hc : ∀ e ∈ R.aggs, e.1 < T.cols.length ∧ e.2.1 = .count) :
    ∃ x t', GroupBy.proveWithAdvice E a i range t = (.ok x, t') ∧ Ready E.commit t' ∧ HoldsTabP t' x R.full := by
  have := C80_group_by_result h2 hC hr ha hi hR hrn ⟨hk, fun e he => ⟨(hc e he).1, .inl (hc e he).2⟩⟩ hn hN hNr E.H
  rw [table_full fun e he => (hc e he).2] at this
  exact this

/-- C72 for requests of counts and sums: the call does not panic, whatever the groups and aggregates contain. -/
theorem C72_count_sum_no_panic_partial {a : Table} {T : TabData F} {i : GroupInstr TPoly} {R : GroupData F} {range : Bag} {ρ : Nat → F} {r : Nat} (h2 : (2 : F) ≠ 0) (hC : CanCommit E.commit N)
    (hr : Ready E.commit t) (ha : HoldsTabP t a T) (hi : HoldsRequestP t i R) (hR : HoldsP t range.poly ρ) (hrn : range.poly.numVars = r) (hn : T.nv = R.groups.nv) (hN : R.groups.nv ≤ N)
    (hNr : r ≤ N) (hin : R.InRange T) : (GroupBy.proveWithAdvice E a i range t).1 ≠ .error .panic := by
  obtain ⟨x, t', h, -⟩ := C80_group_by_result h2 hC hr ha hi hR hrn hin hn hN hNr E.H
  have h' : GroupBy.proveWithAdvice E a i range t = (.ok x, t') := h
  rw [h']
  intro h
  cases h

/-! #### Aggregates that are not implemented -/

theorem proveAggs_todo {inp : Table} {pre grp : Bag} {mult : TPoly} {c : Nat} {ty : AggType} {p : TPoly} (hty : ty ≠ .count ∧ ty ≠ .sum) {rest : List (Nat × AggType × TPoly)} :
    ∀ {aggs : List (Nat × AggType × TPoly)} {cols xs : List TPoly} {t t' : PTracker F C}, GroupBy.proveAggs E inp pre grp mult aggs cols t = (.ok xs, t') →
      GroupBy.proveAggs E inp pre grp mult (aggs ++ (c, ty, p) :: rest) cols t = (.error .panic, t')
  | [], cols, xs, t, t', h => by
    obtain ⟨-, rfl⟩ := Prod.mk.inj h
    cases ty
    · exact absurd rfl hty.1
    · exact absurd rfl hty.2
    · rfl
    · rfl
    · rfl
  | (_, .count, _) :: r, cols, xs, t, t', h => proveAggs_todo (aggs := r) hty h
  | (d, .sum, q) :: r, cols, xs, t, t', h => by
    simp only [GroupBy.proveAggs, List.cons_append] at h ⊢
    obtain ⟨y, t1, h1, h⟩ := Act.bind_eq_ok.1 h
    obtain ⟨z, t2, h2, h⟩ := Act.bind_eq_ok.1 h
    rw [Act.bind_ok h1, Act.bind_ok h2]
    exact proveAggs_todo (aggs := r) hty h
  | (_, .avg, _) :: _, _, _, _, _, h => by cases h
  | (_, .min, _) :: _, _, _, _, _, h => by cases h
  | (_, .max, _) :: _, _, _, _, _, h => by cases h

theorem validate_more {H : Type} {n : Nat} {i : GroupInstr H} {y : Nat × H} (h : GroupBy.validate n i = .ok y) (es : List (Nat × AggType × H)) (hes : ∀ e ∈ es, e.1 < n) :
    GroupBy.validate n { i with aggs := i.aggs ++ es } = .ok y := by
  unfold GroupBy.validate at h ⊢
  have : (i.aggs ++ es).any (fun e => decide (n ≤ e.1)) = i.aggs.any fun e => decide (n ≤ e.1) := by
    have : es.any (fun e => decide (n ≤ e.1)) = false := by
      rw [List.any_eq_false]
      intro e he
      have := hes e he
      simp; omega
    rw [List.any_append, this, Bool.or_false]
  rw [this]
  exact h

/-- C72: an average, a minimum or a maximum makes the call panic after it has done everything else requested before it. -/
theorem C72_todo_panics {a x : Table} {i : GroupInstr TPoly} {range : Bag} (h : GroupBy.proveWithAdvice E a i range t = (.ok x, t')) {c : Nat} {ty : AggType} {p : TPoly}
    {rest : List (Nat × AggType × TPoly)} (hc : ∀ e ∈ (c, ty, p) :: rest, e.1 < a.colVals.length) (hty : ty = .avg ∨ ty = .min ∨ ty = .max) :
    GroupBy.proveWithAdvice E a { i with aggs := i.aggs ++ (c, ty, p) :: rest } range t = (.error .panic, t') := by
  unfold GroupBy.proveWithAdvice at h ⊢
  obtain ⟨y, t1, h1, h⟩ := Act.bind_eq_ok.1 h
  obtain ⟨e1, rfl⟩ := Prod.mk.inj h1
  obtain ⟨c1, t2, h2, h⟩ := Act.bind_eq_ok.1 h
  obtain ⟨c2, t3, h3, h⟩ := Act.bind_eq_ok.1 h
  obtain ⟨c3, t4, h4, h⟩ := Act.bind_eq_ok.1 h
  obtain ⟨c4, t5, h5, h⟩ := Act.bind_eq_ok.1 h
  obtain ⟨c5, t6, h6, h⟩ := Act.bind_eq_ok.1 h
  obtain ⟨c6, t7, h7, h⟩ := Act.bind_eq_ok.1 h
  obtain ⟨-, rfl⟩ := Prod.mk.inj h
  rw [Act.bind_ok (show Act.lift (GroupBy.validate a.colVals.length { i with aggs := i.aggs ++ (c, ty, p) :: rest }) t = (.ok y, t) by
    rw [Act.lift_run, validate_more e1 _ hc])]
  obtain ⟨g, sp⟩ := y
  dsimp only at h2 h3 h4 h5 h6 h7 ⊢
  rw [Act.bind_ok h2, Act.bind_ok h3, Act.bind_ok h4, Act.bind_ok h5, Act.bind_ok h6]
  exact Act.bind_error (proveAggs_todo (by rcases hty with rfl | rfl | rfl <;> simp) h7)

/-- C72: the verifier without advice always panics. -/
theorem C72_verify_panics (s : VSt F C B) : GroupBy.verify s = (.error .panic, s) := rfl

/-! #### Malformed requests -/

/-- C72: a request with several grouping columns, or naming a column that does not exist, is rejected and changes nothing. -/
theorem C72_malformed_partial {a : Table} {i : GroupInstr TPoly} {range : Bag}
    (h : 1 < i.groupingCols.length ∨ (∃ g, i.groupingCols = [g] ∧ a.colVals.length ≤ g) ∨ (i.groupingCols ≠ [] ∧ ∃ e ∈ i.aggs, a.colVals.length ≤ e.1)) :
    GroupBy.proveWithAdvice E a i range t = (.error (.err .invalidParameters), t) := by
  unfold GroupBy.proveWithAdvice
  refine Act.bind_error ?_
  rw [Act.lift_run]
  congr 1
  unfold GroupBy.validate
  by_cases h1 : 1 < i.groupingCols.length
  · rw [if_pos h1]
  · rw [if_neg h1]
    have : ∃ g, i.groupingCols = [g] := by
      rcases hg : i.groupingCols with _ | ⟨g, _ | ⟨g', l⟩⟩
      · rw [hg] at h; simp at h
      · exact ⟨g, rfl⟩
      · rw [hg] at h1; simp at h1
    obtain ⟨g, hg⟩ := this
    rw [hg]
    show (if a.colVals.length ≤ g then _ else _) = _
    split
    · rfl
    · rename_i h2
      rw [if_pos]
      rcases h with h | ⟨g', h, h'⟩ | ⟨-, e, he, h'⟩
      · exact absurd h h1
      · rw [hg] at h; simp at h; omega
      · exact List.any_eq_true.2 ⟨e, he, by simpa using h'⟩

/-- C72: a request without a grouping column makes the prover and the verifier panic. -/
theorem C72_no_grouping_column_panics {a : Table} {i : GroupInstr TPoly} {range : Bag} (h : i.groupingCols = []) :
    GroupBy.proveWithAdvice E a i range t = (.error .panic, t) := by
  unfold GroupBy.proveWithAdvice
  refine Act.bind_error ?_
  rw [Act.lift_run]
  unfold GroupBy.validate
  rw [h]
  rfl

/-- C72: so does a request without a group column. -/
theorem C72_no_group_column_panics {a : Table} {i : GroupInstr TPoly} {range : Bag} {g : Nat} (hg : i.groupingCols = [g]) (hlt : g < a.colVals.length)
    (hag : ∀ e ∈ i.aggs, e.1 < a.colVals.length) (h : i.supportCols = []) : GroupBy.proveWithAdvice E a i range t = (.error .panic, t) := by
  unfold GroupBy.proveWithAdvice
  refine Act.bind_error ?_
  rw [Act.lift_run]
  unfold GroupBy.validate
  rw [hg, if_neg (by simp)]
  show ((if a.colVals.length ≤ g then _ else _), t) = _
  rw [if_neg (by omega), if_neg, h]
  · rfl
  · rw [List.any_eq_true]
    rintro ⟨e, he, h'⟩
    have := hag e he
    simp at h'; omega

end

/-! #### The failures -/

namespace REx

/-- The state before the example call. -/
theorem group_start : Ready env.commit (startP env.commit groupCols PTracker.new) ∧ HoldsTabP (startP env.commit groupCols PTracker.new) (tabl [0, 1] 2 1) sales ∧
    HoldsRequestP (startP env.commit groupCols PTracker.new) request perKey ∧ HoldsP (startP env.commit groupCols PTracker.new) (bag 4 4 1).poly (Mle.tbl ⟨1, [0, 1]⟩) := by
  have hi0 : (PTracker.new : PTracker G (Mle G)).Inv (commR env.commit) := (stInv_init (commit := env.commit)).inv
  obtain ⟨i1, i2, -, -, -, -, i7, -⟩ := start_run (B := Unit) (E := env) (P := poly) true env.H (canCommit 1) groupCols (by unfold Mle.WF; decide) (Γ := Facts.none) hi0
  have hr : Ready env.commit (startP env.commit groupCols PTracker.new) := ⟨i1, i2 (.inl (by decide))⟩
  have hp : ∀ i p, groupCols[i]? = some p → HoldsP (startP env.commit groupCols PTracker.new) ⟨i, p.numVars⟩ p.tbl := fun i p h => by
    have := (i7 i p h).holdsP hr
    rwa [show (PTracker.new : PTracker G (Mle G)).idCounter = 0 from rfl, Nat.zero_add] at this
  exact ⟨hr, ⟨rfl, hp 2 _ rfl, rfl, hp 0 _ rfl, rfl, hp 1 _ rfl, trivial⟩,
    ⟨rfl, ⟨_, rfl, rfl, rfl, hp 3 _ rfl, hp 4 _ rfl⟩, rfl, hp 5 _ rfl, rfl, rfl, rfl, hp 5 _ rfl, rfl, rfl, rfl, hp 6 _ rfl, trivial⟩, hp 4 _ rfl⟩

end REx

open REx in
/-- C72 fails: a request for a count and a sum returns two columns. -/
theorem C72_columns_violated : ¬ C72_columns_statement := by
  intro hst
  obtain ⟨hr, ha, hi, hR⟩ := group_start
  obtain ⟨x, t', h1, -, h2⟩ := C80_group_by_result (r := 1) two_ne (canCommit 1) hr ha hi hR rfl ⟨by decide, by decide⟩ rfl (by decide) (by decide) env.H
  have h3 := hst G (Mle G) env 1 _ t' _ x _ _ _ _ _ two_ne (canCommit 1) hr ha hi hR rfl (by decide) (by decide) h1
  obtain ⟨⟨c, l, -, rfl⟩, -⟩ := C72_prover_result h1
  exact h3.cols.2.2.2.2

open REx in
/-- C72 fails: a request for an average panics. -/
theorem C72_aggregates_violated : ¬ C72_aggregates_statement := by
  intro hst
  obtain ⟨hr, ha, hi, hR⟩ := group_start
  obtain ⟨x, t', h1, -, h2⟩ := C80_group_by_result (r := 1) two_ne (canCommit 1) hr ha hi hR rfl ⟨by decide, by decide⟩ rfl (by decide) (by decide) env.H
  have h3 := C72_todo_panics (E := env) h1 (c := 1) (ty := .avg) (p := ⟨6, 1⟩) (rest := []) (by decide) (.inl rfl)
  obtain ⟨a1, a2, a3, a4, b1, b2, b3, b4, -⟩ := hi.aggs
  have h4 := hst G (Mle G) env 1 (startP env.commit groupCols PTracker.new) (tabl [0, 1] 2 1) sales { request with aggs := request.aggs ++ [(1, .avg, ⟨6, 1⟩)] }
    { perKey with aggs := perKey.aggs ++ [(1, .avg, Mle.tbl ⟨1, [0, 30]⟩)] } (bag 4 4 1) (Mle.tbl ⟨1, [0, 1]⟩) two_ne (canCommit 1) hr ha
    ⟨hi.key, hi.groups, hi.nvMult, hi.mult, a1, a2, a3, a4, b1, b2, b3, b4, rfl, rfl, b3, b4, trivial⟩ hR rfl (by decide) (by decide) ⟨by decide, by decide⟩
  rw [h3] at h4
  exact h4 rfl

open REx in
/-- C72 fails: a request without grouping columns panics. -/
theorem C72_malformed_violated : ¬ C72_malformed_statement := by
  intro hst
  obtain ⟨e, h⟩ := hst G (Mle G) env PTracker.new (tabl [0, 1] 2 1) { request with groupingCols := [] } (bag 4 4 1) (.inl (by decide))
  rw [C72_no_grouping_column_panics rfl] at h
  cases h

namespace REx

/-! The hypotheses of the partial results are met. -/

/-- A request for a count only: the result holds the group with key 3 and its two rows. -/
example : ∃ x t', GroupBy.proveWithAdvice env (tabl [0, 1] 2 1) { request with aggs := [(1, .count, ⟨5, 1⟩)] } (bag 4 4 1) (startP env.commit groupCols PTracker.new) = (.ok x, t') ∧
    Ready env.commit t' ∧ HoldsTabP t' x ⟨1, [Mle.tbl ⟨1, [2, 3]⟩, Mle.tbl ⟨1, [0, 2]⟩], Mle.tbl ⟨1, [0, 1]⟩⟩ := by
  obtain ⟨hr, ha, hi, hR⟩ := group_start
  obtain ⟨a1, a2, a3, a4, -⟩ := hi.aggs
  exact C72_counts_partial (R := { perKey with aggs := [(1, .count, Mle.tbl ⟨1, [0, 2]⟩)] }) (r := 1) two_ne (canCommit 1) hr ha
    ⟨hi.key, hi.groups, hi.nvMult, hi.mult, a1, a2, a3, a4, trivial⟩ hR rfl rfl (by decide) (by decide) (by decide) (by decide)

/-- A request for column 7 of a table with two columns. -/
example : GroupBy.proveWithAdvice env (tabl [0, 1] 2 1) { request with groupingCols := [7] } (bag 4 4 1) (startP env.commit groupCols PTracker.new) =
    (.error (.err .invalidParameters), startP env.commit groupCols PTracker.new) :=
  C72_malformed_partial (.inr (.inl ⟨7, rfl, by decide⟩))

/-- A request for a count and a sum succeeds (`run_group`). -/
example : (GroupBy.proveWithAdvice env (tabl [0, 1] 2 1) request (bag 4 4 1) (startP env.commit groupCols PTracker.new)).1 ≠ .error .panic := by
  obtain ⟨hr, ha, hi, hR⟩ := group_start
  exact C72_count_sum_no_panic_partial (r := 1) two_ne (canCommit 1) hr ha hi hR rfl rfl (by decide) (by decide) ⟨by decide, by decide⟩

end REx

theorem C72_violated : ¬ C72_statement := fun h => C72_columns_violated h.1

end Zksql
