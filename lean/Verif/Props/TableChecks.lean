import Verif.Lemmas.TabSound
import Verif.Lemmas.Rigged
import Verif.Props.TableRuns
/-!
What the claims recorded by the table protocols imply (C70, C79, C83).

The full statements are `C70_statement`, `C79_statement` and `C83_statement`.  They fail: the rows of a table are combined into their product, so rows with the same product are
confused, and the selector of the groups is not checked to be 0/1.
-/
set_option linter.unusedSectionVars false
namespace Zksql
open Spec
section
variable {F C B : Type} [Field F] [DecidableEq F]
variable {E : Env F C} {s : VSt F C B} {N : Nat}

/-! ### C70 -/

/-- C70: acceptance implies that every active row of the second table is an active row of the first. -/
def C70_statement : Prop :=
  ∀ (F C B : Type) [Field F] [DecidableEq F] (E : Env F C) (H : Oracle F C) (vs : VState F C B) (N : Nat) (a b : TableComm), (2 : F) ≠ 0 → NatsNonzero F (2 ^ b.numVars) →
    VReachable E.debug H vs → KnownTab vs.st a → KnownTab vs.st b →
    SoundExcept (fun H => IndexTransform.verify (E.withH H) a b) vs.st N [1, 2 ^ b.numVars + 2 ^ a.numVars] fun _ P => ∀ A O : TabData F,
      HoldsTab vs.st P N a A → HoldsTab vs.st P N b O → O.cols.length = A.cols.length → A.Boolean → O.Boolean → ∀ i, O.On i → ∃ j, A.On j ∧ O.row i = A.row j

/-- What acceptance implies, for a call that others may follow. -/
theorem indexTransform_snd {a b : TableComm} (h2 : (2 : F) ≠ 0) (hn : NatsNonzero F (2 ^ b.numVars)) (hs : Sane s) (ka : KnownTab s a) (kb : KnownTab s b) :
    Snd (fun H => IndexTransform.verify (E.withH H) a b) s N [1, 2 ^ b.numVars + 2 ^ a.numVars] fun P => ∀ A O : TabData F,
      HoldsTab s P N a A → HoldsTab s P N b O → O.cols.length = A.cols.length → A.Boolean → O.Boolean → ∀ i, O.On i → ∃ j, A.On j ∧ (O.row i).prod = (A.row j).prod := by
  refine ((indexTransform_tabs (N := N) h2 hs ka kb).mono hs fun P _ h A O hA hO hl bA bO i hi => ?_)
  obtain ⟨j, hj, e⟩ := h A O hA hO hl bO (by rw [← hO.nv]; exact hn) i hi
  refine ⟨j, hj, ?_⟩
  rw [← e, (bA j hj.1).resolve_left hj.2, one_mul]

/-- C70, what holds: the product of the entries of every active row of the second table is the product of the entries of an active row of the first.  Missing: that the rows
are equal, which is false (`C70_violated`). -/
theorem C70_index_transform_sound_partial {a b : TableComm} (h2 : (2 : F) ≠ 0) (hn : NatsNonzero F (2 ^ b.numVars)) (hs : Sane s) (ka : KnownTab s a) (kb : KnownTab s b) :
    SoundExcept (fun H => IndexTransform.verify (E.withH H) a b) s N [1, 2 ^ b.numVars + 2 ^ a.numVars] fun _ P => ∀ A O : TabData F,
      HoldsTab s P N a A → HoldsTab s P N b O → O.cols.length = A.cols.length → A.Boolean → O.Boolean → ∀ i, O.On i → ∃ j, A.On j ∧ (O.row i).prod = (A.row j).prod :=
  Snd.except hs (indexTransform_snd h2 hn hs ka kb)

/-- C70 for tables of one column: the product is the entry, so every active row of the second table is one of the first. -/
theorem C70_single_column {a b : TableComm} (h2 : (2 : F) ≠ 0) (hn : NatsNonzero F (2 ^ b.numVars)) (hs : Sane s) (ka : KnownTab s a) (kb : KnownTab s b)
    (h1 : a.colVals.length = 1) :
    SoundExcept (fun H => IndexTransform.verify (E.withH H) a b) s N [1, 2 ^ b.numVars + 2 ^ a.numVars] fun _ P => ∀ A O : TabData F,
      HoldsTab s P N a A → HoldsTab s P N b O → O.cols.length = A.cols.length → A.Boolean → O.Boolean → ∀ i, O.On i → ∃ j, A.On j ∧ O.row i = A.row j := by
  refine Snd.except hs ((indexTransform_tabs (N := N) h2 hs ka kb).mono hs fun P _ h A O hA hO hl bA bO i hi => ?_)
  obtain ⟨j, hj, e⟩ := h A O hA hO hl bO (by rw [← hO.nv]; exact hn) i hi
  refine ⟨j, hj, ?_⟩
  rw [(bA j hj.1).resolve_left hj.2, one_mul] at e
  have hA1 : A.cols.length = 1 := by
    have := valsL_length hA.cols.valsL
    rw [List.length_map] at this; omega
  obtain ⟨f, hf⟩ := List.length_eq_one_iff.1 hA1
  obtain ⟨g, hg⟩ := List.length_eq_one_iff.1 (hl.trans hA1)
  simp only [TabData.row, hf, hg, List.map_cons, List.map_nil, List.prod_cons, List.prod_nil, mul_one] at e ⊢
  rw [e]

/-! ### C83 -/

/-- C83: acceptance implies that every row of the received columns whose row in the second table is active is an active row of the first table with the key of the row of the
second table. -/
def C83_statement : Prop :=
  ∀ (F C B : Type) [Field F] [DecidableEq F] (E : Env F C) (H : Oracle F C) (vs : VState F C B) (N : Nat) (a b : TableComm) (ai bi : Nat), (2 : F) ≠ 0 → NatsNonzero F (2 ^ N) →
    VReachable E.debug H vs → KnownTab vs.st a → KnownTab vs.st b → ai < a.colVals.length → bi < b.colVals.length →
    SoundExcept (fun H => FinalJoin.verify (E.withH H) a b ai bi) vs.st N [1, 2 ^ N + 2 ^ a.numVars] fun pf P => ∃ Ms : List (Nat → F), Ms.length = a.colVals.length ∧
      Received pf vs.st.own.idCounter P N Ms ∧ ∀ A T : TabData F, HoldsTab vs.st P N a A → HoldsTab vs.st P N b T → A.Boolean → T.Boolean →
        ∀ i < 2 ^ N, T.sel (i % 2 ^ T.nv) ≠ 0 → ∃ j, A.On j ∧ (Ms.map fun M => M i) = A.row j ∧ A.col ai j = T.col bi (i % 2 ^ T.nv)

theorem getD_append_left' {l l' : List (Nat → F)} {k : Nat} (h : k < l.length) : (l ++ l').getD k (fun _ => 0) = l.getD k fun _ => 0 := by
  simp [List.getD, List.getElem?_append_left h]

theorem getD_append_right' {l l' : List (Nat → F)} {k : Nat} : (l ++ l').getD (l.length + k) (fun _ => 0) = l'.getD k fun _ => 0 := by
  simp [List.getD, List.getElem?_append_right]

theorem getD_map_rep {l : List (Nat → F)} {nv k i : Nat} : (l.map (rep nv)).getD k (fun _ => 0) i = (l.getD k fun _ => 0) (i % 2 ^ nv) := by
  simp only [List.getD, List.getElem?_map]
  cases l[k]? <;> rfl

theorem join_final {A T : TabData F} {P : C → List F → F} {a b : TableComm} {Ms : List (Nat → F)} {ai bi i : Nat} (hn : NatsNonzero F (2 ^ N)) (hA : HoldsTab s P N a A) (hT : HoldsTab s P N b T)
    (hl : Ms.length = a.colVals.length) (hai : ai < a.colVals.length) (bA : A.Boolean) (bT : T.Boolean) (hi : i < 2 ^ N) (h0 : T.sel (i % 2 ^ T.nv) ≠ 0)
    (h1 : ∃ c : F, c ≠ 0 ∧ ∀ z, cw N (fun b => rep T.nv T.sel b * (c * (Ms.map fun M => M b).prod)) (rep T.nv T.sel) z ≠ 0 → ∃ j, A.On j ∧ A.sel j * (c * (A.row j).prod) = z)
    (h2 : ∀ i < 2 ^ N, rep T.nv T.sel i ≠ 0 → (Ms ++ T.cols.map (rep T.nv)).getD ai (fun _ => 0) i = (Ms ++ T.cols.map (rep T.nv)).getD (A.cols.length + bi) (fun _ => 0) i) :
    (Ms.getD ai fun _ => 0) i = T.col bi (i % 2 ^ T.nv) ∧ ∃ j, A.On j ∧ (Ms.map fun M => M i).prod = (A.row j).prod := by
  have hAl : a.colVals.length = A.cols.length := by
    have := valsL_length hA.cols.valsL
    rwa [List.length_map] at this
  constructor
  · have := h2 i hi h0
    rw [getD_append_left' (by omega), ← hAl, ← hl, getD_append_right', getD_map_rep] at this
    exact this
  · obtain ⟨c, hc, h1⟩ := h1
    obtain ⟨j, hj, e⟩ := rowProducts hc (fun b _ => bT _ (Nat.mod_lt _ (by positivity))) hn h1 hi h0
    refine ⟨j, hj, ?_⟩
    rw [← e, (bA j hj.1).resolve_left hj.2, one_mul]

theorem img_le (T : Nat → F) : (imgOf N T).card ≤ 2 ^ N := Finset.card_image_le.trans (by simp)

/-- What the join check establishes about columns that are given, for a call that others may follow. -/
theorem finalJoin_snd {a b : TableComm} {ai bi : Nat} {ta : List Nat} (h2 : (2 : F) ≠ 0) (hn : NatsNonzero F (2 ^ N)) (hs : Sane s) (ka : KnownTab s a) (kb : KnownTab s b)
    (kt : ∀ c ∈ ta, Known s c) (hta : ta.length = a.colVals.length) (hai : ai < a.colVals.length) :
    Snd (fun H => FinalJoin.verifyWithAdvice (E.withH H) a b ai bi ta) s N [1, 2 ^ N + 2 ^ a.numVars] fun P => ∀ (A T : TabData F) (Ms : List (Nat → F)),
      HoldsTab s P N a A → HoldsTab s P N b T → HoldsCols s P N T.nv ta Ms → A.Boolean → T.Boolean →
        ∀ i, T.On i → (Ms.getD ai fun _ => 0) i = T.col bi i ∧ ∃ j, A.On j ∧ (Ms.map fun M => M i).prod = (A.row j).prod := by
  refine (finalJoin_raw (N := N) (bi := bi) h2 hs ka kb kt hta (2 ^ N + 2 ^ a.numVars)).mono hs fun P _ h A T Ms hA hT hM bA bT i hi => ?_
  obtain ⟨h1, h3⟩ := h A _ _ _ hA hT.sel.2 hM.valsL hT.cols.valsL fun c => by
    rw [hA.nv]; exact Nat.add_le_add_right (img_le _) _
  have hl : (Ms.map (rep T.nv)).length = a.colVals.length := by rw [← valsL_length hM.valsL, hta]
  have hi' : i < 2 ^ N := lt_of_lt_of_le hi.1 (Nat.pow_le_pow_right (by norm_num) hT.sel.1)
  have hm : i % 2 ^ T.nv = i := Nat.mod_eq_of_lt hi.1
  have := join_final (i := i) (bi := bi) hn hA hT hl hai bA bT hi' (by rw [hm]; exact hi.2) h1 h3
  rw [getD_map_rep, hm, List.map_map] at this
  simpa [Function.comp_def, rep, hm] using this

/-- C83, what holds: in every active row the key among the received columns is the key of the second table, and the product of the received entries is the product of the entries
of an active row of the first table.  Missing: that the received row is that row, which is false (`C83_violated`). -/
theorem C83_join_sound_partial {a b : TableComm} {ai bi : Nat} (h2 : (2 : F) ≠ 0) (hn : NatsNonzero F (2 ^ N)) (hs : Sane s) (ka : KnownTab s a) (kb : KnownTab s b)
    (hai : ai < a.colVals.length) :
    SoundExcept (fun H => FinalJoin.verify (E.withH H) a b ai bi) s N [1, 2 ^ N + 2 ^ a.numVars] fun pf P => ∃ Ms : List (Nat → F), Ms.length = a.colVals.length ∧
      Received pf s.own.idCounter P N Ms ∧ ∀ A T : TabData F, HoldsTab s P N a A → HoldsTab s P N b T → A.Boolean → T.Boolean →
        ∀ i < 2 ^ N, T.sel (i % 2 ^ T.nv) ≠ 0 → (Ms.getD ai fun _ => 0) i = T.col bi (i % 2 ^ T.nv) ∧ ∃ j, A.On j ∧ (Ms.map fun M => M i).prod = (A.row j).prod := by
  refine SoundF.except ?_ hs
  refine SoundF.ofEq (V := fun H => FinalJoin.transferAll (E.withH H) a.colVals.length >>= fun x => FinalJoin.verifyWithAdvice (E.withH H) a b ai bi x) ?_ rfl
  refine step_transferAll (E := E) _ hs fun ids s1 cs L hids kids vids => ?_
  refine ((finalJoin_raw (N := N) h2 L.sane (L.knownTab ka) (L.knownTab kb) kids (by rw [hids]; simp) _).soundF).mono L.sane fun P _ h hc => ?_
  have hlc : ids.length = cs.length := by
    have := valsL_length (vids P)
    rwa [List.length_map] at this
  have hl : cs.length = a.colVals.length := by rw [← hlc, hids]; simp
  refine ⟨cs.map fun c b => P c (boolPt N b), by rw [List.length_map, hl], ?_, fun A T hA hT bA bT i hi h0 => ?_⟩
  · intro k hk
    rw [List.length_map, hl] at hk
    obtain ⟨c, h1, h2⟩ := hc k hk
    exact ⟨c, h2, fun b _ => by simp [List.getD, h1]⟩
  · have hA' : HoldsTab s1 P N a A := ⟨hA.nv, (L.holds hs ka.2).2 hA.sel, (holdsCols_later L hs ka.1).2 hA.cols⟩
    have hT' : HoldsTab s1 P N b T := ⟨hT.nv, (L.holds hs kb.2).2 hT.sel, (holdsCols_later L hs kb.1).2 hT.cols⟩
    obtain ⟨h1, h3⟩ := h A _ _ _ hA' hT'.sel.2 (vids P) hT'.cols.valsL fun c => by
      rw [hA.nv]; exact Nat.add_le_add_right (img_le _) _
    exact join_final hn hA' hT' (by rw [List.length_map, hl]) hai bA bT hi h0 h1 h3

/-- C83 for a first table of one column: the product is the entry, so the full statement holds. -/
theorem C83_single_column {a b : TableComm} {ai bi : Nat} (h2 : (2 : F) ≠ 0) (hn : NatsNonzero F (2 ^ N)) (hs : Sane s) (ka : KnownTab s a) (kb : KnownTab s b)
    (h1 : a.colVals.length = 1) (hai : ai < a.colVals.length) :
    SoundExcept (fun H => FinalJoin.verify (E.withH H) a b ai bi) s N [1, 2 ^ N + 2 ^ a.numVars] fun pf P => ∃ Ms : List (Nat → F), Ms.length = a.colVals.length ∧
      Received pf s.own.idCounter P N Ms ∧ ∀ A T : TabData F, HoldsTab s P N a A → HoldsTab s P N b T → A.Boolean → T.Boolean →
        ∀ i < 2 ^ N, T.sel (i % 2 ^ T.nv) ≠ 0 → ∃ j, A.On j ∧ (Ms.map fun M => M i) = A.row j ∧ A.col ai j = T.col bi (i % 2 ^ T.nv) := by
  obtain ⟨bad, hb⟩ := C83_join_sound_partial (E := E) (bi := bi) h2 hn hs ka kb hai
  refine ⟨bad, fun pf H x s' hv => ?_⟩
  obtain ⟨b1, b2, b3⟩ := hb pf H x s' hv
  refine ⟨b1, b2, fun P hP hc => ?_⟩
  obtain ⟨Ms, hl, hr, h⟩ := b3 P hP hc
  refine ⟨Ms, hl, hr, fun A T hA hT bA bT i hi h0 => ?_⟩
  obtain ⟨h3, j, hj, e⟩ := h A T hA hT bA bT i hi h0
  have hA1 : A.cols.length = 1 := by
    have := valsL_length hA.cols.valsL
    rw [List.length_map] at this; omega
  obtain ⟨f, hf⟩ := List.length_eq_one_iff.1 hA1
  obtain ⟨g, hg⟩ := List.length_eq_one_iff.1 (hl.trans h1)
  obtain rfl : ai = 0 := by omega
  simp only [TabData.row, TabData.col, hf, hg, List.map_cons, List.map_nil, List.prod_cons, List.prod_nil, mul_one, List.getD_cons_zero] at e h3 ⊢
  exact ⟨j, hj, by rw [e], by rw [← e, h3]⟩

/-- C83 for given received columns. -/
theorem C83_join_advice_sound_partial {a b : TableComm} {ai bi : Nat} {ta : List Nat} (h2 : (2 : F) ≠ 0) (hn : NatsNonzero F (2 ^ N)) (hs : Sane s) (ka : KnownTab s a)
    (kb : KnownTab s b) (kt : ∀ c ∈ ta, Known s c) (hta : ta.length = a.colVals.length) (hai : ai < a.colVals.length) :
    SoundExcept (fun H => FinalJoin.verifyWithAdvice (E.withH H) a b ai bi ta) s N [1, 2 ^ N + 2 ^ a.numVars] fun _ P => ∀ (A T : TabData F) (Ms : List (Nat → F)),
      HoldsTab s P N a A → HoldsTab s P N b T → HoldsCols s P N T.nv ta Ms → A.Boolean → T.Boolean →
        ∀ i, T.On i → (Ms.getD ai fun _ => 0) i = T.col bi i ∧ ∃ j, A.On j ∧ (Ms.map fun M => M i).prod = (A.row j).prod :=
  Snd.except hs (finalJoin_snd h2 hn hs ka kb kt hta hai)

/-! ### C79 -/

/-- C79: acceptance implies that the active rows of the groups list the keys of the active rows of the table, each once, with their numbers of occurrences and the requested
sums. -/
def C79_statement : Prop :=
  ∀ (F C B : Type) [Field F] [DecidableEq F] (E : Env F C) (H : Oracle F C) (vs : VState F C B) (N M : Nat) (a : TableComm) (i : GroupInstr Nat) (range : BagComm), (2 : F) ≠ 0 → 0 < M →
    NatsNonzero F (2 ^ a.numVars * M) → VReachable E.debug H vs → KnownTab vs.st a → KnownRequest vs.st i → Known vs.st range.poly →
    SoundExcept (fun H => GroupBy.verifyWithAdvice (E.withH H) a i range) vs.st N (groupBounds a.numVars range.numVars i.aggs) fun _ P => HoldsRange vs.st P N range M →
      ∀ (T : TabData F) (R : GroupData F), HoldsTab vs.st P N a T → HoldsRequest vs.st P N i R → T.Boolean → T.nv = R.groups.nv →
        R.groups.Nodup ∧ (∀ z, (T.bag R.key).Active z ↔ R.groups.Active z) ∧
        (∀ i < 2 ^ R.groups.nv, R.groups.sel i ≠ 0 → R.mult i = ((T.bag R.key).count (R.groups.val i) : F)) ∧
        ∀ e ∈ R.aggs, e.2.1 = .sum → ∀ i < 2 ^ R.groups.nv, R.groups.sel i ≠ 0 → e.2.2 i = sumAt T R.key e.1 (R.groups.val i)

theorem gbBounds_eq (D : Nat) : ∀ aggs : List (Nat × AggType × Nat), gbBounds D aggs = (aggs.filter fun e => e.2.1 = .sum).map fun _ => D
  | [] => rfl
  | (_, .sum, _) :: r => by simp [gbBounds, gbBounds_eq D r]
  | (_, .count, _) :: r => by simp [gbBounds, gbBounds_eq D r]
  | (_, .avg, _) :: r => by simp [gbBounds, gbBounds_eq D r]
  | (_, .min, _) :: r => by simp [gbBounds, gbBounds_eq D r]
  | (_, .max, _) :: r => by simp [gbBounds, gbBounds_eq D r]

theorem holdsAggs_mem {P : C → List F → F} {nv : Nat} : ∀ {es : List (Nat × AggType × Nat)} {fs : List (Nat × AggType × (Nat → F))}, HoldsAggs s P N nv es fs →
    ∀ f ∈ fs, ∃ e ∈ es, e.1 = f.1 ∧ e.2.1 = f.2.1 ∧ Holds s P N e.2.2 nv f.2.2
  | [], [], _, f, hf => by simp at hf
  | e :: es, g :: fs, h, f, hf => by
    rcases List.mem_cons.1 hf with rfl | hf
    · exact ⟨e, List.mem_cons_self .., h.1, h.2.1, h.2.2.1⟩
    · obtain ⟨e', h1, h2⟩ := holdsAggs_mem h.2.2.2 f hf
      exact ⟨e', List.mem_cons_of_mem _ h1, h2⟩
  | [], _ :: _, h, _, _ => h.elim
  | _ :: _, [], h, _, _ => h.elim

theorem rep_congr {T U : Nat → F} {i : Nat} (hi : i < 2 ^ N) (h : T i = U i) : rep N T i = rep N U i := by rw [rep_eq _ hi, rep_eq _ hi, h]

theorem cw_rep_self (T w : Nat → F) (z : F) : cw N (rep N T) (rep N w) z = cw N T w z :=
  Finset.sum_congr rfl fun i hi => by rw [rep_eq _ (Finset.mem_range.1 hi), rep_eq _ (Finset.mem_range.1 hi)]

theorem weight_at {G : BagTab F} (hd : G.Nodup) {w : Nat → F} {i : Nat} (hi : i < 2 ^ G.nv) (h0 : G.sel i ≠ 0) : G.weight w (G.val i) = w i * G.sel i := by
  rw [weight_eq]
  unfold cw
  rw [Finset.sum_eq_single i]
  · simp
  · intro j hj hji
    split
    · rename_i e
      by_cases hs : G.sel j = 0
      · show w j * G.sel j = 0
        rw [hs, mul_zero]
      · exact absurd (hd j (Finset.mem_range.1 hj) i hi hs h0 e) hji
    · rfl
  · intro h; exact absurd (Finset.mem_range.2 hi) h

/-- What the group-by check establishes, for a call that others may follow. -/
theorem groupBy_snd {a : TableComm} {i : GroupInstr Nat} {range : BagComm} (h2 : (2 : F) ≠ 0) (hn1 : NatsNonzero F (2 ^ a.numVars)) (hs : Sane s)
    (ka : KnownTab s a) (kr : KnownRequest s i) (kR : Known s range.poly) :
    Snd (fun H => GroupBy.verifyWithAdvice (E.withH H) a i range) s N (groupBounds a.numVars range.numVars i.aggs) fun P => ∀ M, NatsNonzero F (2 ^ a.numVars * M) →
      HoldsRange s P N range M → ∀ (T : TabData F) (R : GroupData F), HoldsTab s P N a T → HoldsRequest s P N i R → T.Boolean → T.nv = R.groups.nv →
        R.groups.Nodup ∧ (∀ z, (T.bag R.key).Active z ↔ R.groups.Active z) ∧
        (∀ i < 2 ^ R.groups.nv, R.groups.sel i ≠ 0 → R.mult i * R.groups.sel i = ((T.bag R.key).count (R.groups.val i) : F)) ∧
        (∀ e ∈ R.aggs, e.2.1 = .sum → ∀ i < 2 ^ R.groups.nv, R.groups.sel i ≠ 0 → e.2.2 i * R.groups.sel i = sumAt T R.key e.1 (R.groups.val i)) ∧
        (R.groups.Boolean → GroupsOf T R) := by
  have := groupBy_raw (E := E) (N := N) (range := range) h2 hn1 hs ka kr kR (2 ^ a.numVars + 2 ^ a.numVars)
  rw [gbBounds_eq] at this
  refine this.mono hs fun P _ h M hn hR T R hT hq bT hnv => ?_
  obtain ⟨hN, key, c, e1, e2, hlt, h⟩ := h
  obtain rfl : key = R.key := by
    have := hq.key; rw [e1] at this; simpa using this
  obtain ⟨d, hd, hc⟩ := hq.groups
  obtain rfl : c = d := by rw [hd] at e2; simpa using e2.symm
  have hNT : N = T.nv := hN.trans hT.nv
  obtain rfl : N = R.groups.nv := hNT.trans hnv
  obtain ⟨ρ, r1, r2, r3⟩ := hR.facts
  have im : ∀ X : Nat → F, (imgOf R.groups.nv X).card ≤ 2 ^ a.numVars := fun X => by rw [← hN]; exact img_le X
  obtain ⟨i1, i2, i3, i4⟩ := h _ _ _ _ _ _ hT.sel.2 hT.cols.valsL hc.2 hq.sel.2 hq.mult.2 r1 r2 (Nat.add_le_add (im _) (im _))
  have hdist := sort_distinct i1 r3 (by rw [hN]; exact hn)
  have nd : R.groups.Nodup := by
    intro p hp q hq' hp0 hq0 he
    refine hdist.unique hp hq' ?_ ?_ ?_ <;> simpa [Nat.mod_eq_of_lt, hp, hq']
  have lt : ∀ b < 2 ^ R.groups.nv, b % 2 ^ R.groups.nv = b := fun b hb => Nat.mod_eq_of_lt hb
  have W1 : ∀ z, (T.bag R.key).weight (fun _ => 1) z = R.groups.weight R.mult z := fun z => by
    have := i3 z
    rw [weight_eq, weight_eq, show (T.bag R.key).nv = R.groups.nv from hnv]
    refine Eq.trans (cw_congr (fun b hb => ?_) (fun b hb => ?_) z) (this.trans (cw_congr (fun b hb => ?_) (fun b hb => ?_) z))
    · rw [getD_map_rep, hnv, lt b hb]; rfl
    · rw [one_mul, hnv, lt b hb]; rfl
    · beta_reduce; rw [lt b hb]
    · beta_reduce; rw [lt b hb]
  have W2 : ∀ e ∈ R.aggs, e.2.1 = .sum → ∀ z, (T.bag R.key).weight (T.col e.1) z = R.groups.weight e.2.2 z := fun e he hsum z => by
    obtain ⟨f, hf, f1, f2, f3⟩ := holdsAggs_mem hq.aggs e he
    have := i4 f hf (f2.trans hsum) _ f3.2 z
    rw [weight_eq, weight_eq, show (T.bag R.key).nv = R.groups.nv from hnv]
    refine Eq.trans (cw_congr (fun b hb => ?_) (fun b hb => ?_) z) (this.trans (cw_congr (fun b hb => ?_) (fun b hb => ?_) z))
    · rw [getD_map_rep, hnv, lt b hb]; rfl
    · rw [getD_map_rep, hnv, lt b hb, f1]; rfl
    · beta_reduce; rw [lt b hb]
    · beta_reduce; rw [lt b hb]
  have bT' : (T.bag R.key).Boolean := bT
  have act : ∀ z, (T.bag R.key).Active z ↔ R.groups.Active z := fun z => by
    rw [active_iff_weight bT' (by show NatsNonzero F (2 ^ T.nv); rw [← hT.nv]; exact hn1), W1]
    constructor
    · exact active_of_weight
    · rintro ⟨p, hp, h0, rfl⟩
      rw [weight_at nd hp h0]
      have := i2 p hp (by beta_reduce; rw [lt p hp]; exact h0)
      rw [lt p hp] at this
      exact mul_ne_zero this h0
  have cnt : ∀ i < 2 ^ R.groups.nv, R.groups.sel i ≠ 0 → R.mult i * R.groups.sel i = ((T.bag R.key).count (R.groups.val i) : F) := fun p hp h0 => by
    rw [← weight_at nd hp h0, ← W1, weight_count bT']
  have sms : ∀ e ∈ R.aggs, e.2.1 = .sum → ∀ i < 2 ^ R.groups.nv, R.groups.sel i ≠ 0 → e.2.2 i * R.groups.sel i = sumAt T R.key e.1 (R.groups.val i) := fun e he hsum p hp h0 => by
    rw [← weight_at nd hp h0, ← W2 e he hsum, bag_weight_sum bT]
  refine ⟨nd, act, cnt, sms, fun hb => ⟨hb, nd, act, fun p hp h0 => ?_, fun e he hsum p hp h0 => ?_⟩⟩
  · have := cnt p hp h0
    rwa [(hb p hp).resolve_left h0, mul_one] at this
  · have := sms e he hsum p hp h0
    rwa [(hb p hp).resolve_left h0, mul_one] at this

/-- C79, what holds: the groups are distinct and are the keys of the table, and weighted with the selector of the groups the multiplicities and sums are right; so they are right when
that selector is 0/1.  Missing: the check that it is, without which the claim is false (`C79_violated`). -/
theorem C79_group_by_sound_partial {a : TableComm} {i : GroupInstr Nat} {range : BagComm} {M : Nat} (h2 : (2 : F) ≠ 0) (hM : 0 < M) (hn : NatsNonzero F (2 ^ a.numVars * M)) (hs : Sane s)
    (ka : KnownTab s a) (kr : KnownRequest s i) (kR : Known s range.poly) :
    SoundExcept (fun H => GroupBy.verifyWithAdvice (E.withH H) a i range) s N (groupBounds a.numVars range.numVars i.aggs) fun _ P => HoldsRange s P N range M →
      ∀ (T : TabData F) (R : GroupData F), HoldsTab s P N a T → HoldsRequest s P N i R → T.Boolean → T.nv = R.groups.nv →
        R.groups.Nodup ∧ (∀ z, (T.bag R.key).Active z ↔ R.groups.Active z) ∧
        (∀ i < 2 ^ R.groups.nv, R.groups.sel i ≠ 0 → R.mult i * R.groups.sel i = ((T.bag R.key).count (R.groups.val i) : F)) ∧
        (∀ e ∈ R.aggs, e.2.1 = .sum → ∀ i < 2 ^ R.groups.nv, R.groups.sel i ≠ 0 → e.2.2 i * R.groups.sel i = sumAt T R.key e.1 (R.groups.val i)) ∧
        (R.groups.Boolean → GroupsOf T R) := by
  refine Snd.except hs ((groupBy_snd h2 (natsNonzero_mono hn (Nat.le_mul_of_pos_right _ hM)) hs ka kr kR).mono hs fun P _ h hR => h M hn hR)

end

namespace REx

/-- Two rows (2, 3). -/
def rows23 : TabData G := ⟨1, [Mle.tbl ⟨1, [2, 2]⟩, Mle.tbl ⟨1, [3, 3]⟩], Mle.tbl ⟨1, [1, 1]⟩⟩

/-- Two rows (3, 2). -/
def rows32 : TabData G := ⟨1, [Mle.tbl ⟨1, [3, 3]⟩, Mle.tbl ⟨1, [2, 2]⟩], Mle.tbl ⟨1, [1, 1]⟩⟩

end REx

open REx in
/-- C70 fails: a table with the rows (3, 2) is accepted as part of one with the rows (2, 3), even from the prover of the library. -/
theorem C70_violated : ¬ C70_statement := by
  intro hst
  obtain ⟨H, vs, h1, hk, hv, h⟩ := REx.cheat (N := 1) (bounds := [0, 2 ^ 1 + 2 ^ 1]) (bounds2 := [1, 2 ^ 1 + 2 ^ 1]) (Valid := True) (Fits := True)
    (m := fun E => IndexTransform.prove E (tabl [0, 1] 2 1) (tabl [1, 0] 2 1)) (v := fun E => IndexTransform.verify E ⟨[0, 1], 2, 1⟩ ⟨[1, 0], 2, 1⟩)
    (Inputs := fun s => KnownTab s ⟨[0, 1], 2, 1⟩ ∧ KnownTab s ⟨[1, 0], 2, 1⟩)
    (Contents := fun s => HoldsTab s poly 1 ⟨[0, 1], 2, 1⟩ rows23 ∧ HoldsTab s poly 1 ⟨[1, 0], 2, 1⟩ rows32)
    [⟨1, [2, 2]⟩, ⟨1, [3, 3]⟩, ⟨1, [1, 1]⟩] (by decide) (by decide)
    (fun hr hp => by
      have ha : HoldsTabP (startP env.commit [⟨1, [2, 2]⟩, ⟨1, [3, 3]⟩, ⟨1, [1, 1]⟩] PTracker.new) (tabl [0, 1] 2 1) rows23 := ⟨rfl, hp 2 _ rfl, rfl, hp 0 _ rfl, rfl, hp 1 _ rfl, trivial⟩
      have hb : HoldsTabP (startP env.commit [⟨1, [2, 2]⟩, ⟨1, [3, 3]⟩, ⟨1, [1, 1]⟩] PTracker.new) (tabl [1, 0] 2 1) rows32 := ⟨rfl, hp 2 _ rfl, rfl, hp 1 _ rfl, rfl, hp 0 _ rfl, trivial⟩
      have := indexTransform_cmp (B := Unit) (E := env) (P := poly) (N := 1) (Sz := True) (Γ := (Facts.none.insTab (tabl [0, 1] 2 1) rows23).insTab (tabl [1, 0] 2 1) rows32) (Φ := True) hr
        (tok_of hr ha (Facts.le_insTab _ _ _)) (tok_of hr hb le_rfl) (by decide) (by decide) two_ne (canCommit 1) rfl fun _ =>
          ⟨by unfold TabData.Boolean; decide +kernel, by unfold TabData.Boolean; decide +kernel, fun i hi => ⟨i, ⟨hi.1, by obtain ⟨hi, -⟩ := hi; revert i; decide +kernel⟩, by
            obtain ⟨hi, -⟩ := hi; revert i; decide +kernel⟩⟩
      exact Cmp.completes this (fun s hi => known_tab hi.2 (known_tab hi.1 known_none)) fun s hv => holds_tab hv.2 (holds_tab hv.1 holds_none))
    (by decide) trivial (fun s k => ⟨⟨by simpa using ⟨k 0 _ rfl, k 1 _ rfl⟩, k 2 _ rfl⟩, ⟨by simpa using ⟨k 1 _ rfl, k 0 _ rfl⟩, k 2 _ rfl⟩⟩)
    (fun s h => ⟨⟨rfl, h 2 _ rfl, h 0 _ rfl, h 1 _ rfl, trivial⟩, ⟨rfl, h 2 _ rfl, h 1 _ rfl, h 0 _ rfl, trivial⟩⟩)
  obtain ⟨pf, hc⟩ := h _ (hst G (Mle G) Unit env H vs 1 ⟨[0, 1], 2, 1⟩ ⟨[1, 0], 2, 1⟩ two_ne (natsNonzero_mono natsNonzero (by decide)) h1
    ⟨by simpa using ⟨hk 0 _ rfl, hk 1 _ rfl⟩, hk 2 _ rfl⟩ ⟨by simpa using ⟨hk 1 _ rfl, hk 0 _ rfl⟩, hk 2 _ rfl⟩)
  obtain ⟨j, hj, e⟩ := hc rows23 rows32 ⟨rfl, hv 2 _ rfl, hv 0 _ rfl, hv 1 _ rfl, trivial⟩ ⟨rfl, hv 2 _ rfl, hv 1 _ rfl, hv 0 _ rfl, trivial⟩ rfl
    (by unfold TabData.Boolean; decide +kernel) (by unfold TabData.Boolean; decide +kernel) 0 ⟨by decide, by decide +kernel⟩
  exact (by decide +kernel : ∀ j < 2 ^ rows23.nv, rows32.row 0 ≠ rows23.row j) j hj.1 e

namespace REx

/-- The rows (6, 1) and (7, 5). -/
def stock : TabData G := ⟨1, [Mle.tbl ⟨1, [6, 7]⟩, Mle.tbl ⟨1, [1, 5]⟩], Mle.tbl ⟨1, [1, 1]⟩⟩

/-- Two rows with key 2. -/
def orders : TabData G := ⟨1, [Mle.tbl ⟨1, [2, 2]⟩], Mle.tbl ⟨1, [1, 1]⟩⟩

end REx

open REx in
/-- C83 fails: rows with key 2 are accepted as joined with a table whose keys are 6 and 7, because the row (2, 3) has the product of the row (6, 1). -/
theorem C83_violated : ¬ C83_statement := by
  intro hst
  obtain ⟨H, vs, h1, hk, hv, h⟩ := REx.cheat (N := 1) (bounds := [0, 2 ^ 1 + 2 ^ 1]) (bounds2 := [1, 2 ^ 1 + 2 ^ 1]) (Valid := True) (Fits := True)
    (m := fun E => FinalJoin.commitAll E ([Mle.tbl ⟨1, [2, 2]⟩, Mle.tbl ⟨1, [3, 3]⟩].map (tabMle 1)) >>= fun ta => FinalJoin.proveWithAdvice E (tabl [0, 1] 2 1) (tabl [3] 2 1) 0 0 ta)
    (v := fun E => FinalJoin.verify E ⟨[0, 1], 2, 1⟩ ⟨[3], 2, 1⟩ 0 0)
    (Inputs := fun s => KnownTab s ⟨[0, 1], 2, 1⟩ ∧ KnownTab s ⟨[3], 2, 1⟩)
    (Contents := fun s => HoldsTab s poly 1 ⟨[0, 1], 2, 1⟩ stock ∧ HoldsTab s poly 1 ⟨[3], 2, 1⟩ orders)
    [⟨1, [6, 7]⟩, ⟨1, [1, 5]⟩, ⟨1, [1, 1]⟩, ⟨1, [2, 2]⟩] (by decide) (by decide)
    (fun hr hp => by
      have ha : HoldsTabP (startP env.commit [⟨1, [6, 7]⟩, ⟨1, [1, 5]⟩, ⟨1, [1, 1]⟩, ⟨1, [2, 2]⟩] PTracker.new) (tabl [0, 1] 2 1) stock := ⟨rfl, hp 2 _ rfl, rfl, hp 0 _ rfl, rfl, hp 1 _ rfl, trivial⟩
      have hb : HoldsTabP (startP env.commit [⟨1, [6, 7]⟩, ⟨1, [1, 5]⟩, ⟨1, [1, 1]⟩, ⟨1, [2, 2]⟩] PTracker.new) (tabl [3] 2 1) orders := ⟨rfl, hp 2 _ rfl, rfl, hp 3 _ rfl, trivial⟩
      have := k_commitAll (B := Unit) (E := env) (P := poly) (N := 1) (Sz := True) (nv := 1) (Φ := True) (bounds := [0, 2 ^ 1 + 2 ^ 1]) (Γ := (Facts.none.insTab (tabl [0, 1] 2 1) stock).insTab (tabl [3] 2 1) orders)
        (f := fun ta H => FinalJoin.proveWithAdvice (env.withH H) (tabl [0, 1] 2 1) (tabl [3] 2 1) 0 0 ta >>= fun x => Pure.pure x)
        (g := fun ta _ H => FinalJoin.verifyWithAdvice (env.withH H) ⟨[0, 1], 2, 1⟩ ⟨[3], 2, 1⟩ 0 0 ta >>= fun x => Pure.pure x) (by decide) (canCommit 1)
        [Mle.tbl ⟨1, [2, 2]⟩, Mle.tbl ⟨1, [3, 3]⟩] hr fun xs t1 Γ1 x1 g1 k1 => by
          refine k_finalJoinAdvice (A := stock) (Tb := orders) (ca := ⟨[0, 1], 2, 1⟩) (cb := ⟨[3], 2, 1⟩) (bounds := []) x1.ready ((tok_of hr ha (Facts.le_insTab _ _ _)).mono x1 g1) ((tok_of hr hb le_rfl).mono x1 g1) k1 rfl (by decide) (by decide)
            (fun _ => by unfold KeysDistinct; decide +kernel) (by decide) (by decide) two_ne (canCommit 1)
            (fun _ => ⟨by unfold TabData.Boolean; decide +kernel, by unfold TabData.Boolean; decide +kernel, fun i hi => ⟨0, ⟨by decide, by decide +kernel⟩, ?_⟩, fun i hi => ?_⟩)
            fun t2 Γ2 x2 _ _ => GF.pure (b := fun _ => _) x2.ready
          · obtain ⟨hi, -⟩ := hi; revert i; decide +kernel
          · obtain ⟨hi, -⟩ := hi; revert i; decide +kernel
      simp only [Act.bind_pure'] at this
      obtain ⟨bad, h⟩ := this
      exact ⟨bad, GFB.completes h (fun s hi => known_tab hi.2 (known_tab hi.1 known_none)) fun s hv => holds_tab hv.2 (holds_tab hv.1 holds_none)⟩)
    (by decide) trivial (fun s k => ⟨⟨by simpa using ⟨k 0 _ rfl, k 1 _ rfl⟩, k 2 _ rfl⟩, ⟨by simpa using k 3 _ rfl, k 2 _ rfl⟩⟩)
    (fun s h => ⟨⟨rfl, h 2 _ rfl, h 0 _ rfl, h 1 _ rfl, trivial⟩, ⟨rfl, h 2 _ rfl, h 3 _ rfl, trivial⟩⟩)
  obtain ⟨pf, Ms, -, -, hc⟩ := h _ (hst G (Mle G) Unit env H vs 1 ⟨[0, 1], 2, 1⟩ ⟨[3], 2, 1⟩ 0 0 two_ne (natsNonzero_mono natsNonzero (by decide)) h1
    ⟨by simpa using ⟨hk 0 _ rfl, hk 1 _ rfl⟩, hk 2 _ rfl⟩ ⟨by simpa using hk 3 _ rfl, hk 2 _ rfl⟩ (by decide) (by decide))
  obtain ⟨j, hj, -, e⟩ := hc stock orders ⟨rfl, hv 2 _ rfl, hv 0 _ rfl, hv 1 _ rfl, trivial⟩ ⟨rfl, hv 2 _ rfl, hv 3 _ rfl, trivial⟩
    (by unfold TabData.Boolean; decide +kernel) (by unfold TabData.Boolean; decide +kernel) 0 (by decide) (by decide +kernel)
  exact (by decide +kernel : ∀ j < 2 ^ stock.nv, stock.col 0 j ≠ orders.col 0 0) j hj.1 e

namespace REx

/-- One active row with key 3 and value 10. -/
def sale : TabData G := ⟨1, [Mle.tbl ⟨1, [3, 3]⟩, Mle.tbl ⟨1, [10, 20]⟩], Mle.tbl ⟨1, [1, 0]⟩⟩

/-- One group with key 3 and selector 2; the multiplicity is a half and the sum 5. -/
def halved : GroupData G := ⟨0, ⟨1, Mle.tbl ⟨1, [2, 3]⟩, Mle.tbl ⟨1, [0, 2]⟩⟩, Mle.tbl ⟨1, [0, 51]⟩, [(1, .count, Mle.tbl ⟨1, [0, 51]⟩), (1, .sum, Mle.tbl ⟨1, [0, 5]⟩)]⟩

/-- The committed columns. -/
def halvedCols : List (Mle G) := [⟨1, [3, 3]⟩, ⟨1, [10, 20]⟩, ⟨1, [1, 0]⟩, ⟨1, [2, 3]⟩, ⟨1, [0, 2]⟩, ⟨1, [0, 51]⟩, ⟨1, [0, 5]⟩, ⟨1, [0, 1]⟩]

end REx

open REx in
/-- C79 fails: for one row with key 3 and value 10 the multiplicity 51 = 1/2 and the sum 5 are accepted, because the selector of the group is 2. -/
theorem C79_violated : ¬ C79_statement := by
  intro hst
  obtain ⟨H, vs, h1, hk, hv, h⟩ := REx.cheat (N := 1) (bounds := ([2 ^ 1 + 2 ^ 1] ++ hSort 1 1) ++ hSums (2 ^ 1 + 2 ^ 1) halved) (bounds2 := groupBounds 1 1 (sameInstr request).aggs) (Valid := True) (Fits := True)
    (m := fun E => GroupBy.proveWithAdvice E (tabl [0, 1] 2 1) request (bag 7 7 1)) (v := fun E => GroupBy.verifyWithAdvice E ⟨[0, 1], 2, 1⟩ (sameInstr request) ⟨7, 7, 1⟩)
    (Inputs := fun s => KnownTab s ⟨[0, 1], 2, 1⟩ ∧ KnownRequest s (sameInstr request) ∧ Known s 7)
    (Contents := fun s => HoldsTab s poly 1 ⟨[0, 1], 2, 1⟩ sale ∧ HoldsRequest s poly 1 (sameInstr request) halved ∧ Holds s poly 1 7 1 (Mle.tbl ⟨1, [0, 1]⟩))
    halvedCols (by decide) (by decide)
    (fun hr hp => by
      have := group_gf' (B := Unit) (P := poly) (N := 1) (Sz := True) (E := env) (bounds := []) (Φ := True) (f := fun x _ => Pure.pure x) (g := fun x _ _ => Pure.pure x)
        (a := tabl [0, 1] 2 1) (T := sale) (i := request) (R := halved) (range := bag 7 7 1) (r := 1) two_ne (canCommit 1) hr
        ⟨rfl, hp 2 _ rfl, rfl, hp 0 _ rfl, rfl, hp 1 _ rfl, trivial⟩
        ⟨rfl, ⟨_, rfl, rfl, rfl, hp 3 _ rfl, hp 4 _ rfl⟩, rfl, hp 5 _ rfl, rfl, rfl, rfl, hp 5 _ rfl, rfl, rfl, rfl, hp 6 _ rfl, trivial⟩ (hp 7 _ rfl) rfl
        ⟨by decide, by decide⟩ rfl (by decide) (by decide)
        (fun _ => rfl) (fun _ => ⟨by decide +kernel, by decide +kernel, REx.sortedIn_of (by decide +kernel), by decide +kernel⟩)
        fun x y t1 Γ1 x1 _ => GF.pure (b := fun _ => y) x1.ready
      simp only [Act.bind_pure', List.append_nil] at this
      obtain ⟨bad, h⟩ := this
      exact ⟨bad, GFB.completes h (fun s hi => known_tab hi.1 (known_req hi.2.1 (known_ins hi.2.2 known_none)))
        fun s hv => holds_tab hv.1 (holds_req hv.2.1 (holds_ins hv.2.2 holds_none))⟩)
    (by decide) trivial
    (fun s k => ⟨⟨by simpa using ⟨k 0 _ rfl, k 1 _ rfl⟩, k 2 _ rfl⟩,
      ⟨by simpa [request, sameInstr] using k 3 _ rfl, k 4 _ rfl, k 5 _ rfl, by simpa [request, sameInstr] using ⟨k 5 _ rfl, k 6 _ rfl⟩⟩, k 7 _ rfl⟩)
    (fun s h => ⟨⟨rfl, h 2 _ rfl, h 0 _ rfl, h 1 _ rfl, trivial⟩, ⟨rfl, ⟨_, rfl, h 3 _ rfl⟩, h 4 _ rfl, h 5 _ rfl, rfl, rfl, h 5 _ rfl, rfl, rfl, h 6 _ rfl, trivial⟩, h 7 _ rfl⟩)
  obtain ⟨pf, hc⟩ := h _ (hst G (Mle G) Unit env H vs 1 2 ⟨[0, 1], 2, 1⟩ (sameInstr request) ⟨7, 7, 1⟩ two_ne (by decide) (natsNonzero_mono natsNonzero (by decide)) h1
    ⟨by simpa using ⟨hk 0 _ rfl, hk 1 _ rfl⟩, hk 2 _ rfl⟩
    ⟨by simpa [request, sameInstr] using hk 3 _ rfl, hk 4 _ rfl, hk 5 _ rfl, by simpa [request, sameInstr] using ⟨hk 5 _ rfl, hk 6 _ rfl⟩⟩ (hk 7 _ rfl))
  obtain ⟨-, -, hcount, -⟩ := hc ⟨_, hv 7 _ rfl, by decide +kernel⟩ sale halved ⟨rfl, hv 2 _ rfl, hv 0 _ rfl, hv 1 _ rfl, trivial⟩
    ⟨rfl, ⟨_, rfl, hv 3 _ rfl⟩, hv 4 _ rfl, hv 5 _ rfl, rfl, rfl, hv 5 _ rfl, rfl, rfl, hv 6 _ rfl, trivial⟩ (by unfold TabData.Boolean; decide +kernel) rfl
  exact absurd (hcount 1 (by decide) (by decide +kernel)) (by decide +kernel)

namespace REx

/-! The hypotheses of the three theorems are met by whole runs with true claims. -/

example : NatsNonzero G (2 ^ 1) ∧ ∃ (H : Oracle G (Mle G)) (vs : VState G (Mle G) Unit) (s' : VSt G (Mle G) Unit), VReachable true H vs ∧ Sane vs.st ∧
    IndexTransform.verify (env.withH H) ⟨[0, 1], 2, 1⟩ ⟨[3, 4], 2, 1⟩ vs.st = (.ok (), s') ∧ ClaimsTrue poly 1 s' ∧
    HoldsTab vs.st poly 1 ⟨[0, 1], 2, 1⟩ oneSide ∧ HoldsTab vs.st poly 1 ⟨[3, 4], 2, 1⟩ picked ∧ oneSide.Boolean ∧ picked.Boolean ∧ picked.On 0 := by
  obtain ⟨H, _, _, vs, b, s', _, h1, h2, h3, h4, h5⟩ := run_index_transform
  exact ⟨natsNonzero_mono natsNonzero (by decide), H, vs, s', h1, h1.sane, h2, h3, h4, h5, by unfold TabData.Boolean; decide +kernel, by unfold TabData.Boolean; decide +kernel,
    by decide, by decide +kernel⟩

example : NatsNonzero G (2 ^ 1) ∧ ∃ (H : Oracle G (Mle G)) (vs : VState G (Mle G) Unit) (y : TableComm) (s' : VSt G (Mle G) Unit), VReachable true H vs ∧ Sane vs.st ∧
    FinalJoin.verify (env.withH H) ⟨[0, 1], 2, 1⟩ ⟨[3, 4], 2, 1⟩ 0 0 vs.st = (.ok y, s') ∧ ClaimsTrue poly 1 s' ∧
    HoldsTab vs.st poly 1 ⟨[0, 1], 2, 1⟩ oneSide ∧ HoldsTab vs.st poly 1 ⟨[3, 4], 2, 1⟩ manySide ∧ oneSide.Boolean ∧ manySide.Boolean ∧ manySide.sel 0 ≠ 0 := by
  obtain ⟨H, _, _, vs, y, s', _, h1, h2, h3, h4, h5⟩ := run_join
  exact ⟨natsNonzero_mono natsNonzero (by decide), H, vs, y, s', h1, h1.sane, h2, h3, h4, h5, by unfold TabData.Boolean; decide +kernel, by unfold TabData.Boolean; decide +kernel,
    by decide +kernel⟩

example : NatsNonzero G (2 ^ 1 * 2) ∧ ∃ (H : Oracle G (Mle G)) (vs : VState G (Mle G) Unit) (y : TableComm) (s' : VSt G (Mle G) Unit), VReachable true H vs ∧ Sane vs.st ∧
    GroupBy.verifyWithAdvice (env.withH H) ⟨[0, 1], 2, 1⟩ (sameInstr request) ⟨4, 4, 1⟩ vs.st = (.ok y, s') ∧ ClaimsTrue poly 1 s' ∧ HoldsRange vs.st poly 1 ⟨4, 4, 1⟩ 2 ∧
    HoldsTab vs.st poly 1 ⟨[0, 1], 2, 1⟩ sales ∧ HoldsRequest vs.st poly 1 (sameInstr request) perKey ∧ sales.Boolean ∧ perKey.groups.Boolean := by
  obtain ⟨H, _, _, vs, y, s', _, h1, h2, h3, h4, h5, h6⟩ := run_group
  exact ⟨natsNonzero_mono natsNonzero (by decide), H, vs, y, s', h1, h1.sane, h2, h3, ⟨_, h6, by decide +kernel⟩, h4, h5, by unfold TabData.Boolean; decide +kernel, perKey_ok.boolean⟩

end REx

end Zksql
