import Verif.Lemmas.HonestTables
import Verif.Props.Honest
import Verif.Spec.TableRuns
/-!
Honest runs of the table protocols.  The conventions are those of `Props/Honest`.
-/
set_option linter.unusedSectionVars false
namespace Zksql
open Spec
variable {F C B : Type} [Field F] [DecidableEq F]
variable {E : Env F C} {P : C → List F → F} {N : Nat} {Sz : Prop} {t t1 : PTracker F C} {Γ Γ1 : Facts F} {s : VSt F C B}

/-! ### Facts about tables -/

/-- The facts about columns. -/
def Facts.insCols (Γ : Facts F) (nv : Nat) : List TPoly → List (Nat → F) → Facts F
  | c :: cs, f :: fs => (Facts.insCols Γ nv cs fs).ins c.id nv f
  | _, _ => Γ

theorem Facts.le_insCols (Γ : Facts F) (nv : Nat) : ∀ (cs : List TPoly) (fs : List (Nat → F)), Γ ≤ Γ.insCols nv cs fs
  | c :: cs, f :: fs => (Facts.le_insCols Γ nv cs fs).trans (Facts.le_ins _ _ _ _)
  | [], _ => fun _ _ _ h => h
  | _ :: _, [] => fun _ _ _ h => h

theorem csOk_of {nv : Nat} (hr : Ready E.commit t) : ∀ {cs : List TPoly} {fs : List (Nat → F)}, HoldsColsP t nv cs fs → Γ.insCols nv cs fs ≤ Γ1 →
    CsOk Γ1 t nv cs (cs.map (·.id)) fs
  | [], [], _, _ => trivial
  | c :: cs, f :: fs, h, hΓ => ⟨cok_of hr h.1 h.2.1 hΓ, csOk_of hr h.2.2 ((Facts.le_ins _ _ _ _).trans hΓ)⟩
  | [], _ :: _, h, _ => h.elim
  | _ :: _, [], h, _ => h.elim

theorem known_cols {nv : Nat} (hΓ : ∀ i nv T, Γ i nv T → Known s i) : ∀ (cs : List TPoly) (fs : List (Nat → F)), (∀ c ∈ cs.map (·.id), Known s c) →
    ∀ j m U, Γ.insCols nv cs fs j m U → Known s j
  | c :: cs, f :: fs, h => known_ins (h c.id (by simp)) (known_cols hΓ cs fs fun c hc => h c (List.mem_cons_of_mem _ hc))
  | [], _, _ => hΓ
  | _ :: _, [], _ => hΓ

theorem holds_cols {nv : Nat} (hΓ : ∀ i nv T, Γ i nv T → Holds s P N i nv T) : ∀ (cs : List TPoly) (fs : List (Nat → F)), HoldsCols s P N nv (cs.map (·.id)) fs →
    ∀ j m U, Γ.insCols nv cs fs j m U → Holds s P N j m U
  | c :: cs, f :: fs, h => holds_ins h.1 (holds_cols hΓ cs fs h.2)
  | [], _, _ => hΓ
  | _ :: _, [], _ => hΓ

/-- The facts about a table. -/
def Facts.insTab (Γ : Facts F) (tb : Table) (T : TabData F) : Facts F := (Γ.insCols T.nv tb.colVals T.cols).ins tb.selector.id T.nv T.sel

theorem Facts.le_insTab (Γ : Facts F) (tb : Table) (T : TabData F) : Γ ≤ Γ.insTab tb T := (Facts.le_insCols _ _ _ _).trans (Facts.le_ins _ _ _ _)

theorem tok_of {tb : Table} {T : TabData F} (hr : Ready E.commit t) (h : HoldsTabP t tb T) (hΓ : Γ.insTab tb T ≤ Γ1) : TOk Γ1 t tb (sameTab tb) T :=
  ⟨cok_of hr h.nvSel h.sel hΓ, h.nvSel, csOk_of hr h.cols ((Facts.le_ins _ _ _ _).trans hΓ)⟩

theorem known_tab {tb : Table} {T : TabData F} (h : KnownTab s (sameTab tb)) (hΓ : ∀ i nv T, Γ i nv T → Known s i) :
    ∀ j m U, Γ.insTab tb T j m U → Known s j := known_ins h.2 (known_cols hΓ _ _ h.1)

theorem holds_tab {tb : Table} {T : TabData F} (h : HoldsTab s P N (sameTab tb) T) (hΓ : ∀ i nv T, Γ i nv T → Holds s P N i nv T) :
    ∀ j m U, Γ.insTab tb T j m U → Holds s P N j m U := holds_ins h.sel (holds_cols hΓ _ _ h.cols)

/-- The facts about aggregates. -/
def Facts.insAggs (Γ : Facts F) (nv : Nat) : List (Nat × AggType × TPoly) → List (Nat × AggType × (Nat → F)) → Facts F
  | e :: es, f :: fs => (Facts.insAggs Γ nv es fs).ins e.2.2.id nv f.2.2
  | _, _ => Γ

theorem Facts.le_insAggs (Γ : Facts F) (nv : Nat) : ∀ (es : List (Nat × AggType × TPoly)) (fs : List (Nat × AggType × (Nat → F))), Γ ≤ Γ.insAggs nv es fs
  | e :: es, f :: fs => (Facts.le_insAggs Γ nv es fs).trans (Facts.le_ins _ _ _ _)
  | [], _ => fun _ _ _ h => h
  | _ :: _, [] => fun _ _ _ h => h

theorem agOk_of {nv nc : Nat} (hr : Ready E.commit t) : ∀ {es : List (Nat × AggType × TPoly)} {fs : List (Nat × AggType × (Nat → F))}, HoldsAggsP t nv es fs →
    (∀ e ∈ fs, e.1 < nc ∧ (e.2.1 = .count ∨ e.2.1 = .sum)) → Γ.insAggs nv es fs ≤ Γ1 → AgOk Γ1 t nv nc es (es.map fun e => (e.1, e.2.1, e.2.2.id)) fs
  | [], [], _, _, _ => trivial
  | e :: es, f :: fs, h, hf, hΓ => ⟨⟨h.1, h.1, h.2.1, h.2.1, (hf f (by simp)).1, (hf f (by simp)).2⟩, cok_of hr h.2.2.1 h.2.2.2.1 hΓ,
      agOk_of hr h.2.2.2.2 (fun e he => hf e (List.mem_cons_of_mem _ he)) ((Facts.le_ins _ _ _ _).trans hΓ)⟩
  | [], _ :: _, h, _, _ => h.elim
  | _ :: _, [], h, _, _ => h.elim

theorem known_aggs {nv : Nat} (hΓ : ∀ i nv T, Γ i nv T → Known s i) : ∀ (es : List (Nat × AggType × TPoly)) (fs : List (Nat × AggType × (Nat → F))),
    (∀ e ∈ es.map (fun e => (e.1, e.2.1, e.2.2.id)), Known s e.2.2) → ∀ j m U, Γ.insAggs nv es fs j m U → Known s j
  | e :: es, f :: fs, h => known_ins (h (e.1, e.2.1, e.2.2.id) (by simp)) (known_aggs hΓ es fs fun c hc => h c (List.mem_cons_of_mem _ hc))
  | [], _, _ => hΓ
  | _ :: _, [], _ => hΓ

theorem holds_aggs {nv : Nat} (hΓ : ∀ i nv T, Γ i nv T → Holds s P N i nv T) : ∀ (es : List (Nat × AggType × TPoly)) (fs : List (Nat × AggType × (Nat → F))),
    HoldsAggs s P N nv (es.map fun e => (e.1, e.2.1, e.2.2.id)) fs → ∀ j m U, Γ.insAggs nv es fs j m U → Holds s P N j m U
  | e :: es, f :: fs, h => holds_ins h.2.2.1 (holds_aggs hΓ es fs h.2.2.2)
  | [], _, _ => hΓ
  | _ :: _, [], _ => hΓ

/-! ### What a prover call returns -/

theorem Act.bind_pure' {S α : Type} (m : Act S α) : (m >>= fun x => (Pure.pure x : Act S α)) = m := by
  funext t
  show (match m t with | (.ok a, t') => (.ok a, t') | (.error e, t') => (.error e, t')) = m t
  rcases m t with ⟨_ | _, _⟩ <;> rfl

open Classical in
/-- Reads the state only: succeeds if the condition holds. -/
noncomputable def ghost {S : Type} (p : S → Prop) : Act S Unit := fun t => (if p t then .ok () else .error .panic, t)

theorem GF.result {α β : Type} {bounds : List Nat} {Φ : Prop} {m : Oracle F C → Act (PTracker F C) α} {v : CompiledProof F C B → Oracle F C → Act (VSt F C B) β}
    {post : α → PTracker F C → Prop}
    (h : GF E P N Sz (fun H => m H >>= fun x => ghost (post x) >>= fun _ => Pure.pure x) v Γ t bounds Φ) (H : Oracle F C) :
    ∃ x t', m H t = (.ok x, t') ∧ Ext E t t' ∧ post x t' := by
  obtain ⟨bad, h⟩ := h
  obtain ⟨a, t', h1, h2, -⟩ := h H
  obtain ⟨x, t1, e1, e2⟩ := Act.bind_eq_ok.1 h1
  obtain ⟨u, t2, e3, e4⟩ := Act.bind_eq_ok.1 e2
  obtain ⟨-, rfl⟩ := Prod.mk.inj e4
  unfold ghost at e3
  by_cases hp : post x t1
  · rw [if_pos hp] at e3
    obtain ⟨-, rfl⟩ := Prod.mk.inj e3
    exact ⟨x, t1, e1, h2, hp⟩
  · rw [if_neg hp] at e3
    simp at e3

theorem c_ghost {α β : Type} {bounds : List Nat} {Φ : Prop} {x : α} {v : CompiledProof F C B → Oracle F C → Act (VSt F C B) β} {p : PTracker F C → Prop}
    (hr : Ready E.commit t) (hp : p t) (h : GF E P N Sz (fun _ => Pure.pure x) v Γ t bounds Φ) :
    GF E P N Sz (fun _ => ghost p >>= fun _ => Pure.pure x) v Γ t bounds Φ :=
  GF.pstep (m0 := ghost p) (a := ()) (by unfold ghost; rw [if_pos hp]) hr.ext rfl rfl rfl rfl rfl hr h

theorem CsOk.holdsP {nv : Nat} (hr : Ready E.commit t) : ∀ {cs : List TPoly} {is : List Nat} {fs : List (Nat → F)}, CsOk Γ t nv cs is fs → HoldsColsP t nv cs fs
  | [], [], [], _ => trivial
  | _ :: _, _ :: _, _ :: _, h => ⟨h.1.size, h.1.p.holdsP hr, CsOk.holdsP hr h.2⟩
  | [], [], _ :: _, h => h.elim
  | [], _ :: _, _, h => h.elim
  | _ :: _, [], _, h => h.elim
  | _ :: _, _ :: _, [], h => h.elim

theorem TOk.holdsP {tb : Table} {tc : TableComm} {T : TabData F} (hr : Ready E.commit t) (h : TOk Γ t tb tc T) : HoldsTabP t tb T :=
  ⟨h.sel.size, h.sel.p.holdsP hr, h.cols.holdsP hr⟩

variable {a b : Table} {A T O : TabData F} {ai bi : Nat}

/-! ### C81 -/

/-- C81.  Tables with equally many columns and 0/1 selectors; every active row of the second table is an active row of the first. -/
theorem C81_index_transform_complete (h2 : (2 : F) ≠ 0) (hC : CanCommit E.commit N) (hr : Ready E.commit t)
    (ha : HoldsTabP t a A) (hb : HoldsTabP t b O) (hNa : A.nv ≤ N) (hNb : O.nv ≤ N) (hc : O.cols.length = A.cols.length) :
    Completes (B := B) E P N (fun E => IndexTransform.prove E a b) (fun E => IndexTransform.verify E (sameTab a) (sameTab b)) t [0, 2 ^ O.nv + 2 ^ A.nv]
      (fun s => KnownTab s (sameTab a) ∧ KnownTab s (sameTab b)) (fun s => HoldsTab s P N (sameTab a) A ∧ HoldsTab s P N (sameTab b) O)
      (A.Boolean ∧ O.Boolean ∧ ∀ i, O.On i → ∃ j, A.On j ∧ O.row i = A.row j) := by
  have := fun Φ (hΦ : Φ → _) => indexTransform_cmp (B := B) (E := E) (P := P) (N := N) (Sz := True) (Γ := (Facts.none.insTab a A).insTab b O) (Φ := Φ) hr
    (tok_of hr ha (Facts.le_insTab _ _ _)) (tok_of hr hb le_rfl) hNa hNb h2 hC hc hΦ
  have e : 2 ^ (sameTab b).numVars + 2 ^ (sameTab a).numVars = 2 ^ O.nv + 2 ^ A.nv := by
    rw [show (sameTab a).numVars = A.nv from ha.nvSel, show (sameTab b).numVars = O.nv from hb.nvSel]
  rw [e] at this
  exact Cmp.completes (this _ fun ⟨h1, h3, h4⟩ => ⟨h1, h3, fun i hi => let ⟨j, hj, e⟩ := h4 i hi; ⟨j, hj, by rw [e]⟩⟩)
    (fun s hi => known_tab hi.2 (known_tab hi.1 known_none)) fun s hv => holds_tab hv.2 (holds_tab hv.1 holds_none)

/-! ### C82 -/

theorem keysDistinct_of (h : DistinctColumn A ai) : KeysDistinct A ai := by
  unfold KeysDistinct
  refine List.Nodup.map_on (fun x hx y hy e => h x (List.mem_range.1 hx) y (List.mem_range.1 hy) e) List.nodup_range

/-- C82.  The selectors are 0 or 1 and every active row of the second table has a partner; with debug checks the whole key column has no value twice. -/
theorem C82_join_complete (h2 : (2 : F) ≠ 0) (hC : CanCommit E.commit N) (hr : Ready E.commit t)
    (ha : HoldsTabP t a A) (hb : HoldsTabP t b T) (hNa : A.nv ≤ N) (hNb : T.nv ≤ N) (hai : ai < A.cols.length) (hbi : bi < T.cols.length)
    (bA : A.Boolean) (bT : T.Boolean) (hM : Matched A T ai bi) (hk : E.debug = true → DistinctColumn A ai) :
    Completes (B := B) E P N (fun E => FinalJoin.prove E a b ai bi) (fun E => FinalJoin.verify E (sameTab a) (sameTab b) ai bi) t [0, 2 ^ T.nv + 2 ^ A.nv]
      (fun s => KnownTab s (sameTab a) ∧ KnownTab s (sameTab b)) (fun s => HoldsTab s P N (sameTab a) A ∧ HoldsTab s P N (sameTab b) T) True := by
  have := k_finalJoin (B := B) (E := E) (P := P) (N := N) (Sz := True) (Γ := (Facts.none.insTab a A).insTab b T) (Φ := True) (bounds := [])
    (f := fun x _ => Pure.pure x) (g := fun x _ _ => Pure.pure x) hr
    (tok_of hr ha (Facts.le_insTab _ _ _)) (tok_of hr hb le_rfl) hai hbi (fun h => keysDistinct_of (hk h)) hNa hNb h2 hC bA bT hM
    fun ks xs t1 Γ1 x1 _ _ _ _ => GF.pure (b := fun _ => _) x1.ready
  have e : 2 ^ (sameTab b).numVars + 2 ^ (sameTab a).numVars = 2 ^ T.nv + 2 ^ A.nv := by
    rw [show (sameTab a).numVars = A.nv from ha.nvSel, show (sameTab b).numVars = T.nv from hb.nvSel]
  rw [e] at this
  simp only [Act.bind_pure'] at this
  obtain ⟨bad, h⟩ := this
  exact ⟨bad, GFB.completes h (fun s hi => known_tab hi.2 (known_tab hi.1 known_none)) fun s hv => holds_tab hv.2 (holds_tab hv.1 holds_none)⟩

/-- C82, the result: the prover returns the join, whatever the challenges are. -/
theorem C82_join_result (h2 : (2 : F) ≠ 0) (hC : CanCommit E.commit N) (hr : Ready E.commit t)
    (ha : HoldsTabP t a A) (hb : HoldsTabP t b T) (hNa : A.nv ≤ N) (hNb : T.nv ≤ N) (hai : ai < A.cols.length) (hbi : bi < T.cols.length)
    (bA : A.Boolean) (bT : T.Boolean) (hM : Matched A T ai bi) (hk : E.debug = true → DistinctColumn A ai) (H : Oracle F C) :
    ∃ x t' ks, FinalJoin.prove (E.withH H) a b ai bi t = (.ok x, t') ∧ Ready E.commit t' ∧ HoldsTabP t' x (joined A T ks) ∧ IndexColumn A T ai bi ks := by
  have := k_finalJoin (B := Unit) (E := E) (P := fun _ _ => 0) (N := N) (Sz := True) (Γ := (Facts.none.insTab a A).insTab b T) (Φ := True) (bounds := [])
    (f := fun x _ => ghost (fun t' => ∃ ks, HoldsTabP t' x (joined A T ks) ∧ IndexColumn A T ai bi ks) >>= fun _ => Pure.pure x) (g := fun x _ _ => Pure.pure x) hr
    (tok_of hr ha (Facts.le_insTab _ _ _)) (tok_of hr hb le_rfl) hai hbi (fun h => keysDistinct_of (hk h)) hNa hNb h2 hC bA bT hM
    fun ks xs t1 Γ1 x1 _ hI _ k => c_ghost x1.ready ⟨ks, k.holdsP x1.ready, hI⟩ (GF.pure (b := fun _ => _) x1.ready)
  obtain ⟨x, t', h1, h2, ks, h3, h4⟩ := GF.result (post := fun x t' => ∃ ks, HoldsTabP t' x (joined A T ks) ∧ IndexColumn A T ai bi ks) this H
  exact ⟨x, t', ks, h1, h2.ready, h3, h4⟩

/-! ### C80 -/

theorem group_weight {G : BagTab F} (hb : G.Boolean) (hd : G.Nodup) {w : Nat → F} {φ : F → F} (h : ∀ i < 2 ^ G.nv, G.sel i ≠ 0 → w i = φ (G.val i)) (z : F) :
    (G.Active z → G.weight w z = φ z) ∧ (¬ G.Active z → G.weight w z = 0) := by
  constructor
  · rintro ⟨i, hi, hs, hz⟩
    unfold BagTab.weight
    rw [Finset.sum_eq_single i]
    · rw [if_pos hz, h i hi hs, hz, (hb i hi).resolve_left hs, mul_one]
    · intro j hj hji
      have hj := Finset.mem_range.1 hj
      by_cases hsj : G.sel j = 0
      · simp [hsj]
      · rw [if_neg]
        exact fun hjz => hji (hd j hj i hi hsj hs (hjz.trans hz.symm))
    · intro hni
      exact absurd (Finset.mem_range.2 hi) hni
  · intro hn
    by_contra h0
    exact hn (active_of_weight h0)

theorem bag_weight_sum {k c : Nat} (hb : T.Boolean) (z : F) : (T.bag k).weight (T.col c) z = sumAt T k c z := by
  unfold BagTab.weight sumAt
  refine Finset.sum_congr rfl fun j hj => ?_
  have hj := Finset.mem_range.1 hj
  rcases hb j hj with h | h <;> simp [TabData.bag, h]

theorem Spec.GroupsOf.weights {R : GroupData F} (hb : T.Boolean) (h : GroupsOf T R) (hn : NatsNonzero F (2 ^ T.nv)) :
    (∀ z, (T.bag R.key).weight (fun _ => 1) z = R.groups.weight R.mult z) ∧ (∀ i < 2 ^ R.groups.nv, R.groups.sel i ≠ 0 → R.mult i ≠ 0) ∧
    ∀ e ∈ R.aggs, e.2.1 = .sum → ∀ z, (T.bag R.key).weight (T.col e.1) z = R.groups.weight e.2.2 z := by
  have hbb : (T.bag R.key).Boolean := hb
  refine ⟨fun z => ?_, fun i hi hs => ?_, fun e he hs z => ?_⟩
  · have := group_weight h.boolean h.nodup (w := R.mult) (φ := fun z => ((T.bag R.key).count z : F)) h.counts z
    rw [weight_count hbb]
    by_cases hz : R.groups.Active z
    · exact (this.1 hz).symm
    · rw [this.2 hz, count_zero_of fun k => hz ((h.active z).1 k), Nat.cast_zero]
  · rw [h.counts i hi hs]
    exact hn _ (count_pos.2 ((h.active _).2 ⟨i, hi, hs, rfl⟩)) (count_le _ _)
  · have := group_weight h.boolean h.nodup (w := e.2.2) (φ := sumAt T R.key e.1) (h.sums e he hs) z
    by_cases hz : R.groups.Active z
    · rw [this.1 hz, bag_weight_sum hb]
    · rw [this.2 hz]
      by_contra h0
      exact hz ((h.active z).1 (active_of_weight h0))

section
variable {i : GroupInstr TPoly} {R : GroupData F} {range : Bag} {r : Nat} {ρ : Nat → F}

/-- The facts about a request. -/
def Facts.insReq (Γ : Facts F) (i : GroupInstr TPoly) (R : GroupData F) : Facts F :=
  (((Γ.insAggs R.groups.nv i.aggs R.aggs).ins i.supportMult.id R.groups.nv R.mult).ins i.supportSel.id R.groups.nv R.groups.sel).insCols R.groups.nv i.supportCols [R.groups.val]

theorem group_gf' {α β : Type} {bounds : List Nat} {Φ : Prop} {f : Table → Oracle F C → Act (PTracker F C) α} {g : TableComm → CompiledProof F C B → Oracle F C → Act (VSt F C B) β}
    (h2 : (2 : F) ≠ 0) (hC : CanCommit E.commit N) (hr : Ready E.commit t)
    (ha : HoldsTabP t a T) (hi : HoldsRequestP t i R) (hR : HoldsP t range.poly ρ) (hrn : range.poly.numVars = r) (hin : R.InRange T) (hn : T.nv = R.groups.nv)
    (hN : R.groups.nv ≤ N) (hNr : r ≤ N)
    (hSz : Sz → N = R.groups.nv) (hΦ : Φ → (∀ z, (T.bag R.key).weight (fun _ => 1) z = R.groups.weight R.mult z) ∧ (∀ i < 2 ^ R.groups.nv, R.groups.sel i ≠ 0 → R.mult i ≠ 0) ∧
      SortedIn R.groups.nv r R.groups.val R.groups.sel ρ ∧ ∀ e ∈ R.aggs, e.2.1 = .sum → ∀ z, (T.bag R.key).weight (T.col e.1) z = R.groups.weight e.2.2 z)
    (h : ∀ x y t1 Γ1, Ext E t t1 → TOk Γ1 t1 x y R.table → GF E P N Sz (f x) (g y) Γ1 t1 bounds Φ) :
    GF E P N Sz (fun H => GroupBy.proveWithAdvice (E.withH H) a i range >>= fun x => f x H)
      (fun pf H => GroupBy.verifyWithAdvice (E.withH H) (sameTab a) (sameInstr i) (sameBag range) >>= fun x => g x pf H)
      (((Facts.none.ins range.poly.id r ρ).insReq i R).insTab a T) t
      (([2 ^ T.nv + 2 ^ R.groups.nv] ++ hSort R.groups.nv r) ++ (hSums (2 ^ T.nv + 2 ^ R.groups.nv) R ++ bounds)) Φ := by
  obtain ⟨c, hc, hcg⟩ := hi.groups
  set Γ : Facts F := ((Facts.none.ins range.poly.id r ρ).insReq i R).insTab a T with hΓ
  have q4 : (Facts.none.ins range.poly.id r ρ).insReq i R ≤ Γ := Facts.le_insTab _ _ _
  have q3 := (Facts.le_insCols _ _ i.supportCols [R.groups.val]).trans q4
  have q2 := (Facts.le_ins _ _ _ _).trans q3
  have q1 := (Facts.le_ins _ _ _ _).trans q2
  have q0 := (Facts.le_insAggs _ _ _ _).trans q1
  have q4' := q4
  unfold Facts.insReq at q4'
  rw [hc] at q4'
  exact k_groupBy (B := B) (T := T) (Tg := R.groups) (M := R.mult) (fs := R.aggs) (j := sameInstr i) (cr := sameBag range) (isp := c.id) (l := []) (l' := []) (k := R.key) (sp := c) (r := r) (ρ := ρ)
    hr (tok_of hr ha le_rfl) hi.key hi.key hin.1 hc (by simp [sameInstr, hc]) (cok_of hr hcg.nv hcg.val q4') (cok_of hr hcg.nvSel hcg.sel q3) (cok_of hr hi.nvMult hi.mult q2)
    (agOk_of hr hi.aggs hin.2 q1) (cok_of hr hrn hR q0) hrn hn hN hNr h2 hC hSz hΦ fun x y t1 Γ1 x1 _ k1 => h x y t1 Γ1 x1 k1

theorem group_gf {α β : Type} {bounds : List Nat} {f : Table → Oracle F C → Act (PTracker F C) α} {g : TableComm → CompiledProof F C B → Oracle F C → Act (VSt F C B) β}
    (h2 : (2 : F) ≠ 0) (hC : CanCommit E.commit N) (hr : Ready E.commit t)
    (ha : HoldsTabP t a T) (hi : HoldsRequestP t i R) (hR : HoldsP t range.poly ρ) (hrn : range.poly.numVars = r) (hin : R.InRange T) (hn : T.nv = R.groups.nv)
    (hN : R.groups.nv ≤ N) (hNr : r ≤ N) (hSz : Sz → N = R.groups.nv)
    (h : ∀ x y t1 Γ1, Ext E t t1 → TOk Γ1 t1 x y R.table →
      GF E P N Sz (f x) (g y) Γ1 t1 bounds (T.Boolean ∧ GroupsOf T R ∧ NatsNonzero F (2 ^ T.nv) ∧ SortedIn R.groups.nv r R.groups.val R.groups.sel ρ)) :
    GF E P N Sz (fun H => GroupBy.proveWithAdvice (E.withH H) a i range >>= fun x => f x H)
      (fun pf H => GroupBy.verifyWithAdvice (E.withH H) (sameTab a) (sameInstr i) (sameBag range) >>= fun x => g x pf H)
      (((Facts.none.ins range.poly.id r ρ).insReq i R).insTab a T) t
      (([2 ^ T.nv + 2 ^ R.groups.nv] ++ hSort R.groups.nv r) ++ (hSums (2 ^ T.nv + 2 ^ R.groups.nv) R ++ bounds))
      (T.Boolean ∧ GroupsOf T R ∧ NatsNonzero F (2 ^ T.nv) ∧ SortedIn R.groups.nv r R.groups.val R.groups.sel ρ) :=
  group_gf' h2 hC hr ha hi hR hrn hin hn hN hNr hSz (fun ⟨c1, c2, c3, c5⟩ => let ⟨d1, d2, d3⟩ := c2.weights c1 c3; ⟨d1, d2, c5, d3⟩) h

theorem known_req (h : KnownRequest s (sameInstr i)) (hΓ : ∀ i nv T, Γ i nv T → Known s i) : ∀ j m U, Γ.insReq i R j m U → Known s j :=
  known_cols (known_ins h.2.1 (known_ins h.2.2.1 (known_aggs hΓ _ _ h.2.2.2))) _ _ h.1

theorem holds_req (h : HoldsRequest s P N (sameInstr i) R) (hΓ : ∀ i nv T, Γ i nv T → Holds s P N i nv T) : ∀ j m U, Γ.insReq i R j m U → Holds s P N j m U := by
  refine holds_cols (holds_ins h.sel (holds_ins h.mult (holds_aggs hΓ _ _ h.aggs))) _ _ ?_
  obtain ⟨c, h1, h2⟩ := h.groups
  have h1' : i.supportCols.map (·.id) = [c] := h1
  rw [h1']
  exact ⟨h2, trivial⟩

/-- C80.  The groups have the size of the table and are sorted in the range column; the number of rows is smaller than the characteristic.  The claims of the
verifier are true over the hypercube of the groups. -/
theorem C80_group_by_complete_partial (h2 : (2 : F) ≠ 0) (hC : CanCommit E.commit N) (hr : Ready E.commit t)
    (ha : HoldsTabP t a T) (hi : HoldsRequestP t i R) (hR : HoldsP t range.poly ρ) (hrn : range.poly.numVars = r) (hin : R.InRange T) (hn : T.nv = R.groups.nv)
    (hN : R.groups.nv ≤ N) (hNr : r ≤ N) :
    Completes (B := B) E P N (fun E => GroupBy.proveWithAdvice E a i range) (fun E => GroupBy.verifyWithAdvice E (sameTab a) (sameInstr i) (sameBag range)) t
      ([2 ^ T.nv + 2 ^ R.groups.nv] ++ hSort R.groups.nv r ++ hSums (2 ^ T.nv + 2 ^ R.groups.nv) R)
      (fun s => KnownTab s (sameTab a) ∧ KnownRequest s (sameInstr i) ∧ Known s range.poly.id)
      (fun s => HoldsTab s P N (sameTab a) T ∧ HoldsRequest s P N (sameInstr i) R ∧ Holds s P N range.poly.id r ρ)
      (T.Boolean ∧ GroupsOf T R ∧ NatsNonzero F (2 ^ T.nv) ∧ SortedIn R.groups.nv r R.groups.val R.groups.sel ρ) (N = R.groups.nv) := by
  have := group_gf (B := B) (P := P) (Sz := N = R.groups.nv) (bounds := []) (f := fun x _ => Pure.pure x) (g := fun x _ _ => Pure.pure x) h2 hC hr ha hi hR hrn hin hn hN hNr id
    fun x y t1 Γ1 x1 _ => GF.pure (b := fun _ => y) x1.ready
  simp only [Act.bind_pure', List.append_nil] at this
  obtain ⟨bad, h⟩ := this
  exact ⟨bad, GFB.completes h (fun s hi => known_tab hi.1 (known_req hi.2.1 (known_ins hi.2.2 known_none)))
    fun s hv => holds_tab hv.1 (holds_req hv.2.1 (holds_ins hv.2.2 holds_none))⟩

/-- C80, the result: the prover returns the groups with one multiplicity column for each requested count, whatever the challenges are. -/
theorem C80_group_by_result (h2 : (2 : F) ≠ 0) (hC : CanCommit E.commit N) (hr : Ready E.commit t)
    (ha : HoldsTabP t a T) (hi : HoldsRequestP t i R) (hR : HoldsP t range.poly ρ) (hrn : range.poly.numVars = r) (hin : R.InRange T) (hn : T.nv = R.groups.nv)
    (hN : R.groups.nv ≤ N) (hNr : r ≤ N) (H : Oracle F C) :
    ∃ x t', GroupBy.proveWithAdvice (E.withH H) a i range t = (.ok x, t') ∧ Ready E.commit t' ∧ HoldsTabP t' x R.table := by
  have := group_gf (B := Unit) (P := fun _ _ => 0) (Sz := N = R.groups.nv) (bounds := []) (f := fun x _ => ghost (fun t' => HoldsTabP t' x R.table) >>= fun _ => Pure.pure x)
    (g := fun x _ _ => Pure.pure x) h2 hC hr ha hi hR hrn hin hn hN hNr id
    fun x y t1 Γ1 x1 k => c_ghost x1.ready (k.holdsP x1.ready) (GF.pure (b := fun _ => y) x1.ready)
  obtain ⟨x, t', h1, h2, h3⟩ := GF.result (post := fun x t' => HoldsTabP t' x R.table) this H
  exact ⟨x, t', h1, h2.ready, h3⟩

end

namespace REx

/-- Two rows: (5, 10) and (6, 20). -/
def oneSide : TabData G := ⟨1, [Mle.tbl ⟨1, [5, 6]⟩, Mle.tbl ⟨1, [10, 20]⟩], Mle.tbl ⟨1, [1, 1]⟩⟩

/-- The rows (6, 20) and (6, 20). -/
def picked : TabData G := ⟨1, [Mle.tbl ⟨1, [6, 6]⟩, Mle.tbl ⟨1, [20, 20]⟩], Mle.tbl ⟨1, [1, 1]⟩⟩

/-- A table of an example. -/
def tabl (cs : List Nat) (s nv : Nat) : Table := ⟨cs.map fun c => ⟨c, nv⟩, ⟨s, nv⟩⟩

/-- Twice the second row of a table. -/
theorem run_index_transform : ∃ (H : Oracle G (Mle G)) (a : Unit) (t' : PTracker G (Mle G)) (vs : VState G (Mle G) Unit) (b : Unit) (s' : VSt G (Mle G) Unit),
    IndexTransform.prove (env.withH H) (tabl [0, 1] 2 1) (tabl [3, 4] 2 1) (startP env.commit [⟨1, [5, 6]⟩, ⟨1, [10, 20]⟩, ⟨1, [1, 1]⟩, ⟨1, [6, 6]⟩, ⟨1, [20, 20]⟩] PTracker.new) = (.ok a, t') ∧
    VReachable true H vs ∧ IndexTransform.verify (env.withH H) ⟨[0, 1], 2, 1⟩ ⟨[3, 4], 2, 1⟩ vs.st = (.ok b, s') ∧ ClaimsTrue poly 1 s' ∧
    HoldsTab vs.st poly 1 ⟨[0, 1], 2, 1⟩ oneSide ∧ HoldsTab vs.st poly 1 ⟨[3, 4], 2, 1⟩ picked := by
  obtain ⟨H, a, t', vs, b, s', h1, h2, h3, h4, hk, hv⟩ := wholeR (N := 1) [⟨1, [5, 6]⟩, ⟨1, [10, 20]⟩, ⟨1, [1, 1]⟩, ⟨1, [6, 6]⟩, ⟨1, [20, 20]⟩] (by decide) (by decide)
    (fun hr hp => C81_index_transform_complete (a := tabl [0, 1] 2 1) (A := oneSide) (b := tabl [3, 4] 2 1) (O := picked) two_ne (canCommit 1) hr
      ⟨rfl, hp 2 _ rfl, rfl, hp 0 _ rfl, rfl, hp 1 _ rfl, trivial⟩ ⟨rfl, hp 2 _ rfl, rfl, hp 3 _ rfl, rfl, hp 4 _ rfl, trivial⟩ (by decide) (by decide) rfl)
    (by decide)
    ⟨by unfold TabData.Boolean; decide +kernel, by unfold TabData.Boolean; decide +kernel, fun i hi => ⟨1, ⟨by decide, by decide +kernel⟩, by
      obtain ⟨hi, -⟩ := hi
      revert i
      decide +kernel⟩⟩
    (fun s k => ⟨⟨by simpa [tabl, sameTab] using ⟨k 0 _ rfl, k 1 _ rfl⟩, k 2 _ rfl⟩, ⟨by simpa [tabl, sameTab] using ⟨k 3 _ rfl, k 4 _ rfl⟩, k 2 _ rfl⟩⟩)
    (fun s h => ⟨⟨rfl, h 2 _ rfl, h 0 _ rfl, h 1 _ rfl, trivial⟩, ⟨rfl, h 2 _ rfl, h 3 _ rfl, h 4 _ rfl, trivial⟩⟩)
  exact ⟨H, a, t', vs, b, s', h1, h2, h3, h4, ⟨rfl, hv 2 _ rfl, hv 0 _ rfl, hv 1 _ rfl, trivial⟩, ⟨rfl, hv 2 _ rfl, hv 3 _ rfl, hv 4 _ rfl, trivial⟩⟩

/-- Rows with keys 6 and 5 and a second column. -/
def manySide : TabData G := ⟨1, [Mle.tbl ⟨1, [6, 5]⟩, Mle.tbl ⟨1, [7, 8]⟩], Mle.tbl ⟨1, [1, 1]⟩⟩

theorem run_join : ∃ (H : Oracle G (Mle G)) (x : Table) (t' : PTracker G (Mle G)) (vs : VState G (Mle G) Unit) (y : TableComm) (s' : VSt G (Mle G) Unit),
    FinalJoin.prove (env.withH H) (tabl [0, 1] 2 1) (tabl [3, 4] 2 1) 0 0 (startP env.commit [⟨1, [5, 6]⟩, ⟨1, [10, 20]⟩, ⟨1, [1, 1]⟩, ⟨1, [6, 5]⟩, ⟨1, [7, 8]⟩] PTracker.new) = (.ok x, t') ∧
    VReachable true H vs ∧ FinalJoin.verify (env.withH H) ⟨[0, 1], 2, 1⟩ ⟨[3, 4], 2, 1⟩ 0 0 vs.st = (.ok y, s') ∧ ClaimsTrue poly 1 s' ∧
    HoldsTab vs.st poly 1 ⟨[0, 1], 2, 1⟩ oneSide ∧ HoldsTab vs.st poly 1 ⟨[3, 4], 2, 1⟩ manySide := by
  obtain ⟨H, a, t', vs, b, s', h1, h2, h3, h4, hk, hv⟩ := wholeR (N := 1) [⟨1, [5, 6]⟩, ⟨1, [10, 20]⟩, ⟨1, [1, 1]⟩, ⟨1, [6, 5]⟩, ⟨1, [7, 8]⟩] (by decide) (by decide)
    (fun hr hp => C82_join_complete (a := tabl [0, 1] 2 1) (A := oneSide) (b := tabl [3, 4] 2 1) (T := manySide) (ai := 0) (bi := 0) two_ne (canCommit 1) hr
      ⟨rfl, hp 2 _ rfl, rfl, hp 0 _ rfl, rfl, hp 1 _ rfl, trivial⟩ ⟨rfl, hp 2 _ rfl, rfl, hp 3 _ rfl, rfl, hp 4 _ rfl, trivial⟩ (by decide) (by decide) (by decide) (by decide)
      (by unfold TabData.Boolean; decide +kernel) (by unfold TabData.Boolean; decide +kernel)
      (fun i hi => ⟨1 - i, by
        obtain ⟨hi, -⟩ := hi
        unfold TabData.On
        revert i
        decide +kernel⟩) (fun _ => by unfold DistinctColumn; decide +kernel))
    (by decide) trivial
    (fun s k => ⟨⟨by simpa [tabl, sameTab] using ⟨k 0 _ rfl, k 1 _ rfl⟩, k 2 _ rfl⟩, ⟨by simpa [tabl, sameTab] using ⟨k 3 _ rfl, k 4 _ rfl⟩, k 2 _ rfl⟩⟩)
    (fun s h => ⟨⟨rfl, h 2 _ rfl, h 0 _ rfl, h 1 _ rfl, trivial⟩, ⟨rfl, h 2 _ rfl, h 3 _ rfl, h 4 _ rfl, trivial⟩⟩)
  exact ⟨H, a, t', vs, b, s', h1, h2, h3, h4, ⟨rfl, hv 2 _ rfl, hv 0 _ rfl, hv 1 _ rfl, trivial⟩, ⟨rfl, hv 2 _ rfl, hv 3 _ rfl, hv 4 _ rfl, trivial⟩⟩

/-- Two rows with key 3 and the values 10 and 20. -/
def sales : TabData G := ⟨1, [Mle.tbl ⟨1, [3, 3]⟩, Mle.tbl ⟨1, [10, 20]⟩], Mle.tbl ⟨1, [1, 1]⟩⟩

/-- One group with key 3, two rows, and the sum 30. -/
def perKey : GroupData G := ⟨0, ⟨1, Mle.tbl ⟨1, [2, 3]⟩, Mle.tbl ⟨1, [0, 1]⟩⟩, Mle.tbl ⟨1, [0, 2]⟩, [(1, .count, Mle.tbl ⟨1, [0, 2]⟩), (1, .sum, Mle.tbl ⟨1, [0, 30]⟩)]⟩

/-- The request: count and sum. -/
def request : GroupInstr TPoly := ⟨[0], [⟨3, 1⟩], ⟨4, 1⟩, ⟨5, 1⟩, [(1, .count, ⟨5, 1⟩), (1, .sum, ⟨6, 1⟩)]⟩

/-- The committed columns. -/
def groupCols : List (Mle G) := [⟨1, [3, 3]⟩, ⟨1, [10, 20]⟩, ⟨1, [1, 1]⟩, ⟨1, [2, 3]⟩, ⟨1, [0, 1]⟩, ⟨1, [0, 2]⟩, ⟨1, [0, 30]⟩]

theorem perKey_ok : GroupsOf sales perKey :=
  ⟨by decide +kernel, by decide +kernel, by decide +kernel, by decide +kernel, by decide +kernel⟩

theorem run_group : ∃ (H : Oracle G (Mle G)) (x : Table) (t' : PTracker G (Mle G)) (vs : VState G (Mle G) Unit) (y : TableComm) (s' : VSt G (Mle G) Unit),
    GroupBy.proveWithAdvice (env.withH H) (tabl [0, 1] 2 1) request (bag 4 4 1) (startP env.commit groupCols PTracker.new) = (.ok x, t') ∧
    VReachable true H vs ∧ GroupBy.verifyWithAdvice (env.withH H) ⟨[0, 1], 2, 1⟩ (sameInstr request) ⟨4, 4, 1⟩ vs.st = (.ok y, s') ∧ ClaimsTrue poly 1 s' ∧
    HoldsTab vs.st poly 1 ⟨[0, 1], 2, 1⟩ sales ∧ HoldsRequest vs.st poly 1 (sameInstr request) perKey ∧ Holds vs.st poly 1 4 1 (Mle.tbl ⟨1, [0, 1]⟩) := by
  obtain ⟨H, a, t', vs, b, s', h1, h2, h3, h4, hk, hv⟩ := wholeR (N := 1) groupCols (by decide) (by decide)
    (fun hr hp => C80_group_by_complete_partial (a := tabl [0, 1] 2 1) (T := sales) (i := request) (R := perKey) (range := bag 4 4 1) (r := 1) two_ne (canCommit 1) hr
      ⟨rfl, hp 2 _ rfl, rfl, hp 0 _ rfl, rfl, hp 1 _ rfl, trivial⟩
      ⟨rfl, ⟨_, rfl, rfl, rfl, hp 3 _ rfl, hp 4 _ rfl⟩, rfl, hp 5 _ rfl, rfl, rfl, rfl, hp 5 _ rfl, rfl, rfl, rfl, hp 6 _ rfl, trivial⟩ (hp 4 _ rfl) rfl
      ⟨by decide, by decide⟩ rfl (by decide) (by decide))
    (by decide) ⟨by unfold TabData.Boolean; decide +kernel, perKey_ok, natsNonzero_mono natsNonzero (by decide), sortedIn_of (by decide +kernel)⟩
    (fun s k => ⟨⟨by simpa [tabl, sameTab] using ⟨k 0 _ rfl, k 1 _ rfl⟩, k 2 _ rfl⟩,
      ⟨by simpa [request, sameInstr] using k 3 _ rfl, k 4 _ rfl, k 5 _ rfl, by simpa [request, sameInstr] using ⟨k 5 _ rfl, k 6 _ rfl⟩⟩, k 4 _ rfl⟩)
    (fun s h => ⟨⟨rfl, h 2 _ rfl, h 0 _ rfl, h 1 _ rfl, trivial⟩, ⟨rfl, ⟨_, rfl, h 3 _ rfl⟩, h 4 _ rfl, h 5 _ rfl, rfl, rfl, h 5 _ rfl, rfl, rfl, h 6 _ rfl, trivial⟩, h 4 _ rfl⟩)
  exact ⟨H, a, t', vs, b, s', h1, h2, h3, h4, ⟨rfl, hv 2 _ rfl, hv 0 _ rfl, hv 1 _ rfl, trivial⟩,
    ⟨rfl, ⟨_, rfl, hv 3 _ rfl⟩, hv 4 _ rfl, hv 5 _ rfl, rfl, rfl, hv 5 _ rfl, rfl, rfl, hv 6 _ rfl, trivial⟩, hv 4 _ rfl⟩

end REx
end Zksql
