import Verif.Lemmas.HonestSets
import Verif.Lemmas.TabAdvice
/-! Honest runs of the table protocols. -/
set_option linter.unusedSectionVars false
namespace Zksql
open Spec
variable {F C B : Type} [Field F] [DecidableEq F]
variable {E : Env F C} {P : C → List F → F} {N : Nat} {Sz : Prop} {t t1 t2 t' : PTracker F C} {s s1 s' : VSt F C B}
variable {α β α0 β0 : Type} {Γ Γ1 : Facts F} {bounds b1 b2 : List Nat} {Φ Φ' : Prop}

/-- Columns on both sides. -/
def CsOk (Γ : Facts F) (t : PTracker F C) (nv : Nat) : List TPoly → List Nat → List (Nat → F) → Prop
  | [], [], [] => True
  | c :: cs, i :: is, f :: fs => COk Γ t c i nv f ∧ CsOk Γ t nv cs is fs
  | _, _, _ => False

theorem CsOk.mono {nv : Nat} (x : Ext E t t1) (hΓ : Γ ≤ Γ1) : ∀ {cs : List TPoly} {is : List Nat} {fs : List (Nat → F)},
    CsOk Γ t nv cs is fs → CsOk Γ1 t1 nv cs is fs
  | [], [], [], _ => trivial
  | _ :: _, _ :: _, _ :: _, h => ⟨h.1.mono x hΓ, CsOk.mono x hΓ h.2⟩
  | [], [], _ :: _, h => h.elim
  | [], _ :: _, _, h => h.elim
  | _ :: _, [], _, h => h.elim
  | _ :: _, _ :: _, [], h => h.elim

theorem CsOk.length {nv : Nat} : ∀ {cs : List TPoly} {is : List Nat} {fs : List (Nat → F)},
    CsOk Γ t nv cs is fs → cs.length = fs.length ∧ is.length = fs.length
  | [], [], [], _ => ⟨rfl, rfl⟩
  | _ :: _, _ :: _, _ :: _, h => by simpa using CsOk.length h.2
  | [], [], _ :: _, h => h.elim
  | [], _ :: _, _, h => h.elim
  | _ :: _, [], _, h => h.elim
  | _ :: _, _ :: _, [], h => h.elim

theorem CsOk.at {nv : Nat} : ∀ {cs : List TPoly} {is : List Nat} {fs : List (Nat → F)}, CsOk Γ t nv cs is fs → ∀ {k : Nat}, k < fs.length →
    ∃ c i, cs[k]? = some c ∧ is[k]? = some i ∧ COk Γ t c i nv (fs.getD k fun _ => 0)
  | [], [], [], _, k, hk => by simp at hk
  | c :: _, i :: _, f :: _, h, 0, _ => ⟨c, i, rfl, rfl, by simpa using h.1⟩
  | _ :: _, _ :: _, _ :: _, h, k + 1, hk => by
    obtain ⟨c, i, h1, h2, h3⟩ := CsOk.at h.2 (k := k) (by simpa using hk)
    exact ⟨c, i, by simpa using h1, by simpa using h2, by simpa using h3⟩
  | [], [], _ :: _, h, _, _ => h.elim
  | [], _ :: _, _, h, _, _ => h.elim
  | _ :: _, [], _, h, _, _ => h.elim
  | _ :: _, _ :: _, [], h, _, _ => h.elim

theorem CsOk.append {nv : Nat} {ds : List TPoly} {js : List Nat} {gs : List (Nat → F)} (h' : CsOk Γ t nv ds js gs) :
    ∀ {cs : List TPoly} {is : List Nat} {fs : List (Nat → F)}, CsOk Γ t nv cs is fs → CsOk Γ t nv (cs ++ ds) (is ++ js) (fs ++ gs)
  | [], [], [], _ => h'
  | _ :: _, _ :: _, _ :: _, h => ⟨h.1, CsOk.append h' h.2⟩
  | [], [], _ :: _, h => h.elim
  | [], _ :: _, _, h => h.elim
  | _ :: _, [], _, h => h.elim
  | _ :: _, _ :: _, [], h => h.elim

theorem CsOk.sizes {nv : Nat} : ∀ {cs : List TPoly} {is : List Nat} {fs : List (Nat → F)}, CsOk Γ t nv cs is fs → ∀ c ∈ cs, c.numVars = nv
  | [], [], [], _ => by simp
  | c :: cs, _ :: _, _ :: _, h => by
    intro x hx
    rcases List.mem_cons.1 hx with rfl | hx
    · exact h.1.size
    · exact CsOk.sizes h.2 x hx
  | [], [], _ :: _, h => h.elim
  | [], _ :: _, _, h => h.elim
  | _ :: _, [], _, h => h.elim
  | _ :: _, _ :: _, [], h => h.elim

/-- A table on both sides. -/
structure TOk (Γ : Facts F) (t : PTracker F C) (tb : Table) (tc : TableComm) (T : TabData F) : Prop where
  sel : COk Γ t tb.selector tc.selector T.nv T.sel
  nvc : tc.numVars = T.nv
  cols : CsOk Γ t T.nv tb.colVals tc.colVals T.cols

theorem TOk.mono {tb : Table} {tc : TableComm} {T : TabData F} (h : TOk Γ t tb tc T) (x : Ext E t t1) (hΓ : Γ ≤ Γ1) : TOk Γ1 t1 tb tc T :=
  ⟨h.sel.mono x hΓ, h.nvc, h.cols.mono x hΓ⟩

/-! ### Aggregating the columns of a row -/

/-- The value the loop computes for a row. -/
def aggVal : (Nat → F) → List (Nat → F) → List F → Nat → F
  | S, [], _ => S
  | S, _ :: _, [] => S
  | S, T :: Ts, r :: rs => aggVal (fun b => S b * (r * T b)) Ts rs

theorem aggVal_eq (b : Nat) : ∀ (S : Nat → F) (Ts : List (Nat → F)) (rs : List F), Ts.length ≤ rs.length →
    aggVal S Ts rs b = S b * ((rs.take Ts.length).prod * (Ts.map fun T => T b).prod)
  | S, [], rs, _ => by simp [aggVal]
  | S, T :: Ts, [], h => by simp at h
  | S, T :: Ts, r :: rs, h => by
    rw [aggVal, aggVal_eq b _ Ts rs (by simpa using h)]
    simp only [List.length_cons, List.take_succ_cons, List.prod_cons, List.map_cons]
    ring

theorem k_agg {nv : Nat} {f : TPoly → Oracle F C → Act (PTracker F C) α} {g : Nat → CompiledProof F C B → Oracle F C → Act (VSt F C B) β} :
    ∀ {Γ : Facts F} {t : PTracker F C} {a : TPoly} {i : Nat} {S : Nat → F} {cs : List TPoly} {is : List Nat} {Ts : List (Nat → F)} {rs : List F},
    Ready E.commit t → COk Γ t a i nv S → CsOk Γ t nv cs is Ts → Ts.length ≤ rs.length →
    (∀ x j t1 Γ1, Ext E t t1 → Γ ≤ Γ1 → COk Γ1 t1 x j nv (aggVal S Ts rs) → GF E P N Sz (f x) (g j) Γ1 t1 bounds Φ) →
    GF E P N Sz (fun H => IndexTransform.proverAggLoop a cs rs >>= fun x => f x H)
      (fun pf H => IndexTransform.verifierAggLoop i is rs >>= fun x => g x pf H) Γ t bounds Φ
  | Γ, t, a, i, S, [], [], [], rs, hr, ha, _, _, h => by
    simp only [IndexTransform.proverAggLoop, IndexTransform.verifierAggLoop, pure_bind]
    exact h a i t Γ hr.ext (fun _ _ _ h => h) ha
  | Γ, t, a, i, S, c :: cs, j :: is, T :: Ts, [], hr, ha, hc, hl, h => by simp at hl
  | Γ, t, a, i, S, c :: cs, j :: is, T :: Ts, r :: rs, hr, ha, hc, hl, h => by
    simp only [IndexTransform.proverAggLoop, IndexTransform.verifierAggLoop, Act.bind_assoc]
    refine k_mulScalar hr hc.1 fun x t1 Γ1 x1 g1 k1 => ?_
    refine k_mul x1.ready (ha.mono x1 g1) k1 fun y t2 Γ2 x2 g2 k2 => ?_
    have y2 := x1.trans x2
    have z2 := g1.trans g2
    exact k_agg x2.ready k2 (hc.2.mono y2 z2) (by simpa using hl) fun x j t3 Γ3 x3 g3 k3 =>
      h x j t3 Γ3 (y2.trans x3) (z2.trans g3) k3
  | _, _, _, _, _, [], [], _ :: _, _, _, _, h, _, _ => h.elim
  | _, _, _, _, _, [], _ :: _, _, _, _, _, h, _, _ => h.elim
  | _, _, _, _, _, _ :: _, [], _, _, _, _, h, _, _ => h.elim
  | _, _, _, _, _, _ :: _, _ :: _, [], _, _, _, h, _, _ => h.elim

theorem powers_length (r : F) (n : Nat) : (IndexTransform.powers r n).length = n := by simp [IndexTransform.powers]

/-- The bag of aggregated rows. -/
def aggBag (T : TabData F) (rs : List F) : BagTab F := ⟨T.nv, aggVal T.sel T.cols rs, T.sel⟩

theorem k_aggBag {tb : Table} {tc : TableComm} {T : TabData F} {rs : List F} {f : Bag → Oracle F C → Act (PTracker F C) α}
    {g : BagComm → CompiledProof F C B → Oracle F C → Act (VSt F C B) β} (hr : Ready E.commit t) (ht : TOk Γ t tb tc T) (hl : T.cols.length ≤ rs.length)
    (h : ∀ x y t1 Γ1, Ext E t t1 → Γ ≤ Γ1 → BOk Γ1 t1 x y (aggBag T rs) → y.numVars = T.nv → GF E P N Sz (f x) (g y) Γ1 t1 bounds Φ) :
    GF E P N Sz (fun H => IndexTransform.proverAgg (E.withH H) tb rs >>= fun x => f x H)
      (fun pf H => IndexTransform.verifierAgg tc rs >>= fun x => g x pf H) Γ t bounds Φ := by
  unfold IndexTransform.proverAgg IndexTransform.verifierAgg
  simp only [Act.bind_assoc]
  refine k_agg hr ht.sel ht.cols hl fun x j t1 Γ1 x1 g1 k1 => ?_
  have hs := ht.sel.mono x1 g1
  refine k_bagNew (d := E.debug) x1.ready (k1.size.trans hs.size.symm) ?_
  have := k1.bok hs
  refine h ⟨x, tb.selector⟩ ⟨j, tc.selector, tc.numVars⟩ t1 Γ1 x1 g1 ?_ ht.nvc
  rw [ht.nvc]; exact this

/-! ### Index transform -/

theorem pow_prod_ne {r : F} (hr : r ≠ 0) (n m : Nat) : ((IndexTransform.powers r n).take m).prod ≠ 0 := by
  refine List.prod_ne_zero fun h => ?_
  have := List.mem_of_mem_take h
  simp [IndexTransform.powers, hr] at this

theorem indexTransform_cmp {ti tu : Table} {ci co : TableComm} {A O : TabData F} (hr : Ready E.commit t) (hi : TOk Γ t ti ci A) (ho : TOk Γ t tu co O)
    (hNi : A.nv ≤ N) (hNo : O.nv ≤ N) (h2 : (2 : F) ≠ 0) (hC : CanCommit E.commit N) (hc : O.cols.length = A.cols.length)
    (hΦ : Φ → A.Boolean ∧ O.Boolean ∧ ∀ i, O.On i → ∃ j, A.On j ∧ (O.row i).prod = (A.row j).prod) :
    Cmp (B := B) E P N Sz (fun H => IndexTransform.prove (E.withH H) ti tu) (fun H => IndexTransform.verify (E.withH H) ci co) Γ t
      [0, 2 ^ co.numVars + 2 ^ ci.numVars] Φ := by
  intro α β f g b2 h
  unfold IndexTransform.prove IndexTransform.verify IndexTransform.proverPowers IndexTransform.verifierPowers
  simp only [Act.bind_assoc, pure_bind]
  refine c_chal hr ∅ (by simp) fun r t1 x1 => ?_
  have hl := hi.cols.length
  rw [hl.1, hl.2]
  refine k_aggBag x1.ready (hi.mono x1 fun _ _ _ h => h) (by rw [powers_length]) fun ba ca t2 Γ2 x2 g2 k2 n2 => ?_
  have y2 := x1.trans x2
  refine k_aggBag x2.ready (ho.mono y2 g2) (by rw [powers_length, hc]) fun bo cb t3 Γ3 x3 g3 k3 n3 => ?_
  refine GF.weaken (Φ := Φ) ?_ (fun h => h.1)
  have e : 2 ^ co.numVars + 2 ^ ci.numVars = 2 ^ cb.numVars + 2 ^ ca.numVars := by rw [n2, n3, ho.nvc, hi.nvc]
  rw [e]
  refine (inclusion_cmp x3.ready k3 (k2.mono x3 g3) hNo hNi h2 hC fun hφ => ?_).bind fun t4 Γ4 x4 g4 =>
    h t4 Γ4 ((y2.trans x3).trans x4) ((g2.trans g3).trans g4)
  obtain ⟨hA, hO, hR⟩ := hΦ hφ
  refine ⟨hO, hA, ?_⟩
  rintro z ⟨i, hi', hs, hz⟩
  obtain ⟨j, hj, e⟩ := hR i ⟨hi', hs⟩
  refine ⟨j, hj.1, hj.2, ?_⟩
  rw [← hz]
  have e1 : O.sel i = 1 := (hO i hi').resolve_left hs
  have e2 : A.sel j = 1 := (hA j hj.1).resolve_left hj.2
  show aggVal A.sel A.cols _ j = aggVal O.sel O.cols _ i
  rw [aggVal_eq _ _ _ _ (by rw [powers_length]), aggVal_eq _ _ _ _ (by rw [powers_length, hc]), e1, e2, hc]
  have := e
  simp only [TabData.row] at this
  rw [this]

/-! ### One-to-many join -/

theorem k_tableNew {d : Bool} {cs : List TPoly} {b : TPoly} {f : Table → Oracle F C → Act (PTracker F C) α}
    {v : CompiledProof F C B → Oracle F C → Act (VSt F C B) β} (hr : Ready E.commit t) (hn : ∀ c ∈ cs, c.numVars = b.numVars)
    (h : GF E P N Sz (f ⟨cs, b⟩) v Γ t bounds Φ) : GF E P N Sz (fun H => Table.new d cs b >>= fun x => f x H) v Γ t bounds Φ := by
  unfold Table.new
  simp only [Act.bind_assoc]
  exact c_assert hr (fun _ => hn) h

theorem prefixOf_append {γ : Type} {n : Nat} {l m : List γ} (h : l.length = n) : FinalJoin.prefixOf n (l ++ m) = .ok l := by
  unfold FinalJoin.prefixOf
  rw [if_neg (by simp; omega), List.take_append_of_le_length (by omega), List.take_of_length_le (by omega)]

/-- The key column has no value twice. -/
def KeysDistinct (A : TabData F) (ai : Nat) : Prop := ((List.range (2 ^ A.nv)).map (A.col ai)).Nodup

/-- The table with these columns in front. -/
def withCols (Ms : List (Nat → F)) (Tb : TabData F) : TabData F := ⟨Tb.nv, Ms ++ Tb.cols, Tb.sel⟩

section
variable {a b : Table} {ca cb : TableComm} {A Tb : TabData F} {ai bi : Nat} {ta : List TPoly} {ia : List Nat} {Ms : List (Nat → F)}
  {f : Table → Oracle F C → Act (PTracker F C) α} {g : TableComm → CompiledProof F C B → Oracle F C → Act (VSt F C B) β}

theorem c_debugKeys {v : CompiledProof F C B → Oracle F C → Act (VSt F C B) β} {f : Unit → Oracle F C → Act (PTracker F C) α} (hr : Ready E.commit t)
    (ha : TOk Γ t a ca A) (hai : ai < A.cols.length) (hk : E.debug = true → KeysDistinct A ai)
    (h : ∀ t1, Ext E t t1 → GF E P N Sz (f ()) v Γ t1 bounds Φ) :
    GF E P N Sz (fun H => FinalJoin.debugKeys (E.withH H) a ai >>= fun x => f x H) v Γ t bounds Φ := by
  unfold FinalJoin.debugKeys
  change GF E P N Sz (fun H => (if E.debug = true then _ else _) >>= fun x => f x H) v Γ t bounds Φ
  by_cases hd : E.debug = true
  · simp only [hd, if_true, Act.bind_assoc]
    obtain ⟨c, i, e1, -, k⟩ := ha.cols.at hai
    refine c_lift hr (idx_of e1) ?_
    refine c_eval hr k.p fun t1 x1 => ?_
    have : ((List.range (2 ^ c.numVars)).map (A.cols.getD ai fun _ => 0)).Nodup := by rw [k.size]; exact hk hd
    simp only [this, if_true, pure_bind]
    exact h t1 x1
  · simp only [hd, if_false]
    exact h t hr.ext

theorem k_finalJoinAdvice (hr : Ready E.commit t) (ha : TOk Γ t a ca A) (hb : TOk Γ t b cb Tb) (ht : CsOk Γ t Tb.nv ta ia Ms) (hl : Ms.length = A.cols.length)
    (hai : ai < A.cols.length) (hbi : bi < Tb.cols.length) (hk : E.debug = true → KeysDistinct A ai) (hNa : A.nv ≤ N) (hNb : Tb.nv ≤ N) (h2 : (2 : F) ≠ 0)
    (hC : CanCommit E.commit N)
    (hΦ : Φ → A.Boolean ∧ Tb.Boolean ∧ (∀ i, Tb.On i → ∃ j, A.On j ∧ (Ms.map fun m => m i).prod = (A.row j).prod) ∧
      ∀ i, Tb.On i → (Ms.getD ai fun _ => 0) i = Tb.col bi i)
    (h : ∀ t1 Γ1, Ext E t t1 → Γ ≤ Γ1 → TOk Γ1 t1 ⟨ta ++ b.colVals, b.selector⟩ ⟨ia ++ cb.colVals, cb.selector, cb.numVars⟩ (withCols Ms Tb) →
      GF E P N Sz (f ⟨ta ++ b.colVals, b.selector⟩) (g ⟨ia ++ cb.colVals, cb.selector, cb.numVars⟩) Γ1 t1 bounds Φ) :
    GF E P N Sz (fun H => FinalJoin.proveWithAdvice (E.withH H) a b ai bi ta >>= fun x => f x H)
      (fun pf H => FinalJoin.verifyWithAdvice (E.withH H) ca cb ai bi ia >>= fun x => g x pf H) Γ t
      (0 :: (2 ^ cb.numVars + 2 ^ ca.numVars) :: bounds) Φ := by
  unfold FinalJoin.proveWithAdvice FinalJoin.verifyWithAdvice
  simp only [Act.bind_assoc]
  refine c_debugKeys hr ha hai hk fun t1 x1 => ?_
  have la := ha.cols.length
  have lt := ht.length
  have hs := hb.sel.size
  refine k_tableNew x1.ready (fun c hc => ?_) ?_
  · rw [hs]; exact (hb.cols.append ht).sizes c hc
  refine c_lift x1.ready (prefixOf_append (by rw [lt.1, la.1, hl])) ?_
  refine k_tableNew x1.ready (fun c hc => ?_) ?_
  · rw [hs]; exact ht.sizes c hc
  refine c_vlift (x := fun _ => ia) (fun _ => prefixOf_append (by rw [lt.2, la.2, hl])) ?_
  have g0 : Γ ≤ Γ := fun _ _ _ h => h
  have := indexTransform_cmp (B := B) (E := E) (P := P) (N := N) (Sz := Sz) (Φ := Φ) (ti := a) (tu := ⟨ta, b.selector⟩) (ci := ca)
    (co := ⟨ia, cb.selector, cb.numVars⟩) (A := A) (O := ⟨Tb.nv, Ms, Tb.sel⟩) x1.ready (ha.mono x1 g0)
    ⟨hb.sel.mono x1 g0, hb.nvc, ht.mono x1 g0⟩ hNa hNb h2 hC hl fun hφ => by
      obtain ⟨a1, a2, a3, -⟩ := hΦ hφ
      exact ⟨a1, a2, a3⟩
  refine this.bind fun t2 Γ2 x2 g2 => ?_
  have y2 := x1.trans x2
  have hJ : CsOk Γ2 t2 Tb.nv (ta ++ b.colVals) (ia ++ cb.colVals) (Ms ++ Tb.cols) := (hb.cols.append ht).mono y2 g2
  have hS := hb.sel.mono y2 g2
  obtain ⟨p1, i1, e1, d1, k1⟩ := hJ.at (k := ai) (by simp; omega)
  obtain ⟨p2, i2, e2, d2, k2⟩ := hJ.at (k := a.colVals.length + bi) (by rw [la.1]; simp; omega)
  refine c_lift x2.ready (idx_of e1) ?_
  refine c_lift x2.ready (idx_of e2) ?_
  refine c_vlift (x := fun _ => i1) (fun _ => idx_of d1) ?_
  refine c_vlift (x := fun _ => i2) (fun _ => by rw [la.2, ← la.1]; exact idx_of d2) ?_
  refine k_sub x2.ready k1 k2 fun d t3 Γ3 x3 g3 k3 => ?_
  refine k_mul x3.ready k3 (hS.mono x3 g3) fun ck t4 Γ4 x4 g4 k4 => ?_
  have y4 := (y2.trans x3).trans x4
  have z4 := (g2.trans g3).trans g4
  refine k_zero x4.ready k4 (fun hφ i hi => ?_) fun t5 x5 => ?_
  · obtain ⟨-, -, -, a4⟩ := hΦ hφ
    by_cases h0 : Tb.sel i = 0
    · simp [h0]
    · have := a4 i ⟨hi, h0⟩
      have q1 : (Ms ++ Tb.cols).getD ai (fun _ => 0) = Ms.getD ai fun _ => 0 := List.getD_append _ _ _ _ (by omega)
      have q2 : (Ms ++ Tb.cols).getD (a.colVals.length + bi) (fun _ => 0) = Tb.col bi := by
        rw [la.1, List.getD_append_right _ _ _ _ (by omega), hl, Nat.add_sub_cancel_left]; rfl
      simp only [q1, q2, this, sub_self, zero_mul]
  · have g0' : Γ4 ≤ Γ4 := fun _ _ _ h => h
    exact h t5 Γ4 (y4.trans x5) z4 ⟨hS.mono ((x3.trans x4).trans x5) (g3.trans g4), hb.nvc, hJ.mono ((x3.trans x4).trans x5) (g3.trans g4)⟩

/-- Committing columns. -/
theorem k_commitAll {nv : Nat} (hN : nv ≤ N) (hC : CanCommit E.commit N) {f : List TPoly → Oracle F C → Act (PTracker F C) α}
    {g : List Nat → CompiledProof F C B → Oracle F C → Act (VSt F C B) β} :
    ∀ {t : PTracker F C} {Γ : Facts F} (Ts : List (Nat → F)), Ready E.commit t →
    (∀ xs t1 Γ1, Ext E t t1 → Γ ≤ Γ1 → CsOk Γ1 t1 nv xs (xs.map (·.id)) Ts → GF E P N Sz (f xs) (g (xs.map (·.id))) Γ1 t1 bounds Φ) →
    GF E P N Sz (fun H => FinalJoin.commitAll (E.withH H) (Ts.map (tabMle nv)) >>= fun x => f x H)
      (fun pf H => FinalJoin.transferAll (E.withH H) Ts.length >>= fun x => g x pf H) Γ t bounds Φ
  | t, Γ, [], hr, h => by
    simp only [List.map_nil, List.length_nil, FinalJoin.commitAll, FinalJoin.transferAll, pure_bind]
    exact h [] t Γ hr.ext (fun _ _ _ h => h) trivial
  | t, Γ, T :: Ts, hr, h => by
    simp only [List.map_cons, List.length_cons, FinalJoin.commitAll, FinalJoin.transferAll, Act.bind_assoc, pure_bind]
    refine k_commit (d := E.debug) hr rfl hN hC fun x t1 Γ1 x1 g1 k1 => ?_
    exact k_commitAll hN hC (f := fun xs => f (x :: xs)) (g := fun is => g (x.id :: is)) Ts x1.ready fun xs t2 Γ2 x2 g2 k2 =>
      h (x :: xs) t2 Γ2 (x1.trans x2) (g1.trans g2) ⟨k1.mono x2 g2, k2⟩

theorem c_transform {f : List Nat → Oracle F C → Act (PTracker F C) α} {v : CompiledProof F C B → Oracle F C → Act (VSt F C B) β}
    (hr : Ready E.commit t) (ha : TOk Γ t a ca A) (hb : TOk Γ t b cb Tb) (hai : ai < A.cols.length) (hbi : bi < Tb.cols.length)
    (bA : A.Boolean) (bB : Tb.Boolean) (hM : Matched A Tb ai bi)
    (h : ∀ ks t1, Ext E t t1 → IndexColumn A Tb ai bi ks → GF E P N Sz (f ks) v Γ t1 bounds Φ) :
    GF E P N Sz (fun H => FinalJoin.transform a b ai bi >>= fun x => f x H) v Γ t bounds Φ := by
  obtain ⟨m, hm, h1, -⟩ := FinalJoin.keys_core (ai := ai) (bi := bi) bA bB
  obtain ⟨ks, hks, hI⟩ := h1 hM
  obtain ⟨pa, _, ea, _, ka⟩ := ha.cols.at hai
  obtain ⟨pb, _, eb, _, kb⟩ := hb.cols.at hbi
  unfold FinalJoin.transform
  simp only [Act.bind_assoc]
  refine c_lift hr (idx_of ea) ?_
  refine c_eval hr ka.p fun t1 x1 => ?_
  refine c_eval x1.ready (x1.ph ha.sel.p) fun t2 x2 => ?_
  rw [ka.size, ha.sel.size]
  refine c_lift x2.ready hm ?_
  refine c_lift x2.ready (idx_of eb) ?_
  have y2 := x1.trans x2
  refine c_eval x2.ready (y2.ph kb.p) fun t3 x3 => ?_
  refine c_eval x3.ready ((y2.trans x3).ph hb.sel.p) fun t4 x4 => ?_
  rw [kb.size, hb.sel.size]
  refine c_lift x4.ready hks ?_
  exact h ks t4 ((y2.trans x3).trans x4) hI

theorem c_applyAll {f : List (Mle F) → Oracle F C → Act (PTracker F C) α} {v : CompiledProof F C B → Oracle F C → Act (VSt F C B) β}
    {act : TPoly} {S : Nat → F} {ks : List Nat} {nv : Nat} (hl : ks.length = 2 ^ act.numVars)
    (hk : ∀ i < 2 ^ act.numVars, S i ≠ 0 → ks.getD i 0 < 2 ^ nv) (hb : ∀ i < 2 ^ act.numVars, S i = 0 ∨ S i = 1) :
    ∀ {cs : List TPoly} {is : List Nat} {fs : List (Nat → F)} {t : PTracker F C}, Ready E.commit t → PH t act S → CsOk Γ t nv cs is fs →
      (∀ t1, Ext E t t1 → GF E P N Sz (f (fs.map fun f => tabMle act.numVars (moved f ks S))) v Γ t1 bounds Φ) →
      GF E P N Sz (fun H => FinalJoin.applyAll (E.withH H) ks act cs >>= fun x => f x H) v Γ t bounds Φ
  | [], [], [], t, hr, _, _, h => by
    simp only [FinalJoin.applyAll, pure_bind]
    exact h t hr.ext
  | c :: cs, i :: is, T :: fs, t, hr, hs, hc, h => by
    simp only [FinalJoin.applyAll, Act.bind_assoc, pure_bind]
    unfold FinalJoin.applyTransform
    simp only [Act.bind_assoc]
    refine c_eval hr hc.1.p fun t1 x1 => ?_
    refine c_eval x1.ready (x1.ph hs) fun t2 x2 => ?_
    refine c_assert (p := E.debug = true → ((List.range (2 ^ act.numVars)).map S).length = ks.length) x2.ready (fun _ => by simp [hl]) ?_
    have e := FinalJoin.applyLoop_ok (2 ^ nv) T S ks (2 ^ act.numVars) 0 (by omega) (fun j _ h2 => hk j (by omega)) fun j _ h2 => hb j (by omega)
    rw [← List.range_eq_range'] at e
    have ek : (List.range (2 ^ act.numVars)).map (fun j => ks.getD j 0) = ks := by
      refine List.ext_getElem (by simp [hl]) fun i h1 h2 => ?_
      simp [List.getD, h2]
    rw [ek] at e
    rw [hc.1.size]
    refine c_lift x2.ready e ?_
    refine c_lift x2.ready (fromEvals_map rfl _) ?_
    have y2 := x1.trans x2
    exact c_applyAll hl hk hb (f := fun ms => f (tabMle act.numVars (moved T ks S) :: ms)) x2.ready (y2.ph hs) (hc.2.mono y2 fun _ _ _ h => h)
      fun t3 x3 => h t3 (y2.trans x3)
  | [], [], _ :: _, _, _, _, h, _ => h.elim
  | [], _ :: _, _, _, _, _, h, _ => h.elim
  | _ :: _, [], _, _, _, _, h, _ => h.elim
  | _ :: _, _ :: _, [], _, _, _, h, _ => h.elim

theorem k_finalJoin (hr : Ready E.commit t) (ha : TOk Γ t a ca A) (hb : TOk Γ t b cb Tb)
    (hai : ai < A.cols.length) (hbi : bi < Tb.cols.length) (hk : E.debug = true → KeysDistinct A ai) (hNa : A.nv ≤ N) (hNb : Tb.nv ≤ N) (h2 : (2 : F) ≠ 0)
    (hC : CanCommit E.commit N) (bA : A.Boolean) (bB : Tb.Boolean) (hM : Matched A Tb ai bi)
    (h : ∀ ks xs t1 Γ1, Ext E t t1 → Γ ≤ Γ1 → IndexColumn A Tb ai bi ks → CsOk Γ1 t1 Tb.nv xs (xs.map (·.id)) (A.cols.map fun f => moved f ks Tb.sel) →
      TOk Γ1 t1 ⟨xs ++ b.colVals, b.selector⟩ ⟨xs.map (·.id) ++ cb.colVals, cb.selector, cb.numVars⟩ (withCols (A.cols.map fun f => moved f ks Tb.sel) Tb) →
      GF E P N Sz (f ⟨xs ++ b.colVals, b.selector⟩) (g ⟨xs.map (·.id) ++ cb.colVals, cb.selector, cb.numVars⟩) Γ1 t1 bounds Φ) :
    GF E P N Sz (fun H => FinalJoin.prove (E.withH H) a b ai bi >>= fun x => f x H)
      (fun pf H => FinalJoin.verify (E.withH H) ca cb ai bi >>= fun x => g x pf H) Γ t
      (0 :: (2 ^ cb.numVars + 2 ^ ca.numVars) :: bounds) Φ := by
  unfold FinalJoin.prove FinalJoin.verify
  simp only [Act.bind_assoc]
  refine c_transform hr ha hb hai hbi bA bB hM fun ks t1 x1 hI => ?_
  have g0 : Γ ≤ Γ := fun _ _ _ h => h
  have hs := hb.sel.size
  have ha1 := ha.mono x1 g0
  have hb1 := hb.mono x1 g0
  refine c_applyAll (S := Tb.sel) (nv := A.nv) (by rw [hs]; exact hI.1) (fun i hi h0 => ?_) (fun i hi => ?_) x1.ready hb1.sel.p ha1.cols fun t2 x2 => ?_
  · rw [hs] at hi
    exact ((hI.2 i hi).1 h0).1.1
  · rw [hs] at hi
    exact bB i hi
  have y2 := x1.trans x2
  rw [hs, show (A.cols.map fun f => tabMle Tb.nv (moved f ks Tb.sel)) = (A.cols.map fun f => moved f ks Tb.sel).map (tabMle Tb.nv) by rw [List.map_map]; rfl,
    ha.cols.length.2, ← List.length_map (as := A.cols) (f := fun f => moved f ks Tb.sel)]
  refine k_commitAll hNb hC _ x2.ready fun xs t3 Γ3 x3 g3 k3 => ?_
  have y3 := y2.trans x3
  refine k_finalJoinAdvice x3.ready (ha.mono y3 g3) (hb.mono y3 g3) k3 (by simp) hai hbi hk hNa hNb h2 hC (fun _ => ⟨bA, bB, fun i hi => ?_, fun i hi => ?_⟩)
    fun t4 Γ4 x4 g4 k4 => h ks xs t4 Γ4 (y3.trans x4) (g3.trans g4) hI (k3.mono x4 g4) k4
  · refine ⟨ks.getD i 0, ((hI.2 i hi.1).1 hi.2).1, ?_⟩
    rw [List.map_map]
    congr 1
    unfold TabData.row
    refine List.map_congr_left fun c _ => ?_
    simp only [Function.comp, moved, hi.2, ne_eq, not_false_eq_true, if_true]
  · have := ((hI.2 i hi.1).1 hi.2).2.1
    rw [← this]
    have e : ((A.cols.map fun f => moved f ks Tb.sel).getD ai fun _ => 0) = moved (A.col ai) ks Tb.sel := by
      unfold TabData.col
      simp [List.getD, hai]
    rw [e]
    simp only [moved, hi.2, ne_eq, not_false_eq_true, if_true]

end
/-! ### Group by -/

/-- Requested aggregates on both sides. -/
def AgOk (Γ : Facts F) (t : PTracker F C) (nv nc : Nat) : List (Nat × AggType × TPoly) → List (Nat × AggType × Nat) → List (Nat × AggType × (Nat → F)) → Prop
  | [], [], [] => True
  | e :: es, d :: ds, f :: fs => (e.1 = f.1 ∧ d.1 = f.1 ∧ e.2.1 = f.2.1 ∧ d.2.1 = f.2.1 ∧ f.1 < nc ∧ (f.2.1 = .count ∨ f.2.1 = .sum)) ∧
      COk Γ t e.2.2 d.2.2 nv f.2.2 ∧ AgOk Γ t nv nc es ds fs
  | _, _, _ => False

theorem AgOk.mono {nv nc : Nat} (x : Ext E t t1) (hΓ : Γ ≤ Γ1) : ∀ {cs : List (Nat × AggType × TPoly)} {is : List (Nat × AggType × Nat)}
    {fs : List (Nat × AggType × (Nat → F))}, AgOk Γ t nv nc cs is fs → AgOk Γ1 t1 nv nc cs is fs
  | [], [], [], _ => trivial
  | _ :: _, _ :: _, _ :: _, h => ⟨h.1, h.2.1.mono x hΓ, AgOk.mono x hΓ h.2.2⟩
  | [], [], _ :: _, h => h.elim
  | [], _ :: _, _, h => h.elim
  | _ :: _, [], _, h => h.elim
  | _ :: _, _ :: _, [], h => h.elim

theorem AgOk.inRange {nv nc : Nat} : ∀ {cs : List (Nat × AggType × TPoly)} {is : List (Nat × AggType × Nat)}
    {fs : List (Nat × AggType × (Nat → F))}, AgOk Γ t nv nc cs is fs → (cs.any fun e => decide (nc ≤ e.1)) = false ∧ (is.any fun e => decide (nc ≤ e.1)) = false
  | [], [], [], _ => ⟨rfl, rfl⟩
  | e :: _, d :: _, f :: _, h => by
    obtain ⟨a1, a2⟩ := AgOk.inRange h.2.2
    obtain ⟨b1, b2, -, -, b3, -⟩ := h.1
    simp only [List.any_cons, a1, a2, b1, b2, Bool.or_false]
    simp [b3]
  | [], [], _ :: _, h => h.elim
  | [], _ :: _, _, h => h.elim
  | _ :: _, [], _, h => h.elim
  | _ :: _, _ :: _, [], h => h.elim

/-- One challenge for every sum. -/
def sumBounds (D : Nat) (fs : List (Nat × AggType × (Nat → F))) : List Nat := (fs.filter fun e => e.2.1 = .sum).map fun _ => D

/-- The columns the calls return: one multiplicity column for every count. -/
def countCols (M : Nat → F) (fs : List (Nat × AggType × (Nat → F))) : List (Nat → F) := (fs.filter fun e => e.2.1 = .count).map fun _ => M

section
variable {inp : Table} {ci : TableComm} {T : TabData F} {pre grp : Bag} {cpre cgrp : BagComm} {Tp Tg : BagTab F} {mult : TPoly} {im : Nat} {M : Nat → F}
  {nv : Nat}

theorem k_aggs {f : List TPoly → Oracle F C → Act (PTracker F C) α} {g : List Nat → CompiledProof F C B → Oracle F C → Act (VSt F C B) β}
    (hn : T.nv = Tp.nv) (hNp : Tp.nv ≤ N) (hNg : Tg.nv ≤ N) (h2 : (2 : F) ≠ 0) (hC : CanCommit E.commit N) :
    ∀ {Γ : Facts F} {t : PTracker F C} {es : List (Nat × AggType × TPoly)} {ds : List (Nat × AggType × Nat)} {fs : List (Nat × AggType × (Nat → F))}
      {cols : List TPoly} {is : List Nat} {Cs : List (Nat → F)},
    Ready E.commit t → TOk Γ t inp ci T → BOk Γ t pre cpre Tp → BOk Γ t grp cgrp Tg → COk Γ t mult im Tg.nv M → AgOk Γ t Tg.nv T.cols.length es ds fs →
    CsOk Γ t Tg.nv cols is Cs →
    (Φ → ∀ e ∈ fs, e.2.1 = .sum → ∀ z, Tp.weight (T.col e.1) z = Tg.weight e.2.2 z) →
    (∀ x y t1 Γ1, Ext E t t1 → Γ ≤ Γ1 → CsOk Γ1 t1 Tg.nv x y (Cs ++ countCols M fs) → GF E P N Sz (f x) (g y) Γ1 t1 bounds Φ) →
    GF E P N Sz (fun H => GroupBy.proveAggs (E.withH H) inp pre grp mult es cols >>= fun x => f x H)
      (fun pf H => GroupBy.verifyAggs (E.withH H) ci cpre cgrp im ds is >>= fun x => g x pf H) Γ t (sumBounds (2 ^ Tp.nv + 2 ^ Tg.nv) fs ++ bounds) Φ
  | Γ, t, [], [], [], cols, is, Cs, hr, hi, hp, hg, hm, he, hc, hΦ, h => by
    simp only [GroupBy.proveAggs, GroupBy.verifyAggs, pure_bind]
    exact h cols is t Γ hr.ext (fun _ _ _ h => h) (by simpa [countCols] using hc)
  | Γ, t, (c, ty, p) :: es, (c', ty', i) :: ds, (k, ty'', A) :: fs, cols, is, Cs, hr, hi, hp, hg, hm, he, hc, hΦ, h => by
    obtain ⟨⟨e1, e2, e3, e4, e5, e6⟩, e7, e8⟩ := he
    simp only at e1 e2 e3 e4 e5 e6 e7
    subst e1; subst e2; subst e3; subst e4
    rcases e6 with rfl | rfl
    · simp only [GroupBy.proveAggs, GroupBy.verifyAggs]
      have eb : sumBounds (2 ^ Tp.nv + 2 ^ Tg.nv) ((c', AggType.count, A) :: fs) = sumBounds (2 ^ Tp.nv + 2 ^ Tg.nv) fs := by simp [sumBounds]
      rw [eb]
      refine k_aggs hn hNp hNg h2 hC hr hi hp hg hm e8 (cols := cols ++ [mult]) (is := is ++ [im]) (Cs := Cs ++ [M]) (CsOk.append (ds := [mult]) (js := [im]) (gs := [M]) ⟨hm, trivial⟩ hc)
        (fun hφ e he => hΦ hφ e (List.mem_cons_of_mem _ he)) fun x y t1 Γ1 x1 g1 k1 => h x y t1 Γ1 x1 g1 ?_
      have ec : countCols M ((c', AggType.count, A) :: fs) = M :: countCols M fs := by simp [countCols]
      rw [ec]
      simpa using k1
    · simp only [GroupBy.proveAggs, GroupBy.verifyAggs, Act.bind_assoc]
      obtain ⟨q, j, d1, d2, d3⟩ := hi.cols.at e5
      change COk Γ t q j T.nv (T.col c') at d3
      refine c_lift hr (idx_of d1) ?_
      refine c_vlift (x := fun _ => j) (fun _ => idx_of d2) ?_
      have eb : sumBounds (2 ^ Tp.nv + 2 ^ Tg.nv) ((c', AggType.sum, A) :: fs) ++ bounds = [2 ^ Tp.nv + 2 ^ Tg.nv] ++ (sumBounds (2 ^ Tp.nv + 2 ^ Tg.nv) fs ++ bounds) := by
        simp [sumBounds]
      rw [eb]
      have := multitool_cmp (B := B) (E := E) (P := P) (N := N) (Sz := Sz) (Φ := Φ) (Lf := [((pre, q), (cpre, j), (Tp, T.col c'))])
        (Lg := [((grp, p), (cgrp, i), (Tg, A))]) (D := 2 ^ Tp.nv + 2 ^ Tg.nv) hr
        (by simpa using hp.eok (d3.size.trans hn) d3.p (hn ▸ d3.f)) (by simpa using hg.eok e7.size e7.p e7.f) (by simp) (by simp)
        (by simp [hNp, hNg]) h2 hC (fun hφ z => by simpa [Side.total] using hΦ hφ (c', .sum, A) (List.mem_cons_self ..) rfl z) (by simp)
      refine this.bind fun t1 Γ1 x1 g1 => ?_
      refine k_aggs hn hNp hNg h2 hC x1.ready (hi.mono x1 g1) (hp.mono x1 g1) (hg.mono x1 g1) (hm.mono x1 g1) (e8.mono x1 g1) (hc.mono x1 g1)
        (fun hφ e he => hΦ hφ e (List.mem_cons_of_mem _ he)) fun x y t2 Γ2 x2 g2 k2 => h x y t2 Γ2 (x1.trans x2) (g1.trans g2) ?_
      have ec : countCols M ((c', AggType.sum, A) :: fs) = countCols M fs := by simp [countCols]
      rw [ec]
      exact k2
  | _, _, [], [], _ :: _, _, _, _, _, _, _, _, _, h, _, _, _ => h.elim
  | _, _, [], _ :: _, _, _, _, _, _, _, _, _, _, h, _, _, _ => h.elim
  | _, _, _ :: _, [], _, _, _, _, _, _, _, _, _, h, _, _, _ => h.elim
  | _, _, _ :: _, _ :: _, [], _, _, _, _, _, _, _, _, h, _, _, _ => h.elim

theorem validate_ok {H : Type} {nc k : Nat} {sp : H} {i : GroupInstr H} (h1 : i.groupingCols = [k]) (hk : k < nc) (h2 : (i.aggs.any fun e => decide (nc ≤ e.1)) = false)
    {l : List H} (h3 : i.supportCols = sp :: l) : GroupBy.validate nc i = .ok (k, sp) := by
  unfold GroupBy.validate
  rw [h1, h2, h3]
  simp only [List.length_cons, List.length_nil, lt_self_iff_false, if_false]
  rw [show idx [k] 0 = .ok k from rfl]
  show (if nc ≤ k then _ else _) = _
  rw [if_neg (by omega)]
  rfl

theorem k_groupBy {i : GroupInstr TPoly} {j : GroupInstr Nat} {k : Nat} {sp : TPoly} {isp : Nat} {l : List TPoly} {l' : List Nat} {fs : List (Nat × AggType × (Nat → F))}
    {r : Nat} {ρ : Nat → F} {br : Bag} {cr : BagComm}
    {f : Table → Oracle F C → Act (PTracker F C) α} {g : TableComm → CompiledProof F C B → Oracle F C → Act (VSt F C B) β}
    (hr : Ready E.commit t) (hi : TOk Γ t inp ci T) (e1 : i.groupingCols = [k]) (e2 : j.groupingCols = [k]) (hk : k < T.cols.length)
    (e3 : i.supportCols = sp :: l) (e4 : j.supportCols = isp :: l') (hs : COk Γ t sp isp Tg.nv Tg.val) (hsel : COk Γ t i.supportSel j.supportSel Tg.nv Tg.sel)
    (hm : COk Γ t i.supportMult j.supportMult Tg.nv M) (ha : AgOk Γ t Tg.nv T.cols.length i.aggs j.aggs fs) (hR : COk Γ t br.poly cr.poly r ρ) (hcr : cr.numVars = r)
    (hn : T.nv = Tg.nv) (hN : Tg.nv ≤ N) (hNr : r ≤ N) (h2 : (2 : F) ≠ 0) (hC : CanCommit E.commit N)
    (hSz : Sz → N = Tg.nv)
    (hΦ : Φ → (∀ z, (T.bag k).weight (fun _ => 1) z = Tg.weight M z) ∧ (∀ i < 2 ^ Tg.nv, Tg.sel i ≠ 0 → M i ≠ 0) ∧ SortedIn Tg.nv r Tg.val Tg.sel ρ ∧
      ∀ e ∈ fs, e.2.1 = .sum → ∀ z, (T.bag k).weight (T.col e.1) z = Tg.weight e.2.2 z)
    (h : ∀ x y t1 Γ1, Ext E t t1 → Γ ≤ Γ1 → TOk Γ1 t1 x y ⟨Tg.nv, Tg.val :: countCols M fs, Tg.sel⟩ → GF E P N Sz (f x) (g y) Γ1 t1 bounds Φ) :
    GF E P N Sz (fun H => GroupBy.proveWithAdvice (E.withH H) inp i br >>= fun x => f x H)
      (fun pf H => GroupBy.verifyWithAdvice (E.withH H) ci j cr >>= fun x => g x pf H) Γ t
      (([2 ^ T.nv + 2 ^ Tg.nv] ++ hSort Tg.nv r) ++ (sumBounds (2 ^ T.nv + 2 ^ Tg.nv) fs ++ bounds)) Φ := by
  unfold GroupBy.proveWithAdvice GroupBy.verifyWithAdvice
  simp only [Act.bind_assoc]
  have hl := hi.cols.length
  obtain ⟨r1, r2⟩ := ha.inRange
  refine c_lift hr (validate_ok e1 (by rw [hl.1]; exact hk) (by rw [hl.1]; exact r1) e3) ?_
  refine c_vlift (x := fun _ => (k, isp)) (fun _ => validate_ok e2 (by rw [hl.2]; exact hk) (by rw [hl.2]; exact r2) e4) ?_
  obtain ⟨q, jq, d1, d2, d3⟩ := hi.cols.at hk
  refine c_lift hr (idx_of d1) ?_
  refine c_vlift (x := fun _ => jq) (fun _ => idx_of d2) ?_
  refine k_bagNew (d := E.debug) hr (d3.size.trans hi.sel.size.symm) ?_
  refine k_bagNew (d := E.debug) hr (hs.size.trans hsel.size.symm) ?_
  have hb1 : BOk Γ t ⟨q, inp.selector⟩ ⟨jq, ci.selector, ci.numVars⟩ (T.bag k) := by rw [hi.nvc]; exact d3.bok hi.sel
  have hb2 : BOk Γ t ⟨sp, i.supportSel⟩ ⟨isp, j.supportSel, ci.numVars⟩ Tg := by rw [hi.nvc, hn]; exact hs.bok hsel
  refine (suppAdvice_cmp (B := B) (E := E) (P := P) (Φ := Φ) hr hb1 hb2 hm hR hcr (by show T.nv ≤ N; omega) hN hNr h2 hC hSz fun hφ => ?_).bind fun t1 Γ1 x1 g1 => ?_
  · obtain ⟨a1, a2, a4, -⟩ := hΦ hφ
    exact ⟨a1, a2, a4⟩
  refine k_tableNew (d := E.debug) x1.ready (by simp [hs.size, hsel.size]) ?_
  have ee : [sp] = (⟨[sp], i.supportSel⟩ : Table).colVals := rfl
  refine k_aggs (T := T) (Tp := T.bag k) (Cs := [Tg.val]) rfl (by show T.nv ≤ N; omega) hN h2 hC x1.ready (hi.mono x1 g1) (hb1.mono x1 g1) (hb2.mono x1 g1) (hm.mono x1 g1)
    (ha.mono x1 g1) ⟨hs.mono x1 g1, trivial⟩ (fun hφ => (hΦ hφ).2.2.2) fun x y t2 Γ2 x2 g2 k2 => ?_
  refine h ⟨x, i.supportSel⟩ ⟨y, j.supportSel, ci.numVars⟩ t2 Γ2 (x1.trans x2) (g1.trans g2) ⟨hsel.mono (x1.trans x2) (g1.trans g2), hi.nvc.trans hn, ?_⟩
  exact k2

end
end Zksql
