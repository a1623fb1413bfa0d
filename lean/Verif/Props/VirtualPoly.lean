import Verif.Lemmas.Eq
import Verif.Props.Arith
/-!
# Properties C10-C15: virtual polynomials and the eq polynomial

`Spec.VpHist` (Verif/Spec/VirtualPoly.lean) is a history of API calls; `VpHist.value` is the polynomial it denotes.
-/
namespace Zksql
open Spec
variable {F : Type} [Field F]

theorem VpHist_run_inv (heap : Nat → Mle F) (h : VpHist F) (hc : h.Consistent heap) :
    ∀ vp, h.run = .ok vp → VirtPoly.Inv heap vp ∧ vp.numVariables = h.nv ∧ ∀ pt, vp.polyVal pt = h.value pt := by
  induction h with
  | empty n =>
    intro vp hr
    cases hr
    exact ⟨VirtPoly.inv_new heap n, rfl, fun pt => rfl⟩
  | ofMle a c =>
    intro vp hr
    cases hr
    refine ⟨VirtPoly.inv_newFromMle c hc, rfl, fun pt => ?_⟩
    simp [VirtPoly.polyVal, VirtPoly.prodsVal, VirtPoly.newFromMle, VirtPoly.tblAt, VpHist.value]
  | addList h l c ih =>
    intro vp hr
    simp only [VpHist.run] at hr
    rcases hh : h.run with e | v
    · rw [hh] at hr; cases hr
    · rw [hh] at hr
      cases hr
      obtain ⟨i1, i2, i3⟩ := ih hc.1 v hh
      obtain ⟨s1, s2, s3, s4⟩ := VirtPoly.addMleList_spec l v c i1 hc.2
      refine ⟨s1, s2.trans i2, fun pt => ?_⟩
      simp only [VpHist.value]
      rw [← i2, ← i3 pt]
      split
      · next hcond => exact (s3 hcond).2.2 pt
      · next hcond => exact (s4 hcond).2.2 pt
  | mul h a c ih =>
    intro vp hr
    simp only [VpHist.run] at hr
    rcases hh : h.run with e | v
    · rw [hh] at hr; cases hr
    · rw [hh] at hr
      cases hr
      obtain ⟨i1, i2, i3⟩ := ih hc.1 v hh
      obtain ⟨s1, s2, s3, s4⟩ := VirtPoly.mulByMle_spec v a c i1 hc.2
      refine ⟨s1, s2.trans i2, fun pt => ?_⟩
      simp only [VpHist.value]
      rw [← i2, ← i3 pt]
      split
      · next hcond => exact (s3 hcond).2.2 pt
      · next hcond => rw [s4 hcond]
  | add h₁ h₂ ih₁ ih₂ =>
    intro vp hr
    simp only [VpHist.run] at hr
    rcases hh : h₁.run with e | v₁
    · rw [hh] at hr; cases hr
    · rcases hh2 : h₂.run with e | v₂
      · rw [hh, hh2] at hr; cases hr
      · rw [hh, hh2] at hr
        obtain ⟨i1, i2, i3⟩ := ih₁ hc.1 v₁ hh
        obtain ⟨j1, j2, j3⟩ := ih₂ hc.2 v₂ hh2
        obtain ⟨s1, s2, _, s4⟩ := (VirtPoly.add_spec v₁ v₂ i1 j1).2.2 vp hr
        exact ⟨s1, s2.trans i2, fun pt => by rw [s4, i3, j3]; rfl⟩

/-! ## C10 -/

/-- C10: whatever the history of calls (including rejected ones), the resulting polynomial evaluates to what the history
denotes. -/
theorem C10_evaluate_history (heap : Nat → Mle F) (h : VpHist F) (hc : h.Consistent heap) (vp : VirtPoly F)
    (hr : h.run = .ok vp) (pt : List F) (hpt : pt.length = h.nv) : vp.evaluate pt = .ok (h.value pt) := by
  obtain ⟨h1, h2, h3⟩ := VpHist_run_inv heap h hc vp hr
  rw [VirtPoly.evaluate_ok h1 pt (by rw [hpt, h2]), h3]

/-- C10: a point of the wrong length is rejected. -/
theorem C10_evaluate_wrong_length (vp : VirtPoly F) (pt : List F) (hpt : pt.length ≠ vp.numVariables) :
    vp.evaluate pt = .error (.err .invalidParameters) := by
  rw [VirtPoly.evaluate, if_pos (Ne.symm hpt)]

/-- C10: the only panic in a history is `+` on polynomials of different sizes. -/
theorem C10_add_succeeds (heap : Nat → Mle F) (h₁ h₂ : VpHist F) (hc : (VpHist.add h₁ h₂).Consistent heap)
    (v₁ v₂ : VirtPoly F) (hr₁ : h₁.run = .ok v₁) (hr₂ : h₂.run = .ok v₂) (hnv : h₁.nv = h₂.nv) :
    ∃ v, (VpHist.add h₁ h₂).run = .ok v := by
  obtain ⟨i1, i2, _⟩ := VpHist_run_inv heap h₁ hc.1 v₁ hr₁
  obtain ⟨j1, j2, _⟩ := VpHist_run_inv heap h₂ hc.2 v₂ hr₂
  obtain ⟨v, hv⟩ := (VirtPoly.add_spec v₁ v₂ i1 j1).1 (Or.inl (by rw [i2, j2, hnv]))
  exact ⟨v, by simp only [VpHist.run, hr₁, hr₂]; exact hv⟩

/-- A non-trivial history with a shared table, a rejected call, a product and a sum. -/
def exHist : VpHist (ZMod 7) :=
  let a : ArcMle (ZMod 7) := ⟨10, ⟨1, [1, 2]⟩⟩
  let b : ArcMle (ZMod 7) := ⟨11, ⟨1, [3, 5]⟩⟩
  let big : ArcMle (ZMod 7) := ⟨12, ⟨2, [3, 5, 1, 1]⟩⟩
  .add (.mul (.addList (.addList (.empty 1) [a, b, a] 2) [b, big] 3) b 4) (.ofMle a 5)

example : (exHist.run.bind fun vp => vp.evaluate [3]) = .ok (exHist.value [3]) ∧ exHist.nv = 1 := by decide

/-! ## C11 -/

/-- C11: bookkeeping of every reachable polynomial. -/
theorem C11_bookkeeping (heap : Nat → Mle F) (h : VpHist F) (hc : h.Consistent heap) (vp : VirtPoly F)
    (hr : h.run = .ok vp) :
    (∀ p ∈ vp.products, p.2 ≠ [] ∧ p.2.length ≤ vp.maxDegree ∧ ∀ i ∈ p.2, i < vp.flat.length) ∧
    (∀ a ∈ vp.flat, a.mle.WF ∧ a.mle.numVars = vp.numVariables) ∧ vp.numVariables = h.nv := by
  obtain ⟨h1, h2, _⟩ := VpHist_run_inv heap h hc vp hr
  exact ⟨fun p hp => ⟨h1.ne_ok p hp, h1.deg_ok p hp, h1.idx_ok p hp⟩,
    fun a ha => ⟨(h1.flat_ok a ha).2.1, (h1.flat_ok a ha).2.2⟩, h2⟩

/-- C11: no table is stored twice. -/
theorem C11_no_duplicate_tables (heap : Nat → Mle F) (h : VpHist F) (hc : h.Consistent heap) (vp : VirtPoly F)
    (hr : h.run = .ok vp) : (vp.flat.map (·.ptr)).Nodup := by
  obtain ⟨h1, _, _⟩ := VpHist_run_inv heap h hc vp hr
  rw [List.nodup_iff_getElem?_ne_getElem?]
  intro i j hij hj he
  have hj' : j < vp.flat.length := by simpa using hj
  have hi' : i < vp.flat.length := by omega
  rw [List.getElem?_map, List.getElem?_map, List.getElem?_eq_getElem hi', List.getElem?_eq_getElem hj'] at he
  simp only [Option.map_some, Option.some.injEq] at he
  have e1 := (h1.table_ok (vp.flat[i]).ptr i).2 ⟨_, List.getElem?_eq_getElem hi', rfl⟩
  have e2 := (h1.table_ok (vp.flat[i]).ptr j).2 ⟨_, List.getElem?_eq_getElem hj', he.symm⟩
  rw [e1] at e2
  have := Option.some.inj e2
  omega

/-- C11: evaluation at a point of the right length never fails. -/
theorem C11_evaluate_total (heap : Nat → Mle F) (h : VpHist F) (hc : h.Consistent heap) (vp : VirtPoly F)
    (hr : h.run = .ok vp) (pt : List F) (hpt : pt.length = vp.numVariables) : ∃ v, vp.evaluate pt = .ok v := by
  obtain ⟨h1, h2, _⟩ := VpHist_run_inv heap h hc vp hr
  exact ⟨_, VirtPoly.evaluate_ok h1 pt hpt⟩

/-- C11: the degree bookkeeping of the two mutating calls. -/
theorem C11_degrees (heap : Nat → Mle F) (h : VpHist F) (hc : h.Consistent heap) (vp : VirtPoly F)
    (hr : h.run = .ok vp) (a : ArcMle F) (l : List (ArcMle F)) (c : F)
    (ha : a.mle = heap a.ptr ∧ a.mle.WF) (hl : ∀ a ∈ l, a.mle = heap a.ptr ∧ a.mle.WF)
    (hn : a.mle.numVars = h.nv) (hne : l ≠ []) (hln : ∀ a ∈ l, a.mle.numVars = h.nv) :
    (vp.addMleList l c).2.maxDegree = max vp.maxDegree l.length ∧
    (vp.mulByMle a c).2.maxDegree = vp.maxDegree + 1 := by
  obtain ⟨h1, h2, _⟩ := VpHist_run_inv heap h hc vp hr
  exact ⟨((VirtPoly.addMleList_spec l vp c h1 hl).2.2.1 ⟨hne, fun b hb => by rw [hln b hb, h2]⟩).2.1,
    ((VirtPoly.mulByMle_spec vp a c h1 ha).2.2.1 (by rw [hn, h2])).2.1⟩

/-- Heap of `exHist`. -/
def exHeap : Nat → Mle (ZMod 7)
  | 10 => ⟨1, [1, 2]⟩
  | 11 => ⟨1, [3, 5]⟩
  | 12 => ⟨2, [3, 5, 1, 1]⟩
  | _ => ⟨0, [0]⟩

example : exHist.Consistent exHeap ∧ exHist.run.toOption.isSome := by
  refine ⟨?_, by decide⟩
  simp [exHist, VpHist.Consistent, exHeap, Mle.WF]

/-! ## C12 -/

/-- C12 as stated: a rejected `add_mle_list` leaves the polynomial as it was. -/
def C12_statement (F : Type) [Field F] : Prop :=
  ∀ (vp : VirtPoly F) (l : List (ArcMle F)) (c : F) (e : Fail),
    (vp.addMleList l c).1 = .error e → (vp.addMleList l c).2 = vp

/-- C12 is false: `max_degree` and the stored tables change before the size check fails. -/
theorem C12_violated : ¬ C12_statement F := by
  intro h
  have := h (VirtPoly.new 1) [⟨0, ⟨1, [0, 0]⟩⟩, ⟨1, ⟨2, [0, 0, 0, 0]⟩⟩] 1 (.err .invalidParameters)
    (by simp [VirtPoly.addMleList, VirtPoly.addLoop, VirtPoly.new])
  simp [VirtPoly.addMleList, VirtPoly.addLoop, VirtPoly.new] at this

/-- C12, what holds: a rejected call keeps the products, the number of variables and every evaluation.  Missing: `max_degree`
and the table store may change. -/
theorem C12_rejected_add_same_value_partial (heap : Nat → Mle F) (h : VpHist F) (hc : h.Consistent heap)
    (vp : VirtPoly F) (hr : h.run = .ok vp) (l : List (ArcMle F)) (c : F)
    (hl : ∀ a ∈ l, a.mle = heap a.ptr ∧ a.mle.WF) (e : Fail) (he : (vp.addMleList l c).1 = .error e) :
    (vp.addMleList l c).2.products = vp.products ∧ (vp.addMleList l c).2.numVariables = vp.numVariables ∧
    ∀ pt, (vp.addMleList l c).2.evaluate pt = vp.evaluate pt := by
  obtain ⟨h1, h2, _⟩ := VpHist_run_inv heap h hc vp hr
  obtain ⟨s1, s2, s3, s4⟩ := VirtPoly.addMleList_spec l vp c h1 hl
  have hcond : ¬ (l ≠ [] ∧ ∀ a ∈ l, a.mle.numVars = vp.numVariables) := by
    intro hcond
    rw [(s3 hcond).1] at he
    cases he
  obtain ⟨_, t2, t3⟩ := s4 hcond
  refine ⟨t2, s2, fun pt => ?_⟩
  by_cases hpt : pt.length = vp.numVariables
  · rw [VirtPoly.evaluate_ok h1 pt hpt, VirtPoly.evaluate_ok s1 pt (by rw [hpt, s2]), t3]
  · rw [C10_evaluate_wrong_length _ _ hpt, C10_evaluate_wrong_length _ _ (by rw [s2]; exact hpt)]

/-- C12: an empty list is rejected without any change, and so is every rejected `mul_by_mle`. -/
theorem C12_atomic_cases_partial (vp : VirtPoly F) (c : F) (a : ArcMle F) :
    vp.addMleList [] c = (.error (.err .invalidParameters), vp) ∧
    (a.mle.numVars ≠ vp.numVariables → vp.mulByMle a c = (.error (.err .invalidParameters), vp)) := by
  constructor
  · simp [VirtPoly.addMleList]
  · intro h
    rw [VirtPoly.mulByMle, if_pos h]

/-- C12: exactly which lists are rejected. -/
theorem C12_rejected_iff (heap : Nat → Mle F) (h : VpHist F) (hc : h.Consistent heap) (vp : VirtPoly F)
    (hr : h.run = .ok vp) (l : List (ArcMle F)) (c : F) (hl : ∀ a ∈ l, a.mle = heap a.ptr ∧ a.mle.WF) :
    (vp.addMleList l c).1 = .ok () ↔ l ≠ [] ∧ ∀ a ∈ l, a.mle.numVars = h.nv := by
  obtain ⟨h1, h2, _⟩ := VpHist_run_inv heap h hc vp hr
  obtain ⟨s1, s2, s3, s4⟩ := VirtPoly.addMleList_spec l vp c h1 hl
  rw [h2] at s3 s4
  constructor
  · intro hok
    by_contra hcond
    rw [(s4 hcond).1] at hok
    cases hok
  · intro hcond
    exact (s3 hcond).1

example : ((VirtPoly.new 1 : VirtPoly (ZMod 7)).addMleList [⟨0, ⟨1, [0, 3]⟩⟩, ⟨1, ⟨2, [0, 0, 0, 0]⟩⟩] 1)
    = (.error (.err .invalidParameters), ⟨2, 1, [], [⟨0, ⟨1, [0, 3]⟩⟩], [(0, 0)]⟩) := by decide

/-! ## C13 -/

theorem VirtPoly_materialize_spec {heap : Nat → Mle F} {vp : VirtPoly F} (h1 : VirtPoly.Inv heap vp) :
    ∃ m, vp.materialize = .ok m ∧ m.WF ∧ m.numVars = vp.numVariables ∧
      ∀ i < 2 ^ vp.numVariables, m.tbl i = vp.polyVal (boolPt vp.numVariables i) := by
  have hm : ((List.range (2 ^ vp.numVariables)).mapM fun pt =>
      VirtPoly.combine vp.products fun i => do
        let a ← idx vp.flat i
        idx a.mle.evals pt) = .ok ((List.range (2 ^ vp.numVariables)).map fun i =>
          vp.polyVal (boolPt vp.numVariables i)) := by
    apply mapM_ok
    intro pt hpt
    rw [List.mem_range] at hpt
    rw [VirtPoly.combine_ok _ _ (fun i => mle (vp.tblAt i) (boolPt vp.numVariables pt))]
    · rfl
    · intro p hp i hi
      have hlt := h1.idx_ok p hp i hi
      obtain ⟨_, hw, hn⟩ := h1.flat_ok _ (List.getElem_mem hlt)
      have hpl : pt < (vp.flat[i]).mle.evals.length := by rw [hw, hn]; exact hpt
      rw [mle_boolPt _ _ _ hpt]
      simp [idx, hlt, VirtPoly.tblAt, bind, Except.bind, Mle.tbl, hpl]
  refine ⟨⟨vp.numVariables, (List.range (2 ^ vp.numVariables)).map fun i =>
          vp.polyVal (boolPt vp.numVariables i)⟩, ?_, by simp [Mle.WF], rfl, ?_⟩
  · unfold VirtPoly.materialize
    rw [hm]
    show Mle.fromEvals _ _ = _
    rw [Mle.fromEvals, if_pos (by simp)]
  · intro i hi
    simp only [Mle.tbl]
    rw [getD_map_range _ _ _ _ hi]

/-- C13: materialising keeps every hypercube value, and succeeds on every reachable polynomial. -/
theorem C13_materialize (heap : Nat → Mle F) (h : VpHist F) (hc : h.Consistent heap) (vp : VirtPoly F)
    (hr : h.run = .ok vp) :
    ∃ m, vp.materialize = .ok m ∧ m.WF ∧ m.numVars = h.nv ∧
      ∀ i < 2 ^ h.nv, vp.evaluate (boolPt h.nv i) = .ok (m.tbl i) ∧ m.tbl i = h.value (boolPt h.nv i) := by
  obtain ⟨h1, h2, h3⟩ := VpHist_run_inv heap h hc vp hr
  obtain ⟨m, m1, m2, m3, m4⟩ := VirtPoly_materialize_spec h1
  rw [h2] at m3 m4
  refine ⟨m, m1, m2, m3, fun i hi => ?_⟩
  rw [C10_evaluate_history heap h hc vp hr _ (by simp), m4 i hi, h3]
  exact ⟨rfl, rfl⟩

example : (exHist.run.bind fun vp => vp.materialize) = .ok ⟨1, [0, 5]⟩ := by decide

/-! ## C14 -/

/-- C14: `build_eq_x_r` builds the table of `eq(., r)`: at every point it evaluates to `∏(x_j r_j + (1-x_j)(1-r_j))`, which is
what `eq_eval` computes. -/
theorem C14_build_eq (r : List F) (hr : r ≠ []) :
    ∃ m, buildEq r = .ok m ∧ m.WF ∧ m.numVars = r.length ∧
      (∀ x : List F, x.length = r.length → m.evaluate x = some (eqPoly x r) ∧ eqEval x r = .ok (eqPoly x r)) ∧
      (∀ i < 2 ^ r.length, m.tbl i = eqPoly (boolPt r.length i) r) ∧
      cubeSum r.length m.tbl = 1 := by
  refine ⟨eqMle r, buildEq_spec r hr, eqMle_wf r, rfl, ?_, ?_, ?_⟩
  · intro x hx
    refine ⟨?_, eqEval_eq x r hx⟩
    rw [evaluate_eq _ (eqMle_wf r) x hx, ← mle_eqWeight r x hx]
    congr 1
    exact mle_congr x (fun i hi => eqMle_tbl r i (by rw [← hx]; exact hi))
  · intro i hi
    rw [eqMle_tbl r i hi, ← mle_eqWeight r _ (by simp), mle_boolPt _ _ _ hi]
  · rw [← sum_eqWeight r]
    exact Finset.sum_congr rfl (fun i hi => eqMle_tbl r i (Finset.mem_range.1 hi))

/-- C14: on Boolean points `eq` is the indicator of equality. -/
theorem C14_eq_boolean (n i j : Nat) (hi : i < 2 ^ n) (hj : j < 2 ^ n) :
    eqEval (boolPt (F := F) n i) (boolPt n j) = .ok (if i = j then 1 else 0) := by
  rw [eqEval_eq _ _ (by simp), ← mle_eqWeight _ _ (by simp), mle_boolPt _ _ _ hi, eqWeight_boolPt n j i hj hi]
  congr 1
  simp [eq_comm]

/-- C14: rejected inputs. -/
theorem C14_rejects (x y : List F) (h : x.length ≠ y.length) :
    eqEval x y = .error (.err .invalidParameters) ∧ buildEq ([] : List F) = .error (.err .invalidParameters) := by
  constructor
  · rw [eqEval, if_pos h]
  · rfl

example : buildEq ([2, 3] : List (ZMod 7)) = .ok ⟨2, [2, 3, 4, 6]⟩ := by decide

/-- C14: the per-coordinate tables of `eq_extension` multiply to the eq table. -/
theorem C14_eq_extension (t : List F) :
    ∃ ms, eqExtension t = .ok ms ∧ ms.length = t.length ∧ (∀ m ∈ ms, m.WF ∧ m.numVars = t.length) ∧
      ∀ i < 2 ^ t.length, (ms.map fun m => m.tbl i).prod = eqPoly (boolPt t.length i) t := by
  refine ⟨(List.range t.length).map fun i => ⟨t.length, (List.range (2 ^ t.length)).map fun x =>
      t.getD i 0 * (if x.testBit i then 1 else 0) + t.getD i 0 * (if x.testBit i then 1 else 0)
        - (if x.testBit i then 1 else 0) - t.getD i 0 + 1⟩, ?_, by simp, ?_, ?_⟩
  · unfold eqExtension
    apply mapM_ok
    intro i _
    rw [Mle.fromEvals, if_pos (by simp)]
  · intro m hm
    obtain ⟨i, _, rfl⟩ := List.mem_map.1 hm
    exact ⟨by simp [Mle.WF], rfl⟩
  · intro i hi
    rw [List.map_map, list_prod_range]
    unfold eqPoly
    rw [boolPt_length]
    apply Finset.prod_congr rfl
    intro j hj
    simp only [Function.comp, Mle.tbl]
    rw [getD_map_range _ _ _ _ hi]
    unfold boolPt
    rw [getD_map_range _ _ _ _ (Finset.mem_range.1 hj)]
    ring

/-! ## C15 -/

/-- C15: `build_f_hat` multiplies by `eq(., r)`; the sum over the hypercube is the multilinear extension, at `r`, of the
hypercube values. -/
theorem C15_build_f_hat (heap : Nat → Mle F) (h : VpHist F) (hc : h.Consistent heap) (vp : VirtPoly F)
    (hr : h.run = .ok vp) (r : List F) (hrl : r.length = h.nv) (hpos : 0 < h.nv)
    (fresh : Nat) (hf : ∀ a ∈ vp.flat, a.ptr ≠ fresh) :
    ∃ g, vp.buildFHat r fresh = .ok g ∧ g.maxDegree = vp.maxDegree + 1 ∧ g.numVariables = h.nv ∧
      (∀ x, x.length = h.nv → g.evaluate x = .ok (h.value x * eqPoly x r)) ∧
      cubeSum h.nv (fun i => h.value (boolPt h.nv i) * eqPoly (boolPt h.nv i) r)
        = mle (fun i => h.value (boolPt h.nv i)) r := by
  obtain ⟨h1, h2, h3⟩ := VpHist_run_inv heap h hc vp hr
  have hrne : r ≠ [] := by
    intro h0; rw [h0] at hrl; simp at hrl; omega
  -- the new table lives at an address not used so far
  let heap' : Nat → Mle F := fun q => if q = fresh then eqMle r else heap q
  have h1' : VirtPoly.Inv heap' vp := by
    refine ⟨fun a ha => ?_, h1.table_ok, h1.idx_ok, h1.deg_ok, h1.ne_ok⟩
    obtain ⟨e1, e2, e3⟩ := h1.flat_ok a ha
    refine ⟨?_, e2, e3⟩
    simp only [heap', if_neg (hf a ha)]
    exact e1
  obtain ⟨s1, s2, s3, _⟩ := VirtPoly.mulByMle_spec vp ⟨fresh, eqMle r⟩ 1 h1'
    ⟨by simp [heap'], eqMle_wf r⟩
  have hnv : (eqMle r).numVars = vp.numVariables := by rw [h2, ← hrl]; rfl
  obtain ⟨t1, t2, t3⟩ := s3 hnv
  refine ⟨(vp.mulByMle ⟨fresh, eqMle r⟩ 1).2, ?_, t2, s2.trans h2, ?_, ?_⟩
  · unfold VirtPoly.buildFHat
    rw [if_neg (by simp [h2, hrl]), buildEq_spec r hrne]
    show tryState _ = _
    rcases hh : vp.mulByMle ⟨fresh, eqMle r⟩ 1 with ⟨a, b⟩
    rw [hh] at t1
    simp only at t1
    subst t1
    rfl
  · intro x hx
    rw [VirtPoly.evaluate_ok s1 x (by rw [hx, s2, h2]), t3, h3, one_mul]
    congr 2
    rw [← mle_eqWeight r x (by rw [hx, hrl])]
    exact mle_congr x (fun i hi => eqMle_tbl r i (by rw [hrl, ← hx]; exact hi))
  · unfold cubeSum mle
    rw [hrl]
    apply Finset.sum_congr rfl
    intro i hi
    rw [Finset.mem_range] at hi
    beta_reduce
    rw [show eqPoly (boolPt h.nv i) r = eqWeight r i by
      rw [← mle_eqWeight r _ (by simp [hrl]), mle_boolPt _ _ _ hi]]

/-- C15: a wrong length is rejected, and so is a polynomial without variables. -/
theorem C15_build_f_hat_rejects (vp : VirtPoly F) (r : List F) (fresh : Nat)
    (h : r.length ≠ vp.numVariables ∨ r = []) : ∃ e, vp.buildFHat r fresh = .error (.err e) := by
  by_cases hl : r.length = vp.numVariables
  · rcases h with h | h
    · exact absurd hl h
    · subst h
      refine ⟨.invalidParameters, ?_⟩
      unfold VirtPoly.buildFHat
      rw [if_neg (by simp [← hl])]
      rfl
  · refine ⟨.invalidParameters, ?_⟩
    unfold VirtPoly.buildFHat
    rw [if_pos (Ne.symm hl)]

/-! ## C08, virtual polynomial samplers -/

/-- All addresses handed out by the allocator are different. -/
def FreshAddrs (tapes : List (ProductTape F)) : Prop :=
  ∀ t ∈ tapes, ∀ t' ∈ tapes, ∀ i i', t.addr i = t'.addr i' → t = t' ∧ i = i'

open Classical in
/-- A heap holding a given family of tables at the addresses of the tapes. -/
noncomputable def tapeHeap (tapes : List (ProductTape F)) (tb : ProductTape F → Nat → Mle F) : Nat → Mle F :=
  fun q => if h : ∃ x : ProductTape F × Nat, x.1 ∈ tapes ∧ x.1.addr x.2 = q then tb h.choose.1 h.choose.2 else ⟨0, [0]⟩

theorem tapeHeap_at (tapes : List (ProductTape F)) (tb : ProductTape F → Nat → Mle F) (hf : FreshAddrs tapes)
    (t : ProductTape F) (ht : t ∈ tapes) (i : Nat) : tapeHeap tapes tb (t.addr i) = tb t i := by
  have h : ∃ x : ProductTape F × Nat, x.1 ∈ tapes ∧ x.1.addr x.2 = t.addr i := ⟨(t, i), ht, rfl⟩
  unfold tapeHeap
  rw [dif_pos h]
  obtain ⟨h1, h2⟩ := h.choose_spec
  obtain ⟨e1, e2⟩ := hf _ h1 t ht _ _ h2
  rw [e1, e2]

/-- Both samplers, abstractly: a fold of accepted `add_mle_list` calls. -/
theorem rand_fold (nv : Nat) (heap : Nat → Mle F) (tapes : List (ProductTape F))
    (lst : ProductTape F → List (Mle F))
    (hne : ∀ t ∈ tapes, lst t ≠ []) (hw : ∀ t ∈ tapes, ∀ p ∈ lst t, p.WF ∧ p.numVars = nv)
    (hh : ∀ t ∈ tapes, ∀ i p, (lst t)[i]? = some p → heap (t.addr i) = p)
    (vp0 : VirtPoly F) (hi : VirtPoly.Inv heap vp0) (hn : vp0.numVariables = nv) :
    ∃ vp, (tapes.foldlM (init := vp0) fun vp t =>
        tryState (vp.addMleList ((lst t).mapIdx fun i p => ⟨t.addr i, p⟩) t.coeff)) = .ok vp ∧
      VirtPoly.Inv heap vp ∧ vp.numVariables = nv ∧
      ∀ pt, vp.polyVal pt = vp0.polyVal pt
        + (tapes.map fun t => t.coeff * ((lst t).map fun p => mle p.tbl pt).prod).sum := by
  induction tapes generalizing vp0 with
  | nil => exact ⟨vp0, rfl, hi, hn, fun pt => by simp⟩
  | cons t ts ih =>
    have hl : ∀ a ∈ (lst t).mapIdx (fun i p => (⟨t.addr i, p⟩ : ArcMle F)), a.mle = heap a.ptr ∧ a.mle.WF := by
      intro a ha
      obtain ⟨i, hi', rfl⟩ := List.mem_mapIdx.1 ha
      exact ⟨(hh t List.mem_cons_self i _ (List.getElem?_eq_getElem hi')).symm,
        (hw t List.mem_cons_self _ (List.getElem_mem hi')).1⟩
    obtain ⟨s1, s2, s3, _⟩ := VirtPoly.addMleList_spec _ vp0 t.coeff hi hl
    have hcond : (lst t).mapIdx (fun i p => (⟨t.addr i, p⟩ : ArcMle F)) ≠ [] ∧
        ∀ a ∈ (lst t).mapIdx (fun i p => (⟨t.addr i, p⟩ : ArcMle F)), a.mle.numVars = vp0.numVariables := by
      constructor
      · simpa using hne t List.mem_cons_self
      · intro a ha
        obtain ⟨i, hi', rfl⟩ := List.mem_mapIdx.1 ha
        rw [hn]
        exact (hw t List.mem_cons_self _ (List.getElem_mem hi')).2
    obtain ⟨t1, _, t3⟩ := s3 hcond
    rcases hr : vp0.addMleList ((lst t).mapIdx fun i p => (⟨t.addr i, p⟩ : ArcMle F)) t.coeff with ⟨r, v⟩
    rw [hr] at s1 s2 t1 t3
    simp only at s1 s2 t1 t3
    subst t1
    obtain ⟨vp, e1, e2, e3, e4⟩ := ih (fun t ht => hne t (List.mem_cons_of_mem _ ht))
      (fun t ht => hw t (List.mem_cons_of_mem _ ht)) (fun t ht => hh t (List.mem_cons_of_mem _ ht)) v s1 (s2.trans hn)
    refine ⟨vp, ?_, e2, e3, ?_⟩
    · rw [List.foldlM_cons, hr]
      exact e1
    · intro pt
      rw [e4, t3]
      have : ((lst t).mapIdx fun i p => (⟨t.addr i, p⟩ : ArcMle F)).map (fun a => mle a.mle.tbl pt)
          = (lst t).map fun p => mle p.tbl pt := by
        apply List.ext_getElem <;> simp
      rw [this, List.map_cons, List.sum_cons]
      ring

/-- C08: `VirtualPolynomial::rand` reports the true hypercube sum of the polynomial it returns. -/
theorem C08_virtual_rand (nv lo hi : Nat) (h1 : 0 < lo) (h2 : lo < hi) (tapes : List (ProductTape F))
    (hf : FreshAddrs tapes) :
    ∃ vp sum, VirtPoly.rand nv lo hi tapes = .ok (vp, sum) ∧
      ∃ v : Nat → F, (∀ i < 2 ^ nv, vp.evaluate (boolPt nv i) = .ok (v i)) ∧ sum = cubeSum nv v := by
  choose lst sm hl1 hl2 hl3 hl4 using fun t : ProductTape F =>
    C08_random_mle_list (F := F) nv (lo + t.count % (hi - lo)) t.entries
  let heap := tapeHeap tapes fun t i => (lst t).getD i ⟨0, [0]⟩
  have hne : ∀ t ∈ tapes, lst t ≠ [] := by
    intro t _ h0
    have := hl2 t
    rw [h0] at this
    simp at this; omega
  have hh : ∀ t ∈ tapes, ∀ i p, (lst t)[i]? = some p → heap (t.addr i) = p := by
    intro t ht i p hp
    show tapeHeap tapes (fun t i => (lst t).getD i ⟨0, [0]⟩) (t.addr i) = p
    rw [tapeHeap_at tapes _ hf t ht i, List.getD_eq_getElem?_getD, hp]
    rfl
  obtain ⟨vp, e1, e2, e3, e4⟩ := rand_fold nv heap tapes lst hne (fun t _ => hl3 t) hh (VirtPoly.new nv)
    (VirtPoly.inv_new heap nv) rfl
  have hrun : ∀ (ts : List (ProductTape F)) (v0 : VirtPoly F) (s0 : F) (v1 : VirtPoly F),
      (ts.foldlM (init := v0) fun vp t =>
        tryState (vp.addMleList ((lst t).mapIdx fun i p => (⟨t.addr i, p⟩ : ArcMle F)) t.coeff)) = .ok v1 →
      (ts.foldlM (init := (v0, s0)) fun st t => do
        let m ← genRange lo hi t.count
        let (l, s) ← randomMleList nv m t.entries
        let vp ← tryState (st.1.addMleList (l.mapIdx fun i p => ⟨t.addr i, p⟩) t.coeff)
        .ok (vp, st.2 + s * t.coeff)) = (.ok (v1, s0 + (ts.map fun t => sm t * t.coeff).sum) : Res _) := by
    intro ts
    induction ts with
    | nil => intro v0 s0 v1 h; cases h; simp; rfl
    | cons t ts ih =>
      intro v0 s0 v1 h
      rw [List.foldlM_cons] at h ⊢
      rcases hr : tryState (v0.addMleList ((lst t).mapIdx fun i p => (⟨t.addr i, p⟩ : ArcMle F)) t.coeff) with e | w
      · rw [hr] at h; cases h
      · rw [hr] at h
        have e5 := ih w (s0 + sm t * t.coeff) v1 h
        simp only [genRange, if_pos h2, hl1 t, bind, Except.bind, hr] at e5 ⊢
        rw [e5, List.map_cons, List.sum_cons, add_assoc]
  refine ⟨vp, _, hrun tapes (VirtPoly.new nv) 0 vp e1, fun i => vp.polyVal (boolPt nv i), ?_, ?_⟩
  · intro i _
    exact VirtPoly.evaluate_ok e2 _ (by rw [e3, boolPt_length])
  · have : ∀ i ∈ Finset.range (2 ^ nv), vp.polyVal (boolPt nv i) = (tapes.map fun t =>
        t.coeff * ((lst t).map fun p => p.tbl i).prod).sum := by
      intro i hi'
      rw [e4]
      have h0 : (VirtPoly.new nv : VirtPoly F).polyVal (boolPt nv i) = 0 := rfl
      rw [h0, zero_add]
      congr 1
      apply List.map_congr_left
      intro t _
      congr 2
      apply List.map_congr_left
      intro p _
      rw [mle_boolPt _ _ _ (Finset.mem_range.1 hi')]
    unfold cubeSum
    rw [Finset.sum_congr rfl this, zero_add]
    clear this hrun e1 e2 e3 e4 hh heap hne hf
    induction tapes with
    | nil => simp
    | cons t ts ih =>
      simp only [List.map_cons, List.sum_cons, Finset.sum_add_distrib]
      rw [← ih, hl4 t, cubeSum, ← Finset.mul_sum]
      ring

/-- C08: `VirtualPolynomial::rand_zero` vanishes on the whole hypercube. -/
theorem C08_virtual_rand_zero (nv lo hi : Nat) (h1 : 0 < lo) (h2 : lo < hi) (tapes : List (ProductTape F))
    (hf : FreshAddrs tapes) :
    ∃ vp, VirtPoly.randZero nv lo hi tapes = .ok vp ∧ ∀ i < 2 ^ nv, vp.evaluate (boolPt nv i) = .ok 0 := by
  choose lst hl1 hl2 hl3 hl4 using fun t : ProductTape F =>
    C08_random_zero_mle_list (F := F) nv (lo + t.count % (hi - lo)) t.entries (by omega)
  let heap := tapeHeap tapes fun t i => (lst t).getD i ⟨0, [0]⟩
  have hne : ∀ t ∈ tapes, lst t ≠ [] := by
    intro t _ h0
    have := hl2 t
    rw [h0] at this
    simp at this; omega
  have hh : ∀ t ∈ tapes, ∀ i p, (lst t)[i]? = some p → heap (t.addr i) = p := by
    intro t ht i p hp
    show tapeHeap tapes (fun t i => (lst t).getD i ⟨0, [0]⟩) (t.addr i) = p
    rw [tapeHeap_at tapes _ hf t ht i, List.getD_eq_getElem?_getD, hp]
    rfl
  obtain ⟨vp, e1, e2, e3, e4⟩ := rand_fold nv heap tapes lst hne (fun t _ => hl3 t) hh (VirtPoly.new nv)
    (VirtPoly.inv_new heap nv) rfl
  refine ⟨vp, ?_, ?_⟩
  · rw [← e1]
    unfold VirtPoly.randZero
    congr 1
    funext v t
    simp only [genRange, if_pos h2, hl1 t, bind, Except.bind]
  · intro i hi'
    rw [VirtPoly.evaluate_ok e2 _ (by rw [e3, boolPt_length]), e4]
    have h0 : (VirtPoly.new nv : VirtPoly F).polyVal (boolPt nv i) = 0 := rfl
    rw [h0, zero_add]
    congr 1
    apply List.sum_eq_zero
    intro x hx
    obtain ⟨t, _, rfl⟩ := List.mem_map.1 hx
    have : (lst t).map (fun p => mle p.tbl (boolPt nv i)) = (lst t).map fun p => p.tbl i := by
      apply List.map_congr_left
      intro p _
      rw [mle_boolPt _ _ _ hi']
    rw [this, hl4 t i hi', mul_zero]

example : FreshAddrs [(⟨0, fun k => (k : ZMod 7), 3, fun i => 2 * i⟩ : ProductTape (ZMod 7)),
    ⟨1, fun k => (k + 2 : ZMod 7), 4, fun i => 2 * i + 1⟩] := by
  intro t ht t' ht' i i' h
  simp only [List.mem_cons, List.not_mem_nil, or_false] at ht ht'
  rcases ht with rfl | rfl <;> rcases ht' with rfl | rfl <;> simp only at h
  · exact ⟨rfl, by omega⟩
  · omega
  · omega
  · exact ⟨rfl, by omega⟩

example : ∀ vp, exHist.run = .ok vp → ∀ a ∈ vp.flat, a.ptr ≠ 99 := by
  intro vp h
  have h' : vp = (exHist.run.toOption.getD (VirtPoly.new 0)) := by rw [h]; rfl
  subst h'
  decide

end Zksql
