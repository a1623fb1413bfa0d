import Verif.Lemmas.Mle3
import Verif.Spec.VirtualPoly
/-! Helper lemmas about virtual polynomials. -/
set_option linter.unusedSectionVars false
namespace Zksql
open Spec
variable {F : Type} [Field F]

namespace VirtPoly

/-- Table stored at index `i`. -/
def tblAt (vp : VirtPoly F) (i : Nat) : Nat → F :=
  match vp.flat[i]? with
  | some a => a.mle.tbl
  | none => fun _ => 0

/-- Value of a list of products. -/
def prodsVal (g : Nat → F) (ps : List (F × List Nat)) : F :=
  (ps.map fun p => p.1 * (p.2.map g).prod).sum

def polyVal (vp : VirtPoly F) (pt : List F) : F :=
  prodsVal (fun i => mle (vp.tblAt i) pt) vp.products

structure Inv (heap : Nat → Mle F) (vp : VirtPoly F) : Prop where
  flat_ok : ∀ a ∈ vp.flat, a.mle = heap a.ptr ∧ a.mle.WF ∧ a.mle.numVars = vp.numVariables
  table_ok : ∀ q i, vp.table.lookup q = some i ↔ ∃ a, vp.flat[i]? = some a ∧ a.ptr = q
  idx_ok : ∀ p ∈ vp.products, ∀ i ∈ p.2, i < vp.flat.length
  deg_ok : ∀ p ∈ vp.products, p.2.length ≤ vp.maxDegree
  ne_ok : ∀ p ∈ vp.products, p.2 ≠ []

structure Ext (vp vp' : VirtPoly F) : Prop where
  nv : vp'.numVariables = vp.numVariables
  prods : vp'.products = vp.products
  deg : vp'.maxDegree = vp.maxDegree
  flat : ∃ s, vp'.flat = vp.flat ++ s

theorem Ext.refl (vp : VirtPoly F) : Ext vp vp := ⟨rfl, rfl, rfl, [], by simp⟩

theorem Ext.trans {a b c : VirtPoly F} (h1 : Ext a b) (h2 : Ext b c) : Ext a c := by
  obtain ⟨s, hs⟩ := h1.flat
  obtain ⟨t, ht⟩ := h2.flat
  exact ⟨h2.nv.trans h1.nv, h2.prods.trans h1.prods, h2.deg.trans h1.deg, s ++ t, by rw [ht, hs, List.append_assoc]⟩

theorem Ext.tblAt {a b : VirtPoly F} (h : Ext a b) {i : Nat} (hi : i < a.flat.length) : b.tblAt i = a.tblAt i := by
  obtain ⟨s, hs⟩ := h.flat
  unfold VirtPoly.tblAt
  rw [hs, List.getElem?_append_left hi]

theorem Ext.length_le {a b : VirtPoly F} (h : Ext a b) : a.flat.length ≤ b.flat.length := by
  obtain ⟨s, hs⟩ := h.flat
  rw [hs]; simp

theorem prodsVal_congr (g g' : Nat → F) (ps : List (F × List Nat))
    (h : ∀ p ∈ ps, ∀ i ∈ p.2, g i = g' i) : prodsVal g ps = prodsVal g' ps := by
  unfold prodsVal
  congr 1
  apply List.map_congr_left
  intro p hp
  congr 2
  exact List.map_congr_left (h p hp)

theorem prodsVal_append (g : Nat → F) (ps qs : List (F × List Nat)) :
    prodsVal g (ps ++ qs) = prodsVal g ps + prodsVal g qs := by
  simp [prodsVal]

theorem Ext.polyVal {heap : Nat → Mle F} {a b : VirtPoly F} (h : Ext a b) (ha : Inv heap a) (pt : List F) :
    b.polyVal pt = a.polyVal pt := by
  unfold VirtPoly.polyVal
  rw [h.prods]
  apply prodsVal_congr
  intro p hp i hi
  rw [h.tblAt (ha.idx_ok p hp i hi)]

theorem combine_ok (ps : List (F × List Nat)) (get : Nat → Res F) (g : Nat → F)
    (h : ∀ p ∈ ps, ∀ i ∈ p.2, get i = .ok (g i)) : combine ps get = .ok (prodsVal g ps) := by
  unfold combine prodsVal
  rw [mapM_ok ps _ (fun p => p.1 * (p.2.map g).prod)]
  · rfl
  · intro p hp
    rw [mapM_ok p.2 get g (h p hp)]
    rfl

theorem evaluate_ok {heap : Nat → Mle F} {vp : VirtPoly F} (h : Inv heap vp) (pt : List F)
    (hpt : pt.length = vp.numVariables) : vp.evaluate pt = .ok (vp.polyVal pt) := by
  unfold VirtPoly.evaluate
  rw [if_neg (by simp [hpt])]
  have e1 : (vp.flat.mapM fun a => unwrap (a.mle.evaluate pt)) = .ok (vp.flat.map fun a => mle a.mle.tbl pt) := by
    apply mapM_ok
    intro a ha
    obtain ⟨_, hw, hn⟩ := h.flat_ok a ha
    rw [evaluate_eq _ hw pt (by rw [hpt, hn])]; rfl
  rw [e1]
  show combine vp.products (idx (vp.flat.map fun a => mle a.mle.tbl pt)) = _
  rw [combine_ok _ _ (fun i => mle (vp.tblAt i) pt)]
  · rfl
  · intro p hp i hi
    have hlt := h.idx_ok p hp i hi
    simp [idx, VirtPoly.tblAt, hlt]

theorem inv_new (heap : Nat → Mle F) (nv : Nat) : Inv heap (new nv) := by
  constructor <;> simp [new]

theorem inv_newFromMle {heap : Nat → Mle F} {a : ArcMle F} (c : F) (h : a.mle = heap a.ptr ∧ a.mle.WF) :
    Inv heap (newFromMle a c) := by
  constructor
  · simp [newFromMle, ← h.1, h.2]
  · intro q i
    simp only [newFromMle, List.lookup_cons, List.lookup_nil]
    rcases eq_or_ne q a.ptr with rfl | hq
    · simp only [beq_self_eq_true]
      constructor
      · intro hi
        obtain rfl := (Option.some.inj hi)
        exact ⟨a, rfl, rfl⟩
      · rintro ⟨b, hb, hbq⟩
        cases i with
        | zero => rfl
        | succ i => simp at hb
    · have : (q == a.ptr) = false := by simpa using hq
      simp only [this]
      constructor
      · intro hh; cases hh
      · rintro ⟨b, hb, hbq⟩
        cases i with
        | zero =>
          simp at hb
          subst hb; exact absurd hbq.symm hq
        | succ i => simp at hb
  · simp [newFromMle]
  · simp [newFromMle]
  · simp [newFromMle]

/-- Storing a new table. -/
def push (vp : VirtPoly F) (a : ArcMle F) : VirtPoly F :=
  { vp with flat := vp.flat ++ [a], table := (a.ptr, vp.flat.length) :: vp.table }

theorem ext_push (vp : VirtPoly F) (a : ArcMle F) : Ext vp (vp.push a) := ⟨rfl, rfl, rfl, [a], rfl⟩

theorem inv_push {heap : Nat → Mle F} {vp : VirtPoly F} (h : Inv heap vp) {a : ArcMle F}
    (ha : a.mle = heap a.ptr ∧ a.mle.WF) (hn : a.mle.numVars = vp.numVariables)
    (hl : vp.table.lookup a.ptr = none) : Inv heap (vp.push a) := by
  constructor
  · intro b hb
    simp only [push, List.mem_append, List.mem_singleton] at hb
    rcases hb with hb | rfl
    · exact h.flat_ok b hb
    · exact ⟨ha.1, ha.2, hn⟩
  · intro q i
    simp only [push, List.lookup_cons]
    rcases eq_or_ne q a.ptr with rfl | hq
    · simp only [beq_self_eq_true]
      constructor
      · intro hi
        obtain rfl := Option.some.inj hi
        exact ⟨a, by simp, rfl⟩
      · rintro ⟨b, hb, hbq⟩
        rcases lt_trichotomy i vp.flat.length with hi | rfl | hi
        · rw [List.getElem?_append_left hi] at hb
          have := (h.table_ok a.ptr i).2 ⟨b, hb, hbq⟩
          rw [hl] at this; cases this
        · rfl
        · rw [List.getElem?_eq_none (by simp; omega)] at hb; cases hb
    · have hf : (q == a.ptr) = false := by simpa using hq
      simp only [hf]
      rw [h.table_ok q i]
      constructor
      · rintro ⟨b, hb, hbq⟩
        have hi : i < vp.flat.length := (List.getElem?_eq_some_iff.1 hb).1
        exact ⟨b, by rw [List.getElem?_append_left hi]; exact hb, hbq⟩
      · rintro ⟨b, hb, hbq⟩
        rcases lt_trichotomy i vp.flat.length with hi | rfl | hi
        · rw [List.getElem?_append_left hi] at hb
          exact ⟨b, hb, hbq⟩
        · rw [List.getElem?_concat_length] at hb
          obtain rfl := Option.some.inj hb
          exact absurd hbq.symm hq
        · rw [List.getElem?_eq_none (by simp; omega)] at hb; cases hb
  · intro p hp i hi
    have := h.idx_ok p hp i hi
    simp only [push, List.length_append]
    omega
  · exact h.deg_ok
  · exact h.ne_ok

theorem tblAt_of_lookup {heap : Nat → Mle F} {vp : VirtPoly F} (h : Inv heap vp) {a : ArcMle F}
    (ha : a.mle = heap a.ptr) {i : Nat} (hl : vp.table.lookup a.ptr = some i) :
    i < vp.flat.length ∧ vp.tblAt i = a.mle.tbl := by
  obtain ⟨b, hb, hp⟩ := (h.table_ok a.ptr i).1 hl
  have hi : i < vp.flat.length := (List.getElem?_eq_some_iff.1 hb).1
  refine ⟨hi, ?_⟩
  unfold tblAt
  rw [hb]
  have hm : b ∈ vp.flat := List.mem_of_getElem? hb
  simp only
  rw [(h.flat_ok b hm).1, ha, hp]

theorem addLoop_spec {heap : Nat → Mle F} (l : List (ArcMle F)) (vp : VirtPoly F) (acc : List Nat)
    (h : Inv heap vp) (hl : ∀ a ∈ l, a.mle = heap a.ptr ∧ a.mle.WF) :
    Inv heap (addLoop vp l acc).2 ∧ Ext vp (addLoop vp l acc).2 ∧
    ((∀ a ∈ l, a.mle.numVars = vp.numVariables) →
      ∃ ix, (addLoop vp l acc).1 = .ok (acc ++ ix) ∧ ix.length = l.length ∧
        (∀ i ∈ ix, i < (addLoop vp l acc).2.flat.length) ∧
        ix.map (addLoop vp l acc).2.tblAt = l.map fun a => a.mle.tbl) ∧
    ((¬ ∀ a ∈ l, a.mle.numVars = vp.numVariables) →
      (addLoop vp l acc).1 = .error (.err .invalidParameters)) := by
  induction l generalizing vp acc with
  | nil =>
    refine ⟨h, Ext.refl vp, fun _ => ⟨[], ?_⟩, fun hn => absurd (by simp) hn⟩
    simp [addLoop]
  | cons a l ih =>
    have ha := hl a List.mem_cons_self
    have hl' : ∀ b ∈ l, b.mle = heap b.ptr ∧ b.mle.WF := fun b hb => hl b (List.mem_cons_of_mem _ hb)
    by_cases hn : a.mle.numVars = vp.numVariables
    · rcases hk : vp.table.lookup a.ptr with _ | i
      · have hinv := inv_push h ha hn hk
        have e : addLoop vp (a :: l) acc = addLoop (vp.push a) l (acc ++ [vp.flat.length]) := by
          rw [addLoop, if_neg (by simpa using hn), hk]; rfl
        rw [e]
        obtain ⟨h1, h2, h3, h4⟩ := ih (vp.push a) (acc ++ [vp.flat.length]) hinv hl'
        refine ⟨h1, (ext_push vp a).trans h2, ?_, ?_⟩
        · intro hall
          obtain ⟨ix, e1, e2, e3, e4⟩ := h3 (fun b hb => hall b (List.mem_cons_of_mem _ hb))
          have hlt : vp.flat.length < (vp.push a).flat.length := by simp [push]
          refine ⟨vp.flat.length :: ix, by rw [e1]; simp, by simp [e2], ?_, ?_⟩
          · intro i hi
            rcases List.mem_cons.1 hi with rfl | hi
            · exact lt_of_lt_of_le hlt h2.length_le
            · exact e3 i hi
          · rw [List.map_cons, List.map_cons, e4, h2.tblAt hlt]
            simp [VirtPoly.tblAt, push]
        · intro hnall
          apply h4
          intro hall
          apply hnall
          intro b hb
          rcases List.mem_cons.1 hb with rfl | hb
          · exact hn
          · exact hall b hb
      · obtain ⟨hi, hti⟩ := tblAt_of_lookup h ha.1 hk
        have e : addLoop vp (a :: l) acc = addLoop vp l (acc ++ [i]) := by
          rw [addLoop, if_neg (by simpa using hn), hk]
        rw [e]
        obtain ⟨h1, h2, h3, h4⟩ := ih vp (acc ++ [i]) h hl'
        refine ⟨h1, h2, ?_, ?_⟩
        · intro hall
          obtain ⟨ix, e1, e2, e3, e4⟩ := h3 (fun b hb => hall b (List.mem_cons_of_mem _ hb))
          refine ⟨i :: ix, by rw [e1]; simp, by simp [e2], ?_, ?_⟩
          · intro j hj
            rcases List.mem_cons.1 hj with rfl | hj
            · exact lt_of_lt_of_le hi h2.length_le
            · exact e3 j hj
          · rw [List.map_cons, List.map_cons, e4, h2.tblAt hi, hti]
        · intro hnall
          apply h4
          intro hall
          apply hnall
          intro b hb
          rcases List.mem_cons.1 hb with rfl | hb
          · exact hn
          · exact hall b hb
    · have e : addLoop vp (a :: l) acc = (.error (.err .invalidParameters), vp) := by
        rw [addLoop, if_pos hn]
      rw [e]
      exact ⟨h, Ext.refl vp, fun hall => absurd (hall a List.mem_cons_self) hn, fun _ => rfl⟩

/-- Everything about one `add_mle_list` call. -/
theorem addMleList_spec {heap : Nat → Mle F} (l : List (ArcMle F)) (vp : VirtPoly F) (c : F)
    (h : Inv heap vp) (hl : ∀ a ∈ l, a.mle = heap a.ptr ∧ a.mle.WF) :
    Inv heap (vp.addMleList l c).2 ∧ (vp.addMleList l c).2.numVariables = vp.numVariables ∧
    ((l ≠ [] ∧ ∀ a ∈ l, a.mle.numVars = vp.numVariables) →
      (vp.addMleList l c).1 = .ok () ∧ (vp.addMleList l c).2.maxDegree = max vp.maxDegree l.length ∧
      ∀ pt, (vp.addMleList l c).2.polyVal pt = vp.polyVal pt + c * (l.map fun a => mle a.mle.tbl pt).prod) ∧
    (¬ (l ≠ [] ∧ ∀ a ∈ l, a.mle.numVars = vp.numVariables) →
      (vp.addMleList l c).1 = .error (.err .invalidParameters) ∧ (vp.addMleList l c).2.products = vp.products ∧
      ∀ pt, (vp.addMleList l c).2.polyVal pt = vp.polyVal pt) := by
  by_cases hnil : l = []
  · subst hnil
    have e : vp.addMleList [] c = (.error (.err .invalidParameters), vp) := by simp [addMleList]
    rw [e]
    exact ⟨h, rfl, fun hh => absurd rfl hh.1, fun _ => ⟨rfl, rfl, fun _ => rfl⟩⟩
  · set vp0 : VirtPoly F := { vp with maxDegree := max vp.maxDegree l.length } with hvp0
    have h0 : Inv heap vp0 := by
      refine ⟨h.flat_ok, h.table_ok, h.idx_ok, ?_, h.ne_ok⟩
      intro p hp
      exact le_trans (h.deg_ok p hp) (le_max_left _ _)
    have hpv : ∀ pt, vp0.polyVal pt = vp.polyVal pt := fun pt => rfl
    obtain ⟨h1, h2, h3, h4⟩ := addLoop_spec l vp0 [] h0 hl
    by_cases hall : ∀ a ∈ l, a.mle.numVars = vp.numVariables
    · obtain ⟨ix, e1, e2, e3, e4⟩ := h3 hall
      rcases hr : addLoop vp0 l [] with ⟨res, vp'⟩
      rw [hr] at h1 h2 e1 e3 e4
      simp only [List.nil_append] at e1
      have e : vp.addMleList l c = (.ok (), { vp' with products := vp'.products ++ [(c, ix)] }) := by
        rw [addMleList, if_neg hnil, ← hvp0, hr]
        subst e1
        rfl
      rw [e]
      simp only at h1 h2 e3 e4
      have hd' : vp'.maxDegree = max vp.maxDegree l.length := h2.deg
      have hlpos : 0 < l.length := List.length_pos_iff.2 hnil
      refine ⟨⟨h1.flat_ok, h1.table_ok, ?_, ?_, ?_⟩, h2.nv, fun _ => ⟨rfl, hd', ?_⟩,
        fun hh => absurd ⟨hnil, hall⟩ hh⟩
      · intro p hp i hi
        rcases List.mem_append.1 hp with hp | hp
        · exact h1.idx_ok p hp i hi
        · rw [List.mem_singleton] at hp; subst hp; exact e3 i hi
      · intro p hp
        rcases List.mem_append.1 hp with hp | hp
        · exact h1.deg_ok p hp
        · rw [List.mem_singleton] at hp; subst hp
          simp only [hd', e2]; exact le_max_right _ _
      · intro p hp
        rcases List.mem_append.1 hp with hp | hp
        · exact h1.ne_ok p hp
        · rw [List.mem_singleton] at hp; subst hp
          intro h0'
          have : ix = [] := h0'
          rw [this] at e2; simp at e2; omega
      · intro pt
        rw [← hpv pt, ← h2.polyVal h0 pt]
        show prodsVal (fun i => mle (vp'.tblAt i) pt) (vp'.products ++ [(c, ix)]) = _
        rw [prodsVal_append]
        congr 1
        have : ix.map (fun i => mle (vp'.tblAt i) pt) = l.map fun a => mle a.mle.tbl pt := by
          have := congrArg (List.map (fun t => mle t pt)) e4
          simpa [List.map_map, Function.comp_def] using this
        simp [prodsVal, this]
    · have he := h4 hall
      rcases hr : addLoop vp0 l [] with ⟨res, vp'⟩
      rw [hr] at h1 h2 he
      simp only at he h1 h2
      have e : vp.addMleList l c = (.error (.err .invalidParameters), vp') := by
        rw [addMleList, if_neg hnil, ← hvp0, hr]
        subst he
        rfl
      rw [e]
      exact ⟨h1, h2.nv, fun hh => absurd hh.2 hall, fun _ => ⟨rfl, h2.prods, fun pt => by
        rw [← hpv pt]; exact h2.polyVal h0 pt⟩⟩

theorem prodsVal_mul (g : Nat → F) (ps : List (F × List Nat)) (c : F) (i : Nat) :
    prodsVal g (ps.map fun p => (p.1 * c, p.2 ++ [i])) = prodsVal g ps * (c * g i) := by
  induction ps with
  | nil => simp [prodsVal]
  | cons p ps ih =>
    unfold prodsVal at ih ⊢
    simp only [List.map_cons, List.sum_cons, List.map_append, List.prod_append, List.map_nil, List.prod_cons,
      List.prod_nil, mul_one]
    rw [ih]
    ring

/-- Everything about one `mul_by_mle` call. -/
theorem mulByMle_spec {heap : Nat → Mle F} (vp : VirtPoly F) (a : ArcMle F) (c : F)
    (h : Inv heap vp) (ha : a.mle = heap a.ptr ∧ a.mle.WF) :
    Inv heap (vp.mulByMle a c).2 ∧ (vp.mulByMle a c).2.numVariables = vp.numVariables ∧
    (a.mle.numVars = vp.numVariables → (vp.mulByMle a c).1 = .ok () ∧
      (vp.mulByMle a c).2.maxDegree = vp.maxDegree + 1 ∧
      ∀ pt, (vp.mulByMle a c).2.polyVal pt = vp.polyVal pt * (c * mle a.mle.tbl pt)) ∧
    (a.mle.numVars ≠ vp.numVariables → vp.mulByMle a c = (.error (.err .invalidParameters), vp)) := by
  by_cases hn : a.mle.numVars = vp.numVariables
  · have key : ∃ i vp', vp.mulByMle a c = (.ok (), { vp' with
        products := vp'.products.map fun p => (p.1 * c, p.2 ++ [i])
        maxDegree := vp'.maxDegree + 1 }) ∧ Inv heap vp' ∧ Ext vp vp' ∧ i < vp'.flat.length ∧
        vp'.tblAt i = a.mle.tbl := by
      rcases hk : vp.table.lookup a.ptr with _ | i
      · refine ⟨vp.flat.length, vp.push a, ?_, inv_push h ha hn hk, ext_push vp a, by simp [push], ?_⟩
        · rw [mulByMle, if_neg (by simpa using hn), hk]; rfl
        · simp [VirtPoly.tblAt, push]
      · obtain ⟨hi, hti⟩ := tblAt_of_lookup h ha.1 hk
        refine ⟨i, vp, ?_, h, Ext.refl vp, hi, hti⟩
        rw [mulByMle, if_neg (by simpa using hn), hk]
    obtain ⟨i, vp', e, hinv, hext, hi, hti⟩ := key
    rw [e]
    refine ⟨⟨hinv.flat_ok, hinv.table_ok, ?_, ?_, ?_⟩, hext.nv, fun _ => ⟨rfl, ?_, ?_⟩, fun hh => absurd hn hh⟩
    · intro p hp j hj
      obtain ⟨q, hq, rfl⟩ := List.mem_map.1 hp
      rcases List.mem_append.1 hj with hj | hj
      · exact hinv.idx_ok q hq j hj
      · rw [List.mem_singleton] at hj; subst hj; exact hi
    · intro p hp
      obtain ⟨q, hq, rfl⟩ := List.mem_map.1 hp
      have := hinv.deg_ok q hq
      simp only [List.length_append, List.length_singleton]; omega
    · intro p hp
      obtain ⟨q, hq, rfl⟩ := List.mem_map.1 hp
      simp
    · show vp'.maxDegree + 1 = _; rw [hext.deg]
    · intro pt
      rw [← hext.polyVal h pt, ← hti]
      exact prodsVal_mul (fun j => mle (vp'.tblAt j) pt) vp'.products c i
  · have e : vp.mulByMle a c = (.error (.err .invalidParameters), vp) := by
      rw [mulByMle, if_pos hn]
    rw [e]
    exact ⟨h, rfl, fun hh => absurd hh hn, fun _ => rfl⟩

/-- Everything about one `+`. -/
theorem add_spec {heap : Nat → Mle F} (v1 v2 : VirtPoly F) (h1 : Inv heap v1) (h2 : Inv heap v2) :
    (v1.numVariables = v2.numVariables ∨ v2.products = [] → ∃ v, v1.add v2 = .ok v) ∧
    (¬ (v1.numVariables = v2.numVariables ∨ v2.products = []) → v1.add v2 = .error .panic) ∧
    ∀ v, v1.add v2 = .ok v → Inv heap v ∧ v.numVariables = v1.numVariables ∧
      v1.maxDegree ≤ v.maxDegree ∧ ∀ pt, v.polyVal pt = v1.polyVal pt + v2.polyVal pt := by
  unfold add
  have hmap : ∀ p ∈ v2.products, p.2.mapM (idx v2.flat) = (.ok (p.2.map fun i => v2.flat.getD i ⟨0, ⟨0, []⟩⟩) : Res _) := by
    intro p hp
    apply mapM_ok
    intro i hi
    have := h2.idx_ok p hp i hi
    simp [idx, this]
  have hcur : ∀ p ∈ v2.products, ∀ a ∈ p.2.map (fun i => v2.flat.getD i ⟨0, ⟨0, []⟩⟩), a ∈ v2.flat := by
    intro p hp a ha
    obtain ⟨i, hi, rfl⟩ := List.mem_map.1 ha
    have := h2.idx_ok p hp i hi
    simp [this]
  have hval : ∀ p ∈ v2.products, ∀ pt, ((p.2.map (fun i => v2.flat.getD i ⟨0, ⟨0, []⟩⟩)).map fun a => mle a.mle.tbl pt).prod
      = (p.2.map fun i => mle (v2.tblAt i) pt).prod := by
    intro p hp pt
    rw [List.map_map]
    congr 1
    apply List.map_congr_left
    intro i hi
    have := h2.idx_ok p hp i hi
    simp [VirtPoly.tblAt, this]
  have hne := h2.ne_ok
  unfold polyVal
  generalize v2.products = ps at hmap hcur hval hne
  have gen : ∀ (qs : List (F × List Nat)), (∀ p ∈ qs, p ∈ ps) → ∀ v1 : VirtPoly F, Inv heap v1 →
      (v1.numVariables = v2.numVariables ∨ qs = [] → ∃ v, (qs.foldlM (init := v1) fun res p => do
        let cur ← p.2.mapM (idx v2.flat)
        expectState (res.addMleList cur p.1)) = .ok v) ∧
      (¬ (v1.numVariables = v2.numVariables ∨ qs = []) → (qs.foldlM (init := v1) fun res p => do
        let cur ← p.2.mapM (idx v2.flat)
        expectState (res.addMleList cur p.1)) = .error .panic) ∧
      ∀ v, (qs.foldlM (init := v1) fun res p => do
        let cur ← p.2.mapM (idx v2.flat)
        expectState (res.addMleList cur p.1)) = .ok v →
      Inv heap v ∧ v.numVariables = v1.numVariables ∧ v1.maxDegree ≤ v.maxDegree ∧
      ∀ pt, v.polyVal pt = v1.polyVal pt + prodsVal (fun i => mle (v2.tblAt i) pt) qs := by
    intro qs
    induction qs with
    | nil =>
      intro _ v1 hv1
      refine ⟨fun _ => ⟨v1, rfl⟩, fun hh => absurd (Or.inr rfl) hh, ?_⟩
      intro v hv
      have hv' : v1 = v := by cases hv; rfl
      subst hv'
      exact ⟨hv1, rfl, le_rfl, fun pt => by simp [prodsVal]⟩
    | cons p qs ih =>
      intro hsub v1 hv1
      have hp := hsub p List.mem_cons_self
      have hcons : ∀ a ∈ p.2.map (fun i => v2.flat.getD i ⟨0, ⟨0, []⟩⟩), a.mle = heap a.ptr ∧ a.mle.WF :=
        fun a ha => ⟨(h2.flat_ok a (hcur p hp a ha)).1, (h2.flat_ok a (hcur p hp a ha)).2.1⟩
      obtain ⟨s1, s2, s3, s4⟩ := addMleList_spec (p.2.map (fun i => v2.flat.getD i ⟨0, ⟨0, []⟩⟩)) v1 p.1 hv1 hcons
      have hnenil : p.2.map (fun i => v2.flat.getD i ⟨0, ⟨0, []⟩⟩) ≠ [] := by
        simpa using hne p hp
      have hnvs : ∀ a ∈ p.2.map (fun i => v2.flat.getD i ⟨0, ⟨0, []⟩⟩), a.mle.numVars = v2.numVariables :=
        fun a ha => (h2.flat_ok a (hcur p hp a ha)).2.2
      simp only [List.foldlM_cons, hmap p hp]
      by_cases hnv : v1.numVariables = v2.numVariables
      · obtain ⟨t1, t2, t3⟩ := s3 ⟨hnenil, fun a ha => (hnvs a ha).trans hnv.symm⟩
        rcases hr : v1.addMleList (p.2.map (fun i => v2.flat.getD i ⟨0, ⟨0, []⟩⟩)) p.1 with ⟨r, w⟩
        rw [hr] at s1 s2 t1 t2 t3
        simp only at s1 s2 t1 t2 t3
        subst t1
        obtain ⟨i1, i2, i3⟩ := ih (fun q hq => hsub q (List.mem_cons_of_mem _ hq)) w s1
        simp only [bind, Except.bind, hr, expectState] at i1 i2 i3 ⊢
        refine ⟨fun _ => i1 (Or.inl (s2.trans hnv)), fun hh => absurd (Or.inl hnv) hh, ?_⟩
        intro v hv
        obtain ⟨j1, j2, j3, j4⟩ := i3 v hv
        refine ⟨j1, j2.trans s2, le_trans (t2 ▸ le_max_left _ _) j3, ?_⟩
        intro pt
        rw [j4 pt, t3 pt, hval p hp pt]
        simp only [prodsVal, List.map_cons, List.sum_cons]
        ring
      · obtain ⟨a, ha⟩ := List.exists_mem_of_ne_nil _ hnenil
        obtain ⟨t1, _⟩ := s4 (fun hh => hnv ((hh.2 a ha).symm.trans (hnvs a ha)))
        rcases hr : v1.addMleList (p.2.map (fun i => v2.flat.getD i ⟨0, ⟨0, []⟩⟩)) p.1 with ⟨r, w⟩
        rw [hr] at t1
        simp only at t1
        subst t1
        simp only [bind, Except.bind, hr, expectState]
        refine ⟨fun hh => absurd hh (by simp [hnv]), fun _ => by trivial, fun v hv => by cases hv⟩
  exact gen ps (fun _ h => h) v1 h1

end VirtPoly
end Zksql
