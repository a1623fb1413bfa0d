import Verif.Lemmas.VirtualPoly
import Verif.Lemmas.Eq
import Verif.Spec.Tracker
import Verif.Spec.WellFormed
/-! Helper lemmas about the prover tracker. -/
set_option linter.unusedSectionVars false
namespace Zksql
open Spec VirtPoly
variable {F C : Type} [Field F]

/-! ### Association lists -/

theorem lookup_amErase {κ α : Type} [BEq κ] [LawfulBEq κ] (k k' : κ) (m : List (κ × α)) [Decidable (k' = k)] :
    (amErase k m).lookup k' = if k' = k then none else m.lookup k' := by
  unfold amErase
  induction m with
  | nil => simp
  | cons e m ih =>
    obtain ⟨a, b⟩ := e
    by_cases ha : a = k
    · subst ha
      simp only [List.filter_cons, BEq.rfl, Bool.not_true, Bool.false_eq_true, if_false, ih]
      by_cases hk : k' = a
      · simp [hk]
      · have : (k' == a) = false := by simpa using hk
        simp [hk, List.lookup_cons, this]
    · have h1 : (a == k) = false := by simpa using ha
      simp only [List.filter_cons, h1, Bool.not_false, if_true, List.lookup_cons, ih]
      by_cases hk : k' = a
      · subst hk; simp [ha]
      · have : (k' == a) = false := by simpa using hk
        simp [this]

theorem lookup_amInsert {κ α : Type} [BEq κ] [LawfulBEq κ] (k k' : κ) (v : α) (m : List (κ × α)) [Decidable (k' = k)] :
    (amInsert k v m).lookup k' = if k' = k then some v else m.lookup k' := by
  have := lookup_amErase k k' m
  unfold amErase at this
  unfold amInsert
  rw [List.lookup_cons]
  by_cases hk : k' = k
  · simp [hk]
  · have h2 : (k' == k) = false := by simpa using hk
    rw [h2, this, if_neg hk, if_neg hk]

namespace PTracker

/-! ### Meaning of identifiers -/

/-- The identifier is known and has `nv` variables. -/
def HasNv (t : PTracker F C) (id nv : Nat) : Prop :=
  (∃ a, t.mats.lookup id = some a ∧ a.mle.numVars = nv) ∨
    (t.mats.lookup id = none ∧ ∃ v, t.virts.lookup id = some v ∧ t.AllNv nv v)

/-- A functional of material polynomials, extended by 0. -/
def matVal (t : PTracker F C) (f : Mle F → F) (m : Nat) : F :=
  match t.mats.lookup m with
  | some a => f a.mle
  | none => 0

/-- A functional of material polynomials, extended to virtual ones by sums of products. -/
def gval (t : PTracker F C) (f : Mle F → F) (id : Nat) : F :=
  match t.mats.lookup id with
  | some a => f a.mle
  | none => match t.virts.lookup id with
    | some v => prodsVal (t.matVal f) v
    | none => 0

/-- Nothing known is forgotten or changed. -/
structure Keep (t t' : PTracker F C) : Prop where
  cnt : t.idCounter ≤ t'.idCounter
  mats : ∀ id a, t.mats.lookup id = some a → t'.mats.lookup id = some a
  virts : ∀ id v, t.virts.lookup id = some v → t'.virts.lookup id = some v
  fresh : ∀ id, id < t.idCounter → t.mats.lookup id = none → t'.mats.lookup id = none

theorem Keep.refl (t : PTracker F C) : Keep t t := ⟨le_refl _, fun _ _ h => h, fun _ _ h => h, fun _ _ h => h⟩

theorem Keep.trans {a b c : PTracker F C} (h1 : Keep a b) (h2 : Keep b c) : Keep a c :=
  ⟨h1.cnt.trans h2.cnt, fun i x h => h2.mats i x (h1.mats i x h), fun i x h => h2.virts i x (h1.virts i x h),
    fun i hi h => h2.fresh i (lt_of_lt_of_le hi h1.cnt) (h1.fresh i hi h)⟩

variable {R : Mle F → C → Prop} {t t' : PTracker F C}

theorem AllNv.mono {nv : Nat} {v : VRep F} (h : t.AllNv nv v) (hm : ∀ id a, t.mats.lookup id = some a → t'.mats.lookup id = some a) :
    t'.AllNv nv v :=
  ⟨h.1, fun q hq => ⟨(h.2 q hq).1, fun m hmem => by
    obtain ⟨a, h1, h2⟩ := (h.2 q hq).2 m hmem
    exact ⟨a, hm m a h1, h2⟩⟩⟩

theorem matVal_mono {nv : Nat} {v : VRep F} (h : t.AllNv nv v) (hm : ∀ id a, t.mats.lookup id = some a → t'.mats.lookup id = some a)
    (f : Mle F → F) : prodsVal (t'.matVal f) v = prodsVal (t.matVal f) v := by
  apply prodsVal_congr
  intro q hq m hmem
  obtain ⟨a, h1, _⟩ := (h.2 q hq).2 m hmem
  simp only [matVal, h1, hm m a h1]

theorem HasNv.lt (hI : Inv R t) {id nv : Nat} (h : t.HasNv id nv) : id < t.idCounter := by
  rcases h with ⟨a, h1, _⟩ | ⟨_, v, h1, _⟩
  · exact (hI.matOk id a h1).1
  · exact (hI.virtOk id v h1).1

theorem HasNv.keep (hI : Inv R t) (hk : Keep t t') {id nv : Nat} (h : t.HasNv id nv) : t'.HasNv id nv := by
  have hlt := h.lt hI
  rcases h with ⟨a, h1, h2⟩ | ⟨h0, v, h1, h2⟩
  · exact Or.inl ⟨a, hk.mats id a h1, h2⟩
  · exact Or.inr ⟨hk.fresh id hlt h0, v, hk.virts id v h1, h2.mono hk.mats⟩

theorem gval_keep (hI : Inv R t) (hk : Keep t t') {id nv : Nat} (h : t.HasNv id nv) (f : Mle F → F) :
    t'.gval f id = t.gval f id := by
  have hlt := h.lt hI
  rcases h with ⟨a, h1, h2⟩ | ⟨h0, v, h1, h2⟩
  · simp only [gval, h1, hk.mats id a h1]
  · simp only [gval, h0, h1, hk.fresh id hlt h0, hk.virts id v h1]
    exact matVal_mono h2 hk.mats f

theorem HasNv.unique {id nv nv' : Nat} (h : t.HasNv id nv) (h' : t.HasNv id nv') : nv = nv' := by
  rcases h with ⟨a, h1, h2⟩ | ⟨h0, v, h1, h2⟩ <;> rcases h' with ⟨a', h1', h2'⟩ | ⟨h0', v', h1', h2'⟩
  · rw [h1] at h1'; injection h1' with e; rw [← h2, ← h2', e]
  · rw [h1] at h0'; simp at h0'
  · rw [h1'] at h0; simp at h0
  · rw [h1] at h1'; injection h1' with e
    subst e
    obtain ⟨q, hq⟩ := List.exists_mem_of_ne_nil _ h2.1
    obtain ⟨m, hm⟩ := List.exists_mem_of_ne_nil _ (h2.2 q hq).1
    obtain ⟨a, e1, e2⟩ := (h2.2 q hq).2 m hm
    obtain ⟨a', e1', e2'⟩ := (h2'.2 q hq).2 m hm
    rw [e1] at e1'; injection e1' with e
    rw [← e2, ← e2', e]

/-! ### State changes -/

/-- The state after tracking a material polynomial held by `a`. -/
def pushArc (t : PTracker F C) (a : ArcMle F) : PTracker F C :=
  { t with idCounter := t.idCounter + 1, mats := amInsert t.idCounter a t.mats }

/-- The state after tracking a new material polynomial. -/
def pushMat (t : PTracker F C) (p : Mle F) : PTracker F C :=
  pushArc { t with heap := t.heap + 1 } ⟨t.heap, p⟩

/-- The state after tracking a virtual polynomial. -/
def pushVirt (t : PTracker F C) (v : VRep F) : PTracker F C :=
  { t with idCounter := t.idCounter + 1, virts := amInsert t.idCounter v t.virts }

/-- The state after replacing a virtual polynomial by its table. -/
def setMat (t : PTracker F C) (id : Nat) (p : Mle F) : PTracker F C :=
  { t with heap := t.heap + 1, mats := amInsert id ⟨t.heap, p⟩ t.mats, virts := amErase id t.virts }

theorem trackMatArc_run (a : ArcMle F) (t : PTracker F C) : trackMatArc a t = (.ok t.idCounter, t.pushArc a) := rfl
theorem trackMat_run (p : Mle F) (t : PTracker F C) : trackMat p t = (.ok t.idCounter, t.pushMat p) := rfl
theorem trackVirt_run (v : VRep F) (t : PTracker F C) : trackVirt v t = (.ok t.idCounter, t.pushVirt v) := rfl

theorem Inv.none_cnt (hI : Inv R t) : t.mats.lookup t.idCounter = none := by
  rcases h : t.mats.lookup t.idCounter with _ | a
  · rfl
  · exact absurd (hI.matOk _ a h).1 (lt_irrefl _)

theorem Inv.none_cnt_virt (hI : Inv R t) : t.virts.lookup t.idCounter = none := by
  rcases h : t.virts.lookup t.idCounter with _ | a
  · rfl
  · exact absurd (hI.virtOk _ a h).1 (lt_irrefl _)

theorem keep_pushArc (hI : Inv R t) (a : ArcMle F) : Keep t (t.pushArc a) := by
  refine ⟨by simp [pushArc], ?_, fun _ _ h => h, ?_⟩
  · intro id x h
    simp only [pushArc, lookup_amInsert]
    have := (hI.matOk id x h).1
    rw [if_neg (by omega)]; exact h
  · intro id hid h
    simp only [pushArc, lookup_amInsert]
    rw [if_neg (by omega)]; exact h

theorem inv_pushArc (hI : Inv R t) (a : ArcMle F) (hw : a.mle.WF) (hp : a.ptr < t.heap)
    (hc : ∀ id' a', t.mats.lookup id' = some a' → a.ptr = a'.ptr → a.mle = a'.mle) : Inv R (t.pushArc a) := by
  have hk := keep_pushArc hI a
  have hl : ∀ id, (t.pushArc a).mats.lookup id = if id = t.idCounter then some a else t.mats.lookup id := fun id => by
    simp only [pushArc, lookup_amInsert]
  constructor
  · intro id x h
    rw [hl] at h
    split at h
    · injection h with h; subst h
      rename_i e; subst e
      exact ⟨by simp [pushArc], hw, hp⟩
    · obtain ⟨h1, h2⟩ := hI.matOk id x h
      exact ⟨by simp [pushArc]; omega, h2⟩
  · intro id v h
    obtain ⟨h1, h2, nv, h3⟩ := hI.virtOk id v h
    exact ⟨by simp [pushArc]; omega, hk.fresh id h1 h2, nv, h3.mono hk.mats⟩
  · intro id x id' x' h h' e
    rw [hl] at h h'
    split at h <;> split at h'
    · injection h with h; injection h' with h'; rw [← h, ← h']
    · injection h with h; subst h; exact hc id' x' h' e
    · injection h' with h'; subst h'; exact (hc id x h e.symm).symm
    · exact hI.ptrs id x id' x' h h' e
  · intro id c h
    obtain ⟨x, h1, h2⟩ := hI.commOk id c h
    exact ⟨x, hk.mats id x h1, h2⟩

theorem inv_heap (hI : Inv R t) : Inv R { t with heap := t.heap + 1 } :=
  ⟨fun id a h => by obtain ⟨h1, h2, h3⟩ := hI.matOk id a h; exact ⟨h1, h2, Nat.lt_succ_of_lt h3⟩, hI.virtOk, hI.ptrs, hI.commOk⟩

theorem inv_pushMat (hI : Inv R t) (p : Mle F) (hw : p.WF) : Inv R (t.pushMat p) := by
  apply inv_pushArc (inv_heap hI) _ hw (by simp)
  intro id' a' h e
  have := (hI.matOk id' a' h).2.2
  simp only at e; omega

theorem keep_pushMat (hI : Inv R t) (p : Mle F) : Keep t (t.pushMat p) := by
  have := keep_pushArc (inv_heap hI) ⟨t.heap, p⟩
  exact ⟨this.cnt, this.mats, this.virts, this.fresh⟩

theorem pushArc_lookup (a : ArcMle F) (t : PTracker F C) : (t.pushArc a).mats.lookup t.idCounter = some a := by
  simp [pushArc, lookup_amInsert]

theorem pushMat_lookup (p : Mle F) (t : PTracker F C) : (t.pushMat p).mats.lookup t.idCounter = some ⟨t.heap, p⟩ :=
  pushArc_lookup _ _

theorem keep_pushVirt (hI : Inv R t) (v : VRep F) : Keep t (t.pushVirt v) := by
  refine ⟨by simp [pushVirt], fun _ _ h => h, ?_, fun _ _ h => h⟩
  intro id x h
  simp only [pushVirt, lookup_amInsert]
  have := (hI.virtOk id x h).1
  rw [if_neg (by omega)]; exact h

theorem inv_pushVirt (hI : Inv R t) (v : VRep F) {nv : Nat} (hv : t.AllNv nv v) : Inv R (t.pushVirt v) := by
  constructor
  · intro id x h
    obtain ⟨h1, h2⟩ := hI.matOk id x h
    exact ⟨Nat.lt_succ_of_lt h1, h2⟩
  · intro id x h
    simp only [pushVirt, lookup_amInsert] at h
    split at h
    · injection h with h; subst h
      rename_i e; subst e
      exact ⟨Nat.lt_succ_self _, hI.none_cnt, nv, hv⟩
    · obtain ⟨h1, h2⟩ := hI.virtOk id x h
      exact ⟨Nat.lt_succ_of_lt h1, h2⟩
  · exact hI.ptrs
  · exact hI.commOk

theorem pushVirt_lookup (v : VRep F) (t : PTracker F C) : (t.pushVirt v).virts.lookup t.idCounter = some v := by
  simp [pushVirt, lookup_amInsert]

theorem hasNv_pushVirt (hI : Inv R t) {v : VRep F} {nv : Nat} (hv : t.AllNv nv v) :
    (t.pushVirt v).HasNv t.idCounter nv :=
  Or.inr ⟨hI.none_cnt, v, pushVirt_lookup v t, hv⟩

theorem gval_pushVirt (hI : Inv R t) {v : VRep F} (f : Mle F → F) :
    (t.pushVirt v).gval f t.idCounter = prodsVal (t.matVal f) v := by
  have h0 : (t.pushVirt v).mats.lookup t.idCounter = none := hI.none_cnt
  simp only [gval, h0, pushVirt_lookup]
  rfl

/-! ### Representations -/

theorem HasNv.known {id nv : Nat} (hI : Inv R t) (h : t.HasNv id nv) :
    (∃ a, t.mats.lookup id = some a ∧ t.virts.lookup id = none ∧ a.mle.numVars = nv) ∨
    (t.mats.lookup id = none ∧ ∃ v, t.virts.lookup id = some v ∧ t.AllNv nv v) := by
  rcases h with ⟨a, h1, h2⟩ | h
  · left
    refine ⟨a, h1, ?_, h2⟩
    rcases hv : t.virts.lookup id with _ | v
    · rfl
    · have := (hI.virtOk id v hv).2.1
      rw [h1] at this; simp at this
  · exact Or.inr h

theorem prodsVal_scale (g : Nat → F) (s : F) (v : VRep F) : prodsVal g (v.map fun q => (s * q.1, q.2)) = s * prodsVal g v := by
  unfold prodsVal
  induction v with
  | nil => simp
  | cons q v ih => simp only [List.map_cons, List.sum_cons, ih]; ring

theorem prodsVal_scale' (g : Nat → F) (s : F) (v : VRep F) : prodsVal g (v.map fun q => (q.1 * s, q.2)) = prodsVal g v * s := by
  unfold prodsVal
  induction v with
  | nil => simp
  | cons q v ih => simp only [List.map_cons, List.sum_cons, ih]; ring

theorem prodsVal_snoc (g : Nat → F) (m : Nat) (v : VRep F) : prodsVal g (v.map fun q => (q.1, q.2 ++ [m])) = prodsVal g v * g m := by
  unfold prodsVal
  induction v with
  | nil => simp
  | cons q v ih => simp only [List.map_cons, List.sum_cons, ih, List.map_append, List.prod_append]; simp; ring

theorem prodsVal_conv (g : Nat → F) (v w : VRep F) :
    prodsVal g (v.flatMap fun q1 => w.map fun q2 => (q1.1 * q2.1, q1.2 ++ q2.2)) = prodsVal g v * prodsVal g w := by
  unfold prodsVal
  induction v with
  | nil => simp
  | cons q v ih =>
    simp only [List.flatMap_cons, List.map_append, List.sum_append, ih, List.map_cons, List.sum_cons, add_mul]
    congr 1
    clear ih
    induction w with
    | nil => simp
    | cons r w ih2 => simp only [List.map_cons, List.sum_cons, ih2, List.map_append, List.prod_append]; ring

theorem prodsVal_single (g : Nat → F) (c : F) (m : Nat) : prodsVal g [(c, [m])] = c * g m := by simp [prodsVal]

theorem AllNv.append {nv : Nat} {v w : VRep F} (h1 : t.AllNv nv v) (h2 : t.AllNv nv w) : t.AllNv nv (v ++ w) := by
  refine ⟨by simp [h1.1], fun q hq => ?_⟩
  rcases List.mem_append.1 hq with h | h
  · exact h1.2 q h
  · exact h2.2 q h

theorem AllNv.map {nv : Nat} {v : VRep F} (h : t.AllNv nv v) (g : F → F) : t.AllNv nv (v.map fun q => (g q.1, q.2)) := by
  refine ⟨by simpa using h.1, fun q hq => ?_⟩
  obtain ⟨q', hq', rfl⟩ := List.mem_map.1 hq
  exact h.2 q' hq'

theorem allNv_single {nv m : Nat} {c : F} {a : ArcMle F} (h : t.mats.lookup m = some a) (hn : a.mle.numVars = nv) :
    t.AllNv nv [(c, [m])] := by
  refine ⟨by simp, fun q hq => ?_⟩
  obtain rfl : q = (c, [m]) := by simpa using hq
  refine ⟨by simp, fun m' hm' => ?_⟩
  obtain rfl : m' = m := by simpa using hm'
  exact ⟨a, h, hn⟩

theorem addSubRep_spec (hI : Inv R t) {i j nv : Nat} (hi : t.HasNv i nv) (hj : t.HasNv j nv) (s : Bool) :
    ∃ v, t.addSubRep i j s = .ok v ∧ t.AllNv nv v ∧
      ∀ f, prodsVal (t.matVal f) v = if s then t.gval f i - t.gval f j else t.gval f i + t.gval f j := by
  have hs : ∀ x y : F, x + (if s then (-1 : F) else 1) * y = if s then x - y else x + y := by
    intro x y; cases s <;> simp; ring
  rcases hi.known hI with ⟨a, h1, h2, h3⟩ | ⟨h1, v1, h2, h3⟩ <;> rcases hj.known hI with ⟨b, g1, g2, g3⟩ | ⟨g1, v2, g2, g3⟩
  · refine ⟨[(1, [i]), (if s then -1 else 1, [j])], by simp only [addSubRep, h1, h2, g1, g2], ?_, ?_⟩
    · exact (allNv_single h1 h3).append (allNv_single (c := if s then -1 else 1) g1 g3)
    · intro f
      rw [← hs, show [((1 : F), [i]), (if s then -1 else 1, [j])] = [((1 : F), [i])] ++ [(if s then (-1 : F) else 1, [j])] from rfl,
        prodsVal_append, prodsVal_single, prodsVal_single]
      simp only [matVal, gval, h1, g1, one_mul]
  · refine ⟨(1, [i]) :: v2.map fun q => ((if s then -1 else 1) * q.1, q.2), by simp only [addSubRep, h1, h2, g1, g2], ?_, ?_⟩
    · exact (allNv_single (c := 1) h1 h3).append (g3.map ((if s then -1 else 1) * ·))
    · intro f
      rw [← hs, ← List.singleton_append, prodsVal_append, prodsVal_single, prodsVal_scale]
      simp only [matVal, gval, h1, g1, g2, one_mul]
  · refine ⟨v1 ++ [(if s then -1 else 1, [j])], by simp only [addSubRep, h1, h2, g1, g2], ?_, ?_⟩
    · exact h3.append (allNv_single g1 g3)
    · intro f
      rw [← hs, prodsVal_append, prodsVal_single]
      simp only [gval, h1, h2, g1, matVal]
  · refine ⟨v1 ++ v2.map fun q => ((if s then -1 else 1) * q.1, q.2), by simp only [addSubRep, h1, h2, g1, g2], ?_, ?_⟩
    · exact h3.append (g3.map ((if s then -1 else 1) * ·))
    · intro f
      rw [← hs, prodsVal_append, prodsVal_scale]
      simp only [gval, h1, h2, g1, g2]

theorem mulRep_spec (hI : Inv R t) {i j nv : Nat} (hi : t.HasNv i nv) (hj : t.HasNv j nv) :
    ∃ v, t.mulRep i j = .ok v ∧ t.AllNv nv v ∧ ∀ f, prodsVal (t.matVal f) v = t.gval f i * t.gval f j := by
  have hsnoc : ∀ (v : VRep F) (m : Nat) (a : ArcMle F), t.AllNv nv v → t.mats.lookup m = some a → a.mle.numVars = nv →
      t.AllNv nv (v.map fun q => (q.1, q.2 ++ [m])) := by
    intro v m a hv hm hn
    refine ⟨by simpa using hv.1, fun q hq => ?_⟩
    obtain ⟨q', hq', rfl⟩ := List.mem_map.1 hq
    refine ⟨by simp, fun m' hm' => ?_⟩
    simp only [List.mem_append, List.mem_singleton] at hm'
    rcases hm' with h | rfl
    · exact (hv.2 q' hq').2 m' h
    · exact ⟨a, hm, hn⟩
  rcases hi.known hI with ⟨a, h1, h2, h3⟩ | ⟨h1, v1, h2, h3⟩ <;> rcases hj.known hI with ⟨b, g1, g2, g3⟩ | ⟨g1, v2, g2, g3⟩
  · refine ⟨[(1, [i, j])], by simp only [mulRep, h1, h2, g1, g2], ?_, ?_⟩
    · exact hsnoc [(1, [i])] j b (allNv_single h1 h3) g1 g3
    · intro f
      simp [prodsVal, matVal, gval, h1, g1]
  · refine ⟨v2.map fun q => (q.1, q.2 ++ [i]), by simp only [mulRep, h1, h2, g1, g2], hsnoc v2 i a g3 h1 h3, ?_⟩
    intro f
    rw [prodsVal_snoc, mul_comm]
    simp only [matVal, gval, h1, g1, g2]
  · refine ⟨v1.map fun q => (q.1, q.2 ++ [j]), by simp only [mulRep, h1, h2, g1, g2], hsnoc v1 j b h3 g1 g3, ?_⟩
    intro f
    rw [prodsVal_snoc]
    simp only [matVal, gval, h1, h2, g1]
  · refine ⟨v1.flatMap fun q1 => v2.map fun q2 => (q1.1 * q2.1, q1.2 ++ q2.2), by simp only [mulRep, h1, h2, g1, g2], ?_, ?_⟩
    · refine ⟨?_, fun q hq => ?_⟩
      · obtain ⟨q1, hq1⟩ := List.exists_mem_of_ne_nil _ h3.1
        obtain ⟨q2, hq2⟩ := List.exists_mem_of_ne_nil _ g3.1
        intro e
        have : ((q1.1 * q2.1, q1.2 ++ q2.2) : F × List Nat) ∈ (v1.flatMap fun q1 => v2.map fun q2 => (q1.1 * q2.1, q1.2 ++ q2.2)) :=
          List.mem_flatMap.2 ⟨q1, hq1, List.mem_map.2 ⟨q2, hq2, rfl⟩⟩
        rw [e] at this; simp at this
      · obtain ⟨q1, hq1, h⟩ := List.mem_flatMap.1 hq
        obtain ⟨q2, hq2, rfl⟩ := List.mem_map.1 h
        refine ⟨by simp [(h3.2 q1 hq1).1], fun m hm => ?_⟩
        simp only [List.mem_append] at hm
        rcases hm with h | h
        · exact (h3.2 q1 hq1).2 m h
        · exact (g3.2 q2 hq2).2 m h
    · intro f
      rw [prodsVal_conv]
      simp only [gval, h1, h2, g1, g2]

theorem mulScalarRep_spec (hI : Inv R t) {i nv : Nat} (hi : t.HasNv i nv) (c : F) :
    ∃ v, t.mulScalarRep i c = .ok v ∧ t.AllNv nv v ∧ ∀ f, prodsVal (t.matVal f) v = c * t.gval f i := by
  rcases hi.known hI with ⟨a, h1, h2, h3⟩ | ⟨h1, v1, h2, h3⟩
  · refine ⟨[(c, [i])], by simp only [mulScalarRep, h1], allNv_single h1 h3, fun f => ?_⟩
    rw [prodsVal_single]
    simp only [matVal, gval, h1]
  · refine ⟨v1.map fun q => (q.1 * c, q.2), by simp only [mulScalarRep, h1, h2, unwrap_some, ok_bind], h3.map (· * c), fun f => ?_⟩
    rw [prodsVal_scale', mul_comm]
    simp only [gval, h1, h2]

theorem repNv_spec {nv : Nat} {v : VRep F} (hv : t.AllNv nv v) : t.repNv v = .ok nv := by
  obtain ⟨hne, hall⟩ := hv
  rcases v with _ | ⟨q, v⟩
  · exact absurd rfl hne
  · obtain ⟨h1, h2⟩ := hall q List.mem_cons_self
    rcases hq : q.2 with _ | ⟨m, ms⟩
    · exact absurd hq h1
    · obtain ⟨a, e1, e2⟩ := h2 m (by rw [hq]; exact List.mem_cons_self)
      simp [repNv, idx, hq, e1, e2]

theorem getPolyNv_spec {id nv : Nat} (h : t.HasNv id nv) : t.getPolyNv id = .ok nv := by
  rcases h with ⟨a, h1, h2⟩ | ⟨h0, v, h1, h2⟩
  · simp only [getPolyNv, h1, h2]
  · simp only [getPolyNv, h0, h1, repNv_spec h2]

/-! ### Evaluation -/

theorem evaluate_spec (hI : Inv R t) {id nv : Nat} (h : t.HasNv id nv) (x : List F) (hx : x.length = nv) :
    t.evaluate id x = .ok (some (t.gval (fun p => mle p.tbl x) id)) := by
  rcases h with ⟨a, h1, h2⟩ | ⟨h0, v, h1, h2⟩
  · simp only [evaluate, h1, gval]
    rw [evaluate_eq _ (hI.matOk id a h1).2.1 x (by omega)]
  · simp only [evaluate, h0, h1, gval]
    rw [mapM_ok v _ (fun q => q.1 * (q.2.map (t.matVal fun p => mle p.tbl x)).prod)]
    · rw [ok_bind]
      congr 2
      rw [prodsVal, List.sum_eq_foldl]
    · intro q hq
      rw [mapM_ok q.2 _ (t.matVal fun p => mle p.tbl x), ok_bind]
      · congr 1
        generalize q.1 = c
        clear hq
        induction (q.2.map (t.matVal fun p => mle p.tbl x)) generalizing c with
        | nil => simp
        | cons y ys ih => rw [List.foldl_cons, ih, List.prod_cons, mul_assoc]
      · intro m hm
        obtain ⟨a, e1, e2⟩ := (h2.2 q hq).2 m hm
        rw [e1, unwrap_some, ok_bind, evaluate_eq _ (hI.matOk m a e1).2.1 x (by omega), unwrap_some]
        simp only [matVal, e1]

theorem foldl_zipWith_mul (tabs : List (List F)) (n : Nat) (g : Nat → F) (h : ∀ e ∈ tabs, e.length = n) :
    tabs.foldl (fun res e => List.zipWith (· * ·) res e) ((List.range n).map g) =
      (List.range n).map fun b => g b * (tabs.map fun e => e.getD b 0).prod := by
  induction tabs generalizing g with
  | nil => simp
  | cons e es ih =>
    have he := h e List.mem_cons_self
    have : List.zipWith (· * ·) ((List.range n).map g) e = (List.range n).map fun b => g b * e.getD b 0 := by
      apply List.ext_getElem
      · simp [he]
      · intro i h1 h2
        have hi : i < e.length := by simp at h1; omega
        simp [List.getD_eq_getElem?_getD, hi]
    rw [List.foldl_cons, this, ih _ (fun e' he' => h e' (List.mem_cons_of_mem _ he'))]
    apply List.map_congr_left
    intro b _
    rw [List.map_cons, List.prod_cons, mul_assoc]

theorem foldl_zipWith_add (tabs : List (List F)) (n : Nat) (g : Nat → F) (h : ∀ e ∈ tabs, e.length = n) :
    tabs.foldl (fun res e => List.zipWith (· + ·) res e) ((List.range n).map g) =
      (List.range n).map fun b => g b + (tabs.map fun e => e.getD b 0).sum := by
  induction tabs generalizing g with
  | nil => simp
  | cons e es ih =>
    have he := h e List.mem_cons_self
    have : List.zipWith (· + ·) ((List.range n).map g) e = (List.range n).map fun b => g b + e.getD b 0 := by
      apply List.ext_getElem
      · simp [he]
      · intro i h1 h2
        have hi : i < e.length := by simp at h1; omega
        simp [List.getD_eq_getElem?_getD, hi]
    rw [List.foldl_cons, this, ih _ (fun e' he' => h e' (List.mem_cons_of_mem _ he'))]
    apply List.map_congr_left
    intro b _
    rw [List.map_cons, List.sum_cons, add_assoc]

theorem replicate_eq_map_range (n : Nat) (c : F) : List.replicate n c = (List.range n).map fun _ => c := by
  apply List.ext_getElem <;> simp

theorem prodEvals_spec (hI : Inv R t) {nv : Nat} (q : F × List Nat)
    (hq : ∀ m ∈ q.2, ∃ a, t.mats.lookup m = some a ∧ a.mle.numVars = nv) :
    t.prodEvals nv q = .ok ((List.range (2 ^ nv)).map fun b => q.1 * (q.2.map (t.matVal fun p => p.tbl b)).prod) := by
  unfold prodEvals
  rw [mapM_ok q.2 _ (fun m => match t.mats.lookup m with | some a => a.mle.evals | none => []), ok_bind]
  · rw [replicate_eq_map_range, foldl_zipWith_mul]
    · congr 1
      apply List.map_congr_left
      intro b _
      rw [List.map_map]
      congr 2
      apply List.map_congr_left
      intro m hm
      obtain ⟨a, e1, _⟩ := hq m hm
      simp only [Function.comp, matVal, e1, Mle.tbl]
    · intro e he
      obtain ⟨m, hm, rfl⟩ := List.mem_map.1 he
      obtain ⟨a, e1, e2⟩ := hq m hm
      have hw := (hI.matOk m a e1).2.1
      simp only [e1]
      rw [← e2]; exact hw
  · intro m hm
    obtain ⟨a, e1, _⟩ := hq m hm
    simp [e1]

/-- The table of a virtual polynomial. -/
def repMle (t : PTracker F C) (nv : Nat) (v : VRep F) : Mle F :=
  ⟨nv, (List.range (2 ^ nv)).map fun b => prodsVal (t.matVal fun p => p.tbl b) v⟩

theorem repMle_wf (t : PTracker F C) (nv : Nat) (v : VRep F) : (t.repMle nv v).WF := by simp [repMle, Mle.WF]

theorem repMle_tbl (t : PTracker F C) (nv : Nat) (v : VRep F) (b : Nat) (hb : b < 2 ^ nv) :
    (t.repMle nv v).tbl b = prodsVal (t.matVal fun p => p.tbl b) v := by
  simp only [repMle, Mle.tbl]
  rw [getD_map_range _ _ _ _ hb]

theorem materializeRep_spec (hI : Inv R t) {nv : Nat} {v : VRep F} (hv : t.AllNv nv v) :
    t.materializeRep v = .ok (t.repMle nv v) := by
  unfold materializeRep
  rw [repNv_spec hv, ok_bind, mapM_ok v _ (fun q => (List.range (2 ^ nv)).map fun b => q.1 * (q.2.map (t.matVal fun p => p.tbl b)).prod),
    ok_bind]
  · rw [replicate_eq_map_range, foldl_zipWith_add]
    · rw [Mle.fromEvals, if_pos (by simp)]
      unfold repMle
      congr 2
      apply List.map_congr_left
      intro b hb
      rw [List.mem_range] at hb
      rw [zero_add, prodsVal, List.map_map]
      congr 1
      apply List.map_congr_left
      intro q _
      simp only [Function.comp]
      rw [getD_map_range _ _ _ _ hb]
    · intro e he
      obtain ⟨q, _, rfl⟩ := List.mem_map.1 he
      simp
  · intro q hq
    exact prodEvals_spec hI q (hv.2 q hq).2

/-! ### Materialisation -/

/-- What materialising an identifier does to the state. -/
def matSt (t : PTracker F C) (id nv : Nat) : PTracker F C :=
  match t.mats.lookup id with
  | some _ => t
  | none => match t.virts.lookup id with
    | some v => t.setMat id (t.repMle nv v)
    | none => t

theorem materialize_run (hI : Inv R t) {id nv : Nat} (h : t.HasNv id nv) : materialize id t = (.ok (), t.matSt id nv) := by
  rcases h with ⟨a, h1, h2⟩ | ⟨h0, v, h1, h2⟩
  · simp only [materialize, matSt, h1]
  · simp only [materialize, matSt, h0, h1]
    rw [materializeRep_spec hI h2]
    rfl

theorem setMat_lookup (t : PTracker F C) (id : Nat) (p : Mle F) (i : Nat) :
    (t.setMat id p).mats.lookup i = if i = id then some ⟨t.heap, p⟩ else t.mats.lookup i := by
  simp only [setMat, lookup_amInsert]

theorem setMat_virts (t : PTracker F C) (id : Nat) (p : Mle F) (i : Nat) :
    (t.setMat id p).virts.lookup i = if i = id then none else t.virts.lookup i := by
  simp only [setMat, lookup_amErase]

theorem setMat_mono {id : Nat} (h0 : t.mats.lookup id = none) (p : Mle F) (i : Nat) (a : ArcMle F) (h : t.mats.lookup i = some a) :
    (t.setMat id p).mats.lookup i = some a := by
  rw [setMat_lookup, if_neg]
  · exact h
  · rintro rfl; rw [h0] at h; simp at h

theorem inv_setMat (hI : Inv R t) {id : Nat} (hlt : id < t.idCounter) (h0 : t.mats.lookup id = none) (p : Mle F) (hw : p.WF) :
    Inv R (t.setMat id p) := by
  constructor
  · intro i a h
    rw [setMat_lookup] at h
    split at h
    · injection h with h; subst h
      rename_i e; subst e
      exact ⟨hlt, hw, by simp [setMat]⟩
    · obtain ⟨h1, h2, h3⟩ := hI.matOk i a h
      exact ⟨h1, h2, by simp only [setMat]; omega⟩
  · intro i v h
    rw [setMat_virts] at h
    split at h
    · simp at h
    · rename_i hne
      obtain ⟨h1, h2, nv, h3⟩ := hI.virtOk i v h
      refine ⟨h1, ?_, nv, h3.mono (setMat_mono h0 p)⟩
      rw [setMat_lookup, if_neg hne]; exact h2
  · intro i a i' a' h h' e
    rw [setMat_lookup] at h h'
    split at h <;> split at h'
    · injection h with h; injection h' with h'; rw [← h, ← h']
    · injection h with h; subst h
      have := (hI.matOk i' a' h').2.2
      simp only at e; omega
    · injection h' with h'; subst h'
      have := (hI.matOk i a h).2.2
      simp only at e; omega
    · exact hI.ptrs i a i' a' h h' e
  · intro i c h
    obtain ⟨x, h1, h2⟩ := hI.commOk i c h
    exact ⟨x, setMat_mono h0 p i x h1, h2⟩

/-- What every operation preserves: known identifiers stay known with their size and hypercube values. -/
structure Pres (t t' : PTracker F C) : Prop where
  cnt : t.idCounter ≤ t'.idCounter
  nv : ∀ id nv, t.HasNv id nv → t'.HasNv id nv
  cube : ∀ id nv b, t.HasNv id nv → b < 2 ^ nv → t'.gval (fun p => p.tbl b) id = t.gval (fun p => p.tbl b) id
  mats : ∀ id a, t.mats.lookup id = some a → t'.mats.lookup id = some a

theorem Pres.refl (t : PTracker F C) : Pres t t := ⟨le_refl _, fun _ _ h => h, fun _ _ _ _ _ => rfl, fun _ _ h => h⟩

theorem Pres.trans {a b c : PTracker F C} (h1 : Pres a b) (h2 : Pres b c) : Pres a c :=
  ⟨h1.cnt.trans h2.cnt, fun id nv h => h2.nv id nv (h1.nv id nv h),
    fun id nv i h hi => (h2.cube id nv i (h1.nv id nv h) hi).trans (h1.cube id nv i h hi), fun id a h => h2.mats id a (h1.mats id a h)⟩

theorem Keep.pres (hI : Inv R t) (hk : Keep t t') : Pres t t' :=
  ⟨hk.cnt, fun _ _ h => h.keep hI hk, fun _ _ _ h _ => gval_keep hI hk h _, hk.mats⟩

theorem matSt_spec (hI : Inv R t) {id nv : Nat} (h : t.HasNv id nv) :
    Inv R (t.matSt id nv) ∧ Pres t (t.matSt id nv) ∧
      ∃ a, (t.matSt id nv).mats.lookup id = some a ∧ a.mle.WF ∧ a.mle.numVars = nv ∧
        ∀ b < 2 ^ nv, a.mle.tbl b = t.gval (fun p => p.tbl b) id := by
  rcases h with ⟨a, h1, h2⟩ | ⟨h0, v, h1, h2⟩
  · have e : t.matSt id nv = t := by simp only [matSt, h1]
    rw [e]
    exact ⟨hI, Pres.refl t, a, h1, (hI.matOk id a h1).2.1, h2, fun b _ => by simp only [gval, h1]⟩
  · have e : t.matSt id nv = t.setMat id (t.repMle nv v) := by simp only [matSt, h0, h1]
    rw [e]
    have hlt := (hI.virtOk id v h1).1
    refine ⟨inv_setMat hI hlt h0 _ (repMle_wf _ _ _), ⟨le_refl _, ?_, ?_, setMat_mono h0 _⟩, ⟨t.heap, t.repMle nv v⟩, ?_, repMle_wf _ _ _, rfl, ?_⟩
    · intro i n hi
      by_cases hid : i = id
      · subst hid
        have : n = nv := hi.unique (Or.inr ⟨h0, v, h1, h2⟩)
        subst this
        exact Or.inl ⟨⟨t.heap, t.repMle n v⟩, by rw [setMat_lookup, if_pos rfl], rfl⟩
      · rcases hi with ⟨a, g1, g2⟩ | ⟨g0, w, g1, g2⟩
        · exact Or.inl ⟨a, setMat_mono h0 _ i a g1, g2⟩
        · exact Or.inr ⟨by rw [setMat_lookup, if_neg hid]; exact g0, w, by rw [setMat_virts, if_neg hid]; exact g1, g2.mono (setMat_mono h0 _)⟩
    · intro i n b hi hb
      by_cases hid : i = id
      · subst hid
        have : n = nv := hi.unique (Or.inr ⟨h0, v, h1, h2⟩)
        subst this
        simp only [gval, setMat_lookup, if_true, h0, h1]
        exact repMle_tbl t n v b hb
      · rcases hi with ⟨a, g1, g2⟩ | ⟨g0, w, g1, g2⟩
        · simp only [gval, g1, setMat_mono h0 _ i a g1]
        · simp only [gval, setMat_lookup, setMat_virts, if_neg hid, g0, g1]
          exact matVal_mono g2 (setMat_mono h0 _) _
    · rw [setMat_lookup, if_pos rfl]
    · intro b hb
      simp only [gval, h0, h1]
      exact repMle_tbl t nv v b hb

theorem evals_eq_range (p : Mle F) (hp : p.WF) : p.evals = (List.range (2 ^ p.numVars)).map p.tbl := by
  apply List.ext_getElem
  · simpa [Mle.WF] using hp
  · intro i h1 h2
    simp [Mle.tbl, List.getD_eq_getElem?_getD, h1]

theorem evaluations_run (hI : Inv R t) {id nv : Nat} (h : t.HasNv id nv) :
    evaluations id t = (.ok ((List.range (2 ^ nv)).map fun b => t.gval (fun p => p.tbl b) id), t.matSt id nv) := by
  obtain ⟨_, _, a, h1, h2, h3, h4⟩ := matSt_spec hI h
  unfold evaluations
  rw [Act.bind_ok (materialize_run hI h)]
  have e : (Act.reads (fun t : PTracker F C => unwrap (t.mats.lookup id))) (t.matSt id nv) = (.ok a, t.matSt id nv) := by
    simp [h1]
  rw [Act.bind_ok e, Act.pure_run, evals_eq_range _ h2, h3]
  congr 2
  apply List.map_congr_left
  intro b hb
  exact h4 b (List.mem_range.1 hb)

/-! ### The operations -/

theorem addSubPolys_run (hI : Inv R t) {i j nv : Nat} (hi : t.HasNv i nv) (hj : t.HasNv j nv) (s : Bool) :
    ∃ v, addSubPolys i j s t = (.ok t.idCounter, t.pushVirt v) ∧ t.AllNv nv v ∧
      ∀ f, prodsVal (t.matVal f) v = if s then t.gval f i - t.gval f j else t.gval f i + t.gval f j := by
  obtain ⟨v, h1, h2, h3⟩ := addSubRep_spec hI hi hj s
  refine ⟨v, ?_, h2, h3⟩
  unfold addSubPolys
  rw [Act.bind_ok (a := v) (s' := t) (by simp [h1])]
  rfl

theorem mulPolys_run (hI : Inv R t) {i j nv : Nat} (hi : t.HasNv i nv) (hj : t.HasNv j nv) :
    ∃ v, mulPolys i j t = (.ok t.idCounter, t.pushVirt v) ∧ t.AllNv nv v ∧
      ∀ f, prodsVal (t.matVal f) v = t.gval f i * t.gval f j := by
  obtain ⟨v, h1, h2, h3⟩ := mulRep_spec hI hi hj
  refine ⟨v, ?_, h2, h3⟩
  unfold mulPolys
  rw [Act.bind_ok (a := v) (s' := t) (by simp [h1])]
  rfl

theorem mulScalar_run (hI : Inv R t) {i nv : Nat} (hi : t.HasNv i nv) (c : F) :
    ∃ v, mulScalar i c t = (.ok t.idCounter, t.pushVirt v) ∧ t.AllNv nv v ∧ ∀ f, prodsVal (t.matVal f) v = c * t.gval f i := by
  obtain ⟨v, h1, h2, h3⟩ := mulScalarRep_spec hI hi c
  refine ⟨v, ?_, h2, h3⟩
  unfold mulScalar
  rw [Act.bind_ok (a := v) (s' := t) (by simp [h1])]
  rfl

/-- The constant polynomial tracked by `add_scalar`. -/
def constMle (nv : Nat) (c : F) : Mle F := ⟨nv, List.replicate (2 ^ nv) c⟩

theorem constMle_wf (nv : Nat) (c : F) : (constMle nv c).WF := by simp [constMle, Mle.WF]

theorem constMle_tbl (nv : Nat) (c : F) (b : Nat) (hb : b < 2 ^ nv) : (constMle nv c).tbl b = c := by
  simp [constMle, Mle.tbl, List.getD_eq_getElem?_getD, hb]

theorem hasNv_pushMat (t : PTracker F C) (p : Mle F) : (t.pushMat p).HasNv t.idCounter p.numVars :=
  Or.inl ⟨_, pushMat_lookup p t, rfl⟩

theorem gval_pushMat (t : PTracker F C) (p : Mle F) (f : Mle F → F) : (t.pushMat p).gval f t.idCounter = f p := by
  simp only [gval, pushMat_lookup]

theorem addScalar_run (hI : Inv R t) {i nv : Nat} (hi : t.HasNv i nv) (c : F) :
    ∃ v, addScalar i c t = (.ok (t.idCounter + 1), (t.pushMat (constMle nv c)).pushVirt v) ∧ (t.pushMat (constMle nv c)).AllNv nv v ∧
      ∀ f, prodsVal ((t.pushMat (constMle nv c)).matVal f) v = t.gval f i + f (constMle nv c) := by
  have hI' := inv_pushMat hI _ (constMle_wf nv c)
  have hk := keep_pushMat hI (constMle nv c)
  obtain ⟨v, h1, h2, h3⟩ := addSubPolys_run hI' (hi.keep hI hk) (hasNv_pushMat t (constMle nv c)) false
  refine ⟨v, ?_, h2, ?_⟩
  · unfold addScalar
    rw [Act.bind_ok (a := nv) (s' := t) (by simp [getPolyNv_spec hi]), Act.bind_ok (a := constMle nv c) (s' := t) (by
      simp [Mle.fromEvals, constMle]), Act.bind_ok (trackMat_run _ _), h1]
    rfl
  · intro f
    rw [h3 f, gval_keep hI hk hi f, gval_pushMat]
    simp

/-- The result of adding variables to the table of an identifier. -/
theorem increaseNv_run (hI : Inv R t) {i nv : Nat} (hi : t.HasNv i nv) (inc : Mle F → Nat → Res (Mle F)) (k : Nat)
    (hinc0 : ∀ p : Mle F, inc p p.numVars = .ok p)
    (hinc : ∀ p : Mle F, p.WF → ∃ q, inc p (p.numVars + k) = .ok q ∧ q.WF ∧ q.numVars = p.numVars + k) :
    ∃ t' p q, increaseNv inc i k t = (.ok t.idCounter, t') ∧ p.WF ∧ p.numVars = nv ∧
      (∀ b < 2 ^ nv, p.tbl b = t.gval (fun p => p.tbl b) i) ∧ inc p (nv + k) = .ok q ∧
      (∃ a, (t.matSt i nv).mats.lookup i = some a ∧ a.mle = p) ∧
      Inv R t' ∧ Keep (t.matSt i nv) t' ∧ t'.idCounter = t.idCounter + 1 ∧ t'.HasNv t.idCounter (nv + k) ∧
      (∀ f, t'.gval f t.idCounter = f q) ∧ t'.transcript = t.transcript ∧ t'.comms = t.comms ∧ t'.sumClaims = t.sumClaims ∧
      t'.zeroClaims = t.zeroClaims := by
  obtain ⟨hI1, hp1, a, h1, h2, h3, h4⟩ := matSt_spec hI hi
  have hfr : (t.matSt i nv).idCounter = t.idCounter ∧ (t.matSt i nv).transcript = t.transcript ∧ (t.matSt i nv).comms = t.comms ∧
      (t.matSt i nv).sumClaims = t.sumClaims ∧ (t.matSt i nv).zeroClaims = t.zeroClaims := by
    unfold matSt
    split
    · exact ⟨rfl, rfl, rfl, rfl, rfl⟩
    · split <;> exact ⟨rfl, rfl, rfl, rfl, rfl⟩
  obtain ⟨hc, hr⟩ := hfr
  obtain ⟨q, hq1, hq2, hq3⟩ := hinc a.mle h2
  rw [h3] at hq1 hq3
  have hrun : ∀ t'' b, incArc inc a (a.mle.numVars + k) (t.matSt i nv) = (.ok b, t'') →
      increaseNv inc i k t = (.ok t''.idCounter, t''.pushArc b) := by
    intro t'' b he
    unfold increaseNv
    rw [Act.bind_ok (materialize_run hI hi), Act.bind_ok (a := a) (s' := t.matSt i nv) (by simp [h1]), Act.bind_ok he]
    rfl
  by_cases hk : k = 0
  · subst hk
    have e : incArc inc a (a.mle.numVars + 0) (t.matSt i nv) = (.ok a, t.matSt i nv) := by
      unfold incArc; rw [if_pos (Nat.add_zero _).symm]; rfl
    have hqa : q = a.mle := by
      have := hinc0 a.mle
      rw [h3] at this
      rw [Nat.add_zero, this] at hq1
      injection hq1 with hq1; exact hq1.symm
    refine ⟨(t.matSt i nv).pushArc a, a.mle, q, ?_, h2, h3, h4, hq1, ⟨a, h1, rfl⟩, ?_, keep_pushArc hI1 a, ?_, ?_, ?_, hr⟩
    · rw [hrun _ _ e, hc]
    · exact inv_pushArc hI1 a h2 (hI1.matOk i a h1).2.2 fun id' a' h' e' => hI1.ptrs i a id' a' h1 h' e'
    · simp [pushArc, hc]
    · rw [← hc]; exact Or.inl ⟨a, pushArc_lookup a _, h3⟩
    · intro f
      rw [← hc]; simp only [gval, pushArc_lookup, hqa]
  · have e : incArc inc a (a.mle.numVars + k) (t.matSt i nv) =
        (.ok ⟨(t.matSt i nv).heap, q⟩, { t.matSt i nv with heap := (t.matSt i nv).heap + 1 }) := by
      unfold incArc; rw [if_neg (by omega), h3, Act.bind_ok (a := q) (s' := t.matSt i nv) (by simp [hq1])]
      rfl
    refine ⟨(t.matSt i nv).pushMat q, a.mle, q, ?_, h2, h3, h4, hq1, ⟨a, h1, rfl⟩, inv_pushMat hI1 q hq2, keep_pushMat hI1 q, ?_, ?_, ?_, hr⟩
    · rw [hrun _ _ e, ← hc]; rfl
    · simp [pushMat, pushArc, hc]
    · rw [← hc, ← hq3]; exact hasNv_pushMat _ q
    · intro f
      rw [← hc]; exact gval_pushMat _ q f

end PTracker
end Zksql
