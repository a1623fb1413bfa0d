import Verif.Spec.Tables
import Verif.Lemmas.Advice2
/-!
The index column of the one-to-many join and the columns moved by it.
-/
set_option linter.unusedSectionVars false
namespace Zksql
open Spec
variable {F C B : Type} [Field F] [DecidableEq F]
variable {E : Env F C} {t t1 : PTracker F C}

/-! ### Columns of a table -/

theorem Spec.HoldsColsP.mono {t t1 : PTracker F C} (h : ∀ a T, HoldsP t a T → HoldsP t1 a T) {nv : Nat} : ∀ {cs : List TPoly} {fs : List (Nat → F)},
    HoldsColsP t nv cs fs → HoldsColsP t1 nv cs fs
  | [], [], _ => trivial
  | _ :: _, _ :: _, hc => ⟨hc.1, h _ _ hc.2.1, hc.2.2.mono h⟩

theorem Spec.HoldsColsP.length {nv : Nat} : ∀ {cs : List TPoly} {fs : List (Nat → F)}, HoldsColsP t nv cs fs → cs.length = fs.length
  | [], [], _ => rfl
  | _ :: _, _ :: _, hc => by simp [hc.2.2.length]

theorem Spec.HoldsColsP.at {nv : Nat} : ∀ {cs : List TPoly} {fs : List (Nat → F)}, HoldsColsP t nv cs fs → ∀ {k : Nat}, k < fs.length →
    ∃ c, cs[k]? = some c ∧ c.numVars = nv ∧ HoldsP t c (fs.getD k fun _ => 0)
  | [], [], _, k, hk => by simp at hk
  | c :: _, f :: _, hc, 0, _ => ⟨c, rfl, hc.1, hc.2.1⟩
  | _ :: _, _ :: _, hc, k + 1, hk => by
    obtain ⟨c, h1, h2, h3⟩ := hc.2.2.at (k := k) (by simpa using hk)
    exact ⟨c, by simpa using h1, h2, by simpa using h3⟩

theorem idx_of {α : Type} {l : List α} {k : Nat} {c : α} (h : l[k]? = some c) : idx l k = .ok c := by unfold idx; rw [h]; rfl

/-! ### The index column -/
namespace FinalJoin

theorem keyMap_spec (V S : Nat → F) : ∀ (n i : Nat) (m : List (F × Nat)),
    ∃ m', keyMap ((List.range' i n).map V) ((List.range' i n).map S) i m = .ok m' ∧
      ∀ z, (∃ j, i ≤ j ∧ j < i + n ∧ S j = 1 ∧ V j = z ∧ (∀ j', j < j' → j' < i + n → ¬ (S j' = 1 ∧ V j' = z)) ∧ m'.lookup z = some j) ∨
        ((∀ j, i ≤ j → j < i + n → ¬ (S j = 1 ∧ V j = z)) ∧ m'.lookup z = m.lookup z)
  | 0, i, m => ⟨m, rfl, fun z => .inr ⟨fun j h1 h2 => by omega, rfl⟩⟩
  | n + 1, i, m => by
    rw [List.range'_succ]
    obtain ⟨m', h1, h2⟩ := keyMap_spec V S n (i + 1) (if S i = 1 then amInsert (V i) i m else m)
    refine ⟨m', h1, fun z => ?_⟩
    rcases h2 z with ⟨j, a1, a2, a3, a4, a5, a6⟩ | ⟨a1, a2⟩
    · exact .inl ⟨j, by omega, by omega, a3, a4, fun j' b1 b2 => a5 j' b1 (by omega), a6⟩
    · by_cases hi : S i = 1 ∧ V i = z
      · refine .inl ⟨i, le_rfl, by omega, hi.1, hi.2, fun j' b1 b2 => a1 j' (by omega) (by omega), ?_⟩
        rw [a2, if_pos hi.1, lookup_amInsert]
        simp [hi.2]
      · refine .inr ⟨fun j b1 b2 => ?_, ?_⟩
        · rcases eq_or_ne j i with rfl | hj
          · exact hi
          · exact a1 j (by omega) (by omega)
        · rw [a2]
          by_cases hs : S i = 1
          · have : z ≠ V i := fun h => hi ⟨hs, h.symm⟩
            rw [if_pos hs, lookup_amInsert, if_neg this]
          · rw [if_neg hs]

theorem lookups_ok (m : List (F × Nat)) (V S : Nat → F) : ∀ (l : List Nat), (∀ i ∈ l, S i = 1 → (m.lookup (V i)).isSome) →
    lookups m (l.map V) (l.map S) = .ok (l.map fun i => if S i = 1 then (m.lookup (V i)).getD 0 else 0)
  | [], _ => rfl
  | i :: l, h => by
    have ih := lookups_ok m V S l fun j hj => h j (List.mem_cons_of_mem _ hj)
    simp only [List.map_cons, lookups]
    by_cases hs : S i = 1
    · rw [if_pos hs]
      obtain ⟨k, hk⟩ := Option.isSome_iff_exists.1 (h i List.mem_cons_self hs)
      rw [hk, ih]
      simp [hs]
    · rw [if_neg hs, ih]
      simp [hs]

theorem lookups_err (m : List (F × Nat)) (V S : Nat → F) : ∀ (l : List Nat), (∃ i ∈ l, S i = 1 ∧ m.lookup (V i) = none) →
    lookups m (l.map V) (l.map S) = .error (.err .invalidParameters)
  | [], h => by simp at h
  | i :: l, h => by
    simp only [List.map_cons, lookups]
    by_cases hi : S i = 1 ∧ m.lookup (V i) = none
    · rw [if_pos hi.1, hi.2]
    · have : ∃ j ∈ l, S j = 1 ∧ m.lookup (V j) = none := by
        obtain ⟨j, hj, hh⟩ := h
        rcases List.mem_cons.1 hj with rfl | hj
        · exact absurd hh hi
        · exact ⟨j, hj, hh⟩
      have ih := lookups_err m V S l this
      by_cases hs : S i = 1
      · rw [if_pos hs]
        cases hk : m.lookup (V i) with
        | none => rfl
        | some k => rw [ih]; rfl
      · rw [if_neg hs, ih]; rfl

variable {a b : Table} {A Tb : TabData F} {ai bi : Nat}

/-- The rows looked up, without the reads. -/
theorem keys_core (bA : A.Boolean) (bB : Tb.Boolean) :
    ∃ m, keyMap ((List.range (2 ^ A.nv)).map (A.col ai)) ((List.range (2 ^ A.nv)).map A.sel) 0 [] = .ok m ∧
    (Matched A Tb ai bi → ∃ ks, lookups m ((List.range (2 ^ Tb.nv)).map (Tb.col bi)) ((List.range (2 ^ Tb.nv)).map Tb.sel) = .ok ks ∧
      IndexColumn A Tb ai bi ks) ∧
    (¬ Matched A Tb ai bi → lookups m ((List.range (2 ^ Tb.nv)).map (Tb.col bi)) ((List.range (2 ^ Tb.nv)).map Tb.sel) = .error (.err .invalidParameters)) := by
  obtain ⟨m, hm, hms⟩ := keyMap_spec (A.col ai) A.sel (2 ^ A.nv) 0 []
  rw [← List.range_eq_range'] at hm
  have oneA : ∀ j < 2 ^ A.nv, A.sel j ≠ 0 ↔ A.sel j = 1 := fun j hj => ⟨fun h => (bA j hj).resolve_left h, fun h => by rw [h]; exact one_ne_zero⟩
  have oneB : ∀ j < 2 ^ Tb.nv, Tb.sel j ≠ 0 ↔ Tb.sel j = 1 := fun j hj => ⟨fun h => (bB j hj).resolve_left h, fun h => by rw [h]; exact one_ne_zero⟩
  refine ⟨m, hm, ?_⟩
  have look : ∀ z, (∃ j, A.On j ∧ A.col ai j = z ∧ (∀ j', A.On j' → A.col ai j' = z → j' ≤ j) ∧ m.lookup z = some j) ∨
      ((∀ j, A.On j → A.col ai j ≠ z) ∧ m.lookup z = none) := by
    intro z
    rcases hms z with ⟨j, -, a2, a3, a4, a5, a6⟩ | ⟨a1, a2⟩
    · rw [Nat.zero_add] at a2
      refine .inl ⟨j, ⟨a2, (oneA j a2).2 a3⟩, a4, fun j' h1 h2 => ?_, a6⟩
      by_contra hc
      exact a5 j' (by omega) (by have := h1.1; omega) ⟨(oneA j' h1.1).1 h1.2, h2⟩
    · exact .inr ⟨fun j h1 h2 => a1 j (Nat.zero_le _) (by have := h1.1; omega) ⟨(oneA j h1.1).1 h1.2, h2⟩, a2⟩
  constructor
  · intro hM
    have hl := lookups_ok m (Tb.col bi) Tb.sel (List.range (2 ^ Tb.nv)) (by
      intro i hi hs
      have hi := List.mem_range.1 hi
      obtain ⟨j, hj, hz⟩ := hM i ⟨hi, (oneB i hi).2 hs⟩
      rcases look (Tb.col bi i) with ⟨k, -, -, -, h⟩ | ⟨h, -⟩
      · rw [h]; rfl
      · exact absurd hz (h j hj))
    refine ⟨_, hl, by simp, fun i hi => ?_⟩
    have e : ((List.range (2 ^ Tb.nv)).map fun i => if Tb.sel i = 1 then (m.lookup (Tb.col bi i)).getD 0 else 0).getD i 0 =
        if Tb.sel i = 1 then (m.lookup (Tb.col bi i)).getD 0 else 0 := by simp [List.getD, hi]
    rw [e]
    constructor
    · intro hs
      rw [if_pos ((oneB i hi).1 hs)]
      obtain ⟨j, hj, hz⟩ := hM i ⟨hi, hs⟩
      rcases look (Tb.col bi i) with ⟨k, k1, k2, k3, h⟩ | ⟨h, -⟩
      · rw [h]; exact ⟨k1, k2, k3⟩
      · exact absurd hz (h j hj)
    · intro hs
      rw [if_neg (by rw [hs]; exact zero_ne_one)]
  · intro hM
    refine lookups_err m _ _ _ ?_
    unfold Matched at hM
    push Not at hM
    obtain ⟨i, hi, hn⟩ := hM
    refine ⟨i, List.mem_range.2 hi.1, (oneB i hi.1).1 hi.2, ?_⟩
    rcases look (Tb.col bi i) with ⟨k, k1, k2, -, -⟩ | ⟨-, h⟩
    · exact absurd k2 (hn k k1)
    · exact h

theorem transform_core (hr : Ready E.commit t) (ha : HoldsTabP t a A) (hb : HoldsTabP t b Tb) (hai : ai < A.cols.length) (hbi : bi < Tb.cols.length)
    (bA : A.Boolean) (bB : Tb.Boolean) :
    (Matched A Tb ai bi → ∃ ks, Returns E.commit (transform a b ai bi) t ks ∧ IndexColumn A Tb ai bi ks) ∧
    (¬ Matched A Tb ai bi → (transform a b ai bi t).1 = .error (.err .invalidParameters)) := by
  obtain ⟨ca, ea, na, pa⟩ := ha.cols.at hai
  obtain ⟨cb, eb, nb, pb⟩ := hb.cols.at hbi
  change HoldsP t ca (A.col ai) at pa
  change HoldsP t cb (Tb.col bi) at pb
  obtain ⟨m, hm, hk1, hk2⟩ := keys_core (ai := ai) (bi := bi) bA bB
  -- the part that only reads
  have rd : (∀ x, lookups m ((List.range (2 ^ Tb.nv)).map (Tb.col bi)) ((List.range (2 ^ Tb.nv)).map Tb.sel) = .ok x →
        Returns E.commit (transform a b ai bi) t x) ∧
      (∀ e, lookups m ((List.range (2 ^ Tb.nv)).map (Tb.col bi)) ((List.range (2 ^ Tb.nv)).map Tb.sel) = .error e → (transform a b ai bi t).1 = .error e) := by
    constructor
    · intro x hx
      unfold transform
      refine (returns_lift hr (idx_of ea)).bind fun t1 r1 p1 => ?_
      refine (returns_eval r1 (p1 _ _ pa)).bind fun t2 r2 p2 => ?_
      refine (returns_eval r2 (p2 _ _ (p1 _ _ ha.sel))).bind fun t3 r3 p3 => ?_
      rw [na, ha.nvSel]
      refine (returns_lift r3 hm).bind fun t4 r4 p4 => ?_
      have q4 := fun a T h => p4 a T (p3 a T (p2 a T (p1 a T h)))
      refine (returns_lift r4 (idx_of eb)).bind fun t5 r5 p5 => ?_
      refine (returns_eval r5 (p5 _ _ (q4 _ _ pb))).bind fun t6 r6 p6 => ?_
      refine (returns_eval r6 (p6 _ _ (p5 _ _ (q4 _ _ hb.sel)))).bind fun t7 r7 p7 => ?_
      rw [nb, hb.nvSel]
      exact returns_lift r7 hx
    · intro e he
      unfold transform
      obtain ⟨t1, h1, r1, -, -, -, -, -, p1⟩ := returns_eval hr pa
      obtain ⟨t2, h2, r2, -, -, -, -, -, p2⟩ := returns_eval r1 (p1 _ _ ha.sel)
      obtain ⟨t3, h3, r3, -, -, -, -, -, p3⟩ := returns_eval r2 (p2 _ _ (p1 _ _ pb))
      obtain ⟨t4, h4, r4, -, -, -, -, -, p4⟩ := returns_eval r3 (p3 _ _ (p2 _ _ (p1 _ _ hb.sel)))
      rw [na] at h1; rw [ha.nvSel] at h2; rw [nb] at h3; rw [hb.nvSel] at h4
      rw [Act.bind_ok (show Act.lift (idx a.colVals ai) t = (.ok ca, t) by rw [idx_of ea]; rfl)]
      beta_reduce
      rw [Act.bind_ok h1]; beta_reduce
      rw [Act.bind_ok h2]; beta_reduce
      rw [Act.bind_ok (show Act.lift (keyMap _ _ 0 []) t2 = (.ok m, t2) by rw [hm]; rfl)]; beta_reduce
      rw [Act.bind_ok (show Act.lift (idx b.colVals bi) t2 = (.ok cb, t2) by rw [idx_of eb]; rfl)]; beta_reduce
      rw [Act.bind_ok h3]; beta_reduce
      rw [Act.bind_ok h4]; beta_reduce
      rw [he]; rfl
  constructor
  · intro hM
    obtain ⟨ks, h1, h2⟩ := hk1 hM
    exact ⟨ks, rd.1 _ h1, h2⟩
  · exact fun hM => rd.2 _ (hk2 hM)

theorem applyLoop_ok (M : Nat) (f S : Nat → F) (ks : List Nat) : ∀ (n i : Nat), i + n ≤ ks.length →
    (∀ j, i ≤ j → j < i + n → S j ≠ 0 → ks.getD j 0 < M) → (∀ j, i ≤ j → j < i + n → S j = 0 ∨ S j = 1) →
    applyLoop ((List.range M).map f) ((List.range' i n).map fun j => ks.getD j 0) ((List.range' i n).map S) =
      .ok ((List.range' i n).map (moved f ks S))
  | 0, i, _, _, _ => rfl
  | n + 1, i, hl, hk, hb => by
    rw [List.range'_succ]
    have ih := applyLoop_ok M f S ks n (i + 1) (by omega) (fun j h1 h2 => hk j (by omega) (by omega)) fun j h1 h2 => hb j (by omega) (by omega)
    simp only [List.map_cons, applyLoop]
    rw [ih]
    rcases hb i le_rfl (by omega) with h | h
    · rw [if_neg (by rw [h]; exact zero_ne_one)]
      simp [moved, h]
    · have := hk i le_rfl (by omega) (by rw [h]; exact one_ne_zero)
      rw [if_pos h, show idx ((List.range M).map f) (ks.getD i 0) = .ok (f (ks.getD i 0)) by unfold idx; simp only [List.getElem?_map, List.getElem?_range this]; rfl]
      simp [moved, h]

theorem returns_apply (hr : Ready E.commit t) {old act : TPoly} {f S : Nat → F} {ks : List Nat} (ho : HoldsP t old f) (hs : HoldsP t act S)
    (hl : ks.length = 2 ^ act.numVars) (hk : ∀ i < 2 ^ act.numVars, S i ≠ 0 → ks.getD i 0 < 2 ^ old.numVars) (hb : ∀ i < 2 ^ act.numVars, S i = 0 ∨ S i = 1) :
    Returns E.commit (applyTransform E ks old act) t (tabMle act.numVars (moved f ks S)) := by
  unfold applyTransform
  refine (returns_eval hr ho).bind fun t1 r1 p1 => ?_
  refine (returns_eval r1 (p1 _ _ hs)).bind fun t2 r2 p2 => ?_
  refine (returns_assert r2 (fun _ => by simp [hl])).bind fun t3 r3 p3 => ?_
  have e := applyLoop_ok (2 ^ old.numVars) f S ks (2 ^ act.numVars) 0 (by omega) (fun j _ h2 => hk j (by omega)) fun j _ h2 => hb j (by omega)
  rw [← List.range_eq_range'] at e
  have ek : (List.range (2 ^ act.numVars)).map (fun j => ks.getD j 0) = ks := by
    refine List.ext_getElem (by simp [hl]) fun i h1 h2 => ?_
    simp [List.getD, h2]
  rw [ek] at e
  refine (returns_lift r3 e).bind fun t4 r4 p4 => ?_
  exact returns_lift r4 (fromEvals_map rfl _)

/-- All columns moved. -/
theorem returns_applyAll {act : TPoly} {S : Nat → F} {ks : List Nat} {nv : Nat} (hl : ks.length = 2 ^ act.numVars)
    (hk : ∀ i < 2 ^ act.numVars, S i ≠ 0 → ks.getD i 0 < 2 ^ nv) (hb : ∀ i < 2 ^ act.numVars, S i = 0 ∨ S i = 1) :
    ∀ {cs : List TPoly} {fs : List (Nat → F)} {t : PTracker F C}, Ready E.commit t → HoldsP t act S → HoldsColsP t nv cs fs →
      Returns E.commit (applyAll E ks act cs) t (fs.map fun f => tabMle act.numVars (moved f ks S))
  | [], [], t, hr, _, _ => returns_pure hr _
  | c :: cs, f :: fs, t, hr, hs, hc => by
    rw [show applyAll E ks act (c :: cs) = (do let m ← applyTransform E ks c act; let ms ← applyAll E ks act cs; pure (m :: ms)) from rfl]
    refine (returns_apply hr hc.2.1 hs hl (by rw [hc.1]; exact hk) hb).bind fun t1 r1 p1 => ?_
    refine (returns_applyAll hl hk hb r1 (p1 _ _ hs) (hc.2.2.mono p1)).bind fun t2 r2 p2 => ?_
    exact returns_pure r2 _

end FinalJoin
end Zksql
