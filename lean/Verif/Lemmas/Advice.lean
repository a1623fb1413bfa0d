import Verif.Model.BagChecks
import Verif.Lemmas.BagTab
import Verif.Spec.Advice
/-! Counting and the advice of the inclusion check. -/
set_option linter.unusedSectionVars false
namespace Zksql
open Spec
variable {F C B : Type} [Field F] [DecidableEq F]

/-- Active occurrences in two lists. -/
def lcount (z : F) : List F → List F → Nat
  | v :: vs, s :: ss => (if s ≠ 0 ∧ v = z then 1 else 0) + lcount z vs ss
  | _, _ => 0

theorem multCountStep_lookup (m : List (F × Nat)) (v s z : F) :
    (multCountStep m v s).lookup z = if s ≠ 0 ∧ v = z then some ((m.lookup z).getD 0 + 1) else m.lookup z := by
  unfold multCountStep
  by_cases hs : s = 0
  · simp [hs]
  · rw [if_neg hs]
    by_cases hv : v = z
    · subst hv
      rw [if_pos ⟨hs, rfl⟩]
      cases h : m.lookup v with
      | none => simp [lookup_amInsert]
      | some k => simp [lookup_amInsert]
    · rw [if_neg (by tauto)]
      cases h : m.lookup v with
      | none => simp [lookup_amInsert, Ne.symm hv]
      | some k => simp [lookup_amInsert, Ne.symm hv]

theorem multCount_spec : ∀ (vs ss : List F) (m : List (F × Nat)), vs.length ≤ ss.length →
    ∃ m', multCount vs ss m = .ok m' ∧
      ∀ z, m'.lookup z = if lcount z vs ss = 0 then m.lookup z else some ((m.lookup z).getD 0 + lcount z vs ss)
  | [], _, m, _ => ⟨m, rfl, fun z => by simp [lcount]⟩
  | v :: vs, [], _, h => by simp at h
  | v :: vs, s :: ss, m, h => by
    obtain ⟨m', h1, h2⟩ := multCount_spec vs ss (multCountStep m v s) (by simpa using h)
    refine ⟨m', h1, fun z => ?_⟩
    rw [h2 z, multCountStep_lookup, show lcount z (v :: vs) (s :: ss) = (if s ≠ 0 ∧ v = z then 1 else 0) + lcount z vs ss from rfl]
    by_cases hz : s ≠ 0 ∧ v = z
    · simp only [if_pos hz]
      by_cases h0 : lcount z vs ss = 0
      · simp [h0]
      · simp [h0]; omega
    · simp only [if_neg hz, Nat.zero_add]

theorem adviceLoop_spec : ∀ (vs ss : List F) (m : List (F × Nat)), vs.length ≤ ss.length →
    ∃ l, Inclusion.adviceLoop vs ss m = .ok l ∧ l.length = vs.length ∧ ∀ i < vs.length,
      l.getD i 0 = if ss.getD i 0 ≠ 0 ∧ ∀ j < i, ¬ (ss.getD j 0 ≠ 0 ∧ vs.getD j 0 = vs.getD i 0) then (((m.lookup (vs.getD i 0)).getD 0 : Nat) : F) else 0
  | [], _, m, _ => ⟨[], rfl, rfl, fun i hi => by simp at hi⟩
  | v :: vs, [], _, h => by simp at h
  | v :: vs, s :: ss, m, h => by
    have h' : vs.length ≤ ss.length := by simpa using h
    unfold Inclusion.adviceLoop
    by_cases hs : s = 0
    · obtain ⟨l, h1, h2, h3⟩ := adviceLoop_spec vs ss m h'
      refine ⟨0 :: l, by rw [if_pos hs, h1]; rfl, by simp [h2], fun i hi => ?_⟩
      cases i with
      | zero => simp [hs]
      | succ i =>
        have hi : i < vs.length := by simpa using hi
        simp only [List.getD_cons_succ]
        rw [h3 i hi]
        congr 1
        refine propext ⟨fun ⟨a, b⟩ => ⟨a, fun j hj => ?_⟩, fun ⟨a, b⟩ => ⟨a, fun j hj => by simpa using b (j + 1) (by omega)⟩⟩
        cases j with
        | zero => simp [hs]
        | succ j => simpa using b j (by omega)
    · rw [if_neg hs]
      have key : ∀ (m1 : List (F × Nat)), (∀ z, z ≠ v → m1.lookup z = m.lookup z) → (m1.lookup v).getD 0 = 0 → ∀ x : F, x = (((m.lookup v).getD 0 : Nat) : F) →
          ∃ l, (do let r ← Inclusion.adviceLoop vs ss m1; Except.ok (x :: r) : Res (List F)) = .ok l ∧ l.length = (v :: vs).length ∧
            ∀ i < (v :: vs).length, l.getD i 0 = if (s :: ss).getD i 0 ≠ 0 ∧ ∀ j < i, ¬ ((s :: ss).getD j 0 ≠ 0 ∧ (v :: vs).getD j 0 = (v :: vs).getD i 0)
              then (((m.lookup ((v :: vs).getD i 0)).getD 0 : Nat) : F) else 0 := by
        intro m1 hm1 hm2 x hx
        obtain ⟨l, h1, h2, h3⟩ := adviceLoop_spec vs ss m1 h'
        refine ⟨x :: l, by rw [h1]; rfl, by simp [h2], fun i hi => ?_⟩
        cases i with
        | zero => simp [hs, hx]
        | succ i =>
          have hi : i < vs.length := by simpa using hi
          simp only [List.getD_cons_succ]
          rw [h3 i hi]
          by_cases hv : vs.getD i 0 = v
          · rw [hv, hm2]
            rw [if_neg (c := _ ∧ ∀ j < i + 1, _) (fun ⟨_, b⟩ => b 0 (by omega) ⟨by simpa using hs, by simp⟩)]
            simp
          · rw [hm1 _ hv]
            congr 1
            refine propext ⟨fun ⟨a, b⟩ => ⟨a, fun j hj => ?_⟩, fun ⟨a, b⟩ => ⟨a, fun j hj => by simpa using b (j + 1) (by omega)⟩⟩
            cases j with
            | zero => simpa using fun _ => Ne.symm hv
            | succ j => simpa using b j (by omega)
      cases hm : m.lookup v with
      | none => exact key m (fun _ _ => rfl) (by rw [hm]; rfl) 0 (by simp [hm])
      | some k =>
        refine key (amInsert v 0 m) (fun z hz => by simp [lookup_amInsert, hz]) (by simp [lookup_amInsert]) k (by simp [hm])

theorem lcount_range (z : F) (V S : Nat → F) : ∀ l : List Nat,
    lcount z (l.map V) (l.map S) = (l.filter fun i => S i ≠ 0 ∧ V i = z).length
  | [] => rfl
  | i :: l => by
    simp only [List.map_cons, lcount]
    rw [lcount_range z V S l]
    by_cases h : S i ≠ 0 ∧ V i = z
    · rw [if_pos h, List.filter_cons_of_pos (by simpa using h), List.length_cons, Nat.add_comm]
    · rw [if_neg h, List.filter_cons_of_neg (by simpa using h), Nat.zero_add]

/-- Counting the rows of a bag. -/
theorem multCount_bag (T : BagTab F) : ∃ m, multCount ((List.range (2 ^ T.nv)).map T.val) ((List.range (2 ^ T.nv)).map T.sel) [] = .ok m ∧
    ∀ z, m.lookup z = if T.count z = 0 then none else some (T.count z) := by
  obtain ⟨m, h1, h2⟩ := multCount_spec ((List.range (2 ^ T.nv)).map T.val) ((List.range (2 ^ T.nv)).map T.sel) [] (by simp)
  refine ⟨m, h1, fun z => ?_⟩
  rw [h2 z, lcount_range]
  simp [BagTab.count]

theorem adviceMle_spec (I S : BagTab F) (p q r w : Mle F) (hp : p.evals = (List.range (2 ^ I.nv)).map I.val) (hq : q.evals = (List.range (2 ^ I.nv)).map I.sel)
    (hr : r.evals = (List.range (2 ^ S.nv)).map S.val) (hw : w.evals = (List.range (2 ^ S.nv)).map S.sel) (hn : r.numVars = S.nv) :
    Inclusion.adviceMle p q r w = .ok ⟨S.nv, (List.range (2 ^ S.nv)).map (incMult I S)⟩ := by
  unfold Inclusion.adviceMle
  obtain ⟨m, h1, h2⟩ := multCount_bag I
  obtain ⟨l, h3, h4, h5⟩ := adviceLoop_spec ((List.range (2 ^ S.nv)).map S.val) ((List.range (2 ^ S.nv)).map S.sel) m (by simp)
  have e : l = (List.range (2 ^ S.nv)).map (incMult I S) := by
    refine List.ext_getElem (by simp [h4]) fun i hi hi' => ?_
    have hi2 : i < 2 ^ S.nv := by simpa using hi'
    have := h5 i (by simpa using hi2)
    rw [List.getD_eq_getElem _ _ hi] at this
    rw [this, List.getElem_map, List.getElem_range]
    unfold incMult BagTab.FirstActive
    have gv : ∀ j, j < 2 ^ S.nv → ((List.range (2 ^ S.nv)).map S.val).getD j 0 = S.val j := fun j hj => by simp [hj]
    have gs : ∀ j, j < 2 ^ S.nv → ((List.range (2 ^ S.nv)).map S.sel).getD j 0 = S.sel j := fun j hj => by simp [hj]
    rw [gv i hi2, gs i hi2]
    have e2 : (((m.lookup (S.val i)).getD 0 : Nat) : F) = (I.count (S.val i) : F) := by
      rw [h2]
      by_cases h0 : I.count (S.val i) = 0 <;> simp [h0]
    rw [e2]
    refine if_congr ⟨fun ⟨a, b⟩ => ⟨a, fun j hj hj1 hj2 => b j hj ?_⟩, fun ⟨a, b⟩ => ⟨a, fun j hj => ?_⟩⟩ rfl rfl
    · rw [gs j (by omega), gv j (by omega)]; exact ⟨hj1, hj2⟩
    · rw [gs j (by omega), gv j (by omega)]; exact fun ⟨c, d⟩ => b j hj c d
  rw [hp, hq, hr, hw, h1]
  show (do let l ← Inclusion.adviceLoop _ _ m; Mle.fromEvals r.numVars l) = _
  rw [h3]
  show Mle.fromEvals r.numVars l = _
  unfold Mle.fromEvals
  rw [hn, if_pos (by simpa using h4), e]

open Classical in
theorem incMult_weight {I S : BagTab F} (hS : S.Boolean) (z : F) : S.weight (incMult I S) z = if S.Active z then (I.count z : F) else 0 := by
  classical
  unfold BagTab.weight
  by_cases ha : S.Active z
  · rw [if_pos ha]
    have hex : ∃ i, i < 2 ^ S.nv ∧ S.sel i ≠ 0 ∧ S.val i = z := by obtain ⟨i, h1, h2, h3⟩ := ha; exact ⟨i, h1, h2, h3⟩
    obtain ⟨k1, k2, k3⟩ := Nat.find_spec hex
    have kmin : ∀ j < Nat.find hex, S.sel j ≠ 0 → S.val j ≠ z := fun j hj a b => Nat.find_min hex hj ⟨hj.trans k1, a, b⟩
    generalize Nat.find hex = k at *
    rw [Finset.sum_eq_single k]
    · rw [if_pos k3]
      unfold incMult
      rw [if_pos ⟨k2, fun j hj a => by rw [k3]; exact kmin j hj a⟩, k3]
      rcases hS k k1 with h | h
      · exact absurd h k2
      · rw [h, mul_one]
    · intro b hb hbk
      by_cases hz : S.val b = z
      · rw [if_pos hz]
        unfold incMult
        by_cases hf : S.FirstActive b
        · exfalso
          rcases Nat.lt_or_gt_of_ne hbk with h | h
          · exact kmin b h hf.1 hz
          · exact hf.2 k h k2 (by rw [k3, hz])
        · rw [if_neg hf, zero_mul]
      · rw [if_neg hz]
    · intro h; exact absurd (Finset.mem_range.2 k1) h
  · rw [if_neg ha]
    refine Finset.sum_eq_zero fun i hi => ?_
    by_cases hz : S.val i = z
    · rw [if_pos hz]
      have : S.sel i = 0 := by
        by_contra h
        exact ha ⟨i, Finset.mem_range.1 hi, h, hz⟩
      rw [this, mul_zero]
    · rw [if_neg hz]

theorem count_zero_of {I : BagTab F} {z : F} (h : ¬ I.Active z) : I.count z = 0 := by
  rcases Nat.eq_zero_or_pos (I.count z) with h0 | h0
  · exact h0
  · exact absurd (count_pos.1 h0) h

theorem incMult_total {I S : BagTab F} (hI : I.Boolean) (hS : S.Boolean) (h : ∀ z, I.Active z → S.Active z) (z : F) :
    I.weight (fun _ => 1) z = S.weight (incMult I S) z := by
  rw [weight_count hI, incMult_weight hS]
  by_cases ha : S.Active z
  · rw [if_pos ha]
  · rw [if_neg ha, count_zero_of fun k => ha (h z k), Nat.cast_zero]

end Zksql
