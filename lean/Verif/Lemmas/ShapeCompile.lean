import Verif.Lemmas.ShapeOps
import Verif.Props.Compile
import Verif.Lemmas.Accept
/-! The contents of a compiled proof, counted from the calls of the session. -/
set_option linter.unusedSectionVars false
namespace Zksql
open Spec PTracker
variable {F C B : Type} [Field F]

theorem hasNv_member {t : PTracker F C} {id nv : Nat} (h : t.HasNv id nv) : ∃ e ∈ t.mats, e.2.mle.numVars = nv := by
  have mem : ∀ {k : Nat} {a : ArcMle F}, t.mats.lookup k = some a → (k, a) ∈ t.mats := by
    intro k a h
    obtain ⟨l1, l2, e, _⟩ := List.lookup_eq_some_iff.1 h
    rw [e]
    simp
  rcases h with ⟨a, h1, h2⟩ | ⟨_, v, _, h2⟩
  · exact ⟨_, mem h1, h2⟩
  · obtain ⟨hne, hall⟩ := h2
    obtain ⟨q, hq⟩ := List.exists_mem_of_ne_nil _ hne
    obtain ⟨h3, h4⟩ := hall q hq
    obtain ⟨m, hm⟩ := List.exists_mem_of_ne_nil _ h3
    obtain ⟨a, h5, h6⟩ := h4 m hm
    exact ⟨_, mem h5, h6⟩

theorem foldl_max_eq {l : List Nat} {N : Nat} (hle : ∀ n ∈ l, n ≤ N) (hmem : N ∈ l) : l.foldl max 0 = N := by
  have h1 : ∀ (l : List Nat) (a : Nat), (∀ n ∈ l, n ≤ N) → a ≤ N → l.foldl max a ≤ N := by
    intro l
    induction l with
    | nil => intro a _ h; exact h
    | cons x l ih =>
      intro a h ha
      exact ih _ (fun n hn => h n (List.mem_cons_of_mem _ hn)) (max_le ha (h x List.mem_cons_self))
  have h2 : ∀ (l : List Nat) (a : Nat), a ≤ l.foldl max a ∧ ∀ n ∈ l, n ≤ l.foldl max a := by
    intro l
    induction l with
    | nil => intro a; exact ⟨le_refl _, by simp⟩
    | cons x l ih =>
      intro a
      obtain ⟨i1, i2⟩ := ih (max a x)
      refine ⟨le_trans (le_max_left _ _) i1, fun n hn => ?_⟩
      rcases List.mem_cons.1 hn with rfl | hn
      · exact le_trans (le_max_right _ _) i1
      · exact i2 n hn
  exact le_antisymm (h1 l 0 hle (Nat.zero_le _)) ((h2 l 0).2 N hmem)

theorem foldl_max_filter {α : Type} (l : List α) (P : α → Prop) [DecidablePred P] (f : α → Nat) (a : Nat) (ha : 1 ≤ a) :
    (l.map fun x => if P x then 1 else f x).foldl max a = ((l.filter fun x => ¬ P x).map f).foldl max a := by
  induction l generalizing a with
  | nil => rfl
  | cons x l ih =>
    by_cases h : P x
    · rw [List.filter_cons_of_neg (by simpa using h), List.map_cons, if_pos h, List.foldl_cons, max_eq_left ha]
      exact ih a ha
    · rw [List.filter_cons_of_pos (by simpa using h), List.map_cons, if_neg h, List.foldl_cons, List.map_cons, List.foldl_cons]
      exact ih _ (le_trans ha (le_max_left _ _))

theorem nodup_length_eq {l m : List Nat} (hl : l.Nodup) (hm : m.Nodup) (h : ∀ x, x ∈ l ↔ x ∈ m) : l.length = m.length :=
  ((List.perm_ext_iff_of_nodup hl hm).2 h).length_eq

theorem Traced.hid_inj {commit : Mle F → Res C} {ops : List (POp F C)} {st : PState F C} (hT : Traced commit ops st) {i j : Nat} (hi : i < st.handles.length)
    (hj : j < st.handles.length) (h : hid st.handles i = hid st.handles j) : i = j := by
  unfold hid at h
  rw [List.getElem?_eq_getElem hi, List.getElem?_eq_getElem hj] at h
  exact hT.inj (List.getElem?_eq_getElem hi) (List.getElem?_eq_getElem hj) h

theorem Traced.hid_lt {commit : Mle F → Res C} {ops : List (POp F C)} {st : PState F C} (hT : Traced commit ops st) {i : Nat} (hi : i < st.handles.length) :
    hid st.handles i < st.tracker.idCounter := by
  unfold hid
  rw [List.getElem?_eq_getElem hi]
  exact hT.lt _ (List.getElem_mem hi)

section
variable [DecidableEq F] {commit : Mle F → Res C} {H : Oracle F C} {ops : List (POp F C)} {ps : PState F C} {debug : Bool} {pcs : Pcs F C B} {p : CompiledProof F C B} {t' : PTracker F C}

theorem compiled_shape (hr : runOps commit H PState.init ops = .ok ps) (hc : compile debug pcs H ps.tracker = (.ok p, t')) :
    ShapeOf ps.tracker p (largest commit ops) ∧ p.scMaxDegree = proofDegree debug commit ops ∧ p.sumcheckClaims.length = sumCount ops + 1 ∧
      ∃ polys evals tr bp tr', pcs.multiOpen polys ((sortedIds ps.tracker.comms).map fun _ => p.scProof.point) evals tr = .ok (bp, tr') ∧ p.pcsProof = [bp] ∧
        (∀ q ∈ polys, q.numVars = largest commit ops) ∧ polys.length = commitCount commit ops ∧ evals.length = commitCount commit ops := by
  have hR : Reachable commit H ps := ⟨ops, hr⟩
  have hT : Traced commit ops ps := by simpa using traced_init.runAll ops hr
  obtain ⟨hs, hz⟩ := claims_hasNv hR
  have hne : ps.tracker.transcript.isEmpty = false := by
    by_contra h
    have := C51_nothing_panics debug pcs hR (.inl (by simpa using h))
    rw [hc] at this
    cases this
  obtain ⟨N, hsh, hdeg, polys, evals, tr, bp, tr', h1, h2, h3, h4, h5⟩ := compile_shape hT.inv.inv hne hs hz hc
  have hN : largest commit ops = N := by
    unfold largest
    rw [← hT.nvs]
    refine foldl_max_eq ?_ ?_
    · intro n hn
      obtain ⟨a, ha, rfl⟩ := List.mem_map.1 hn
      obtain ⟨e, he, e2⟩ := hasNv_member (hT.inv.known a ha)
      rw [← e2]
      exact hsh.le e he
    · obtain ⟨e, he, e2⟩ := hsh.attained
      obtain ⟨a, ha, e3⟩ := hT.held e he
      exact List.mem_map.2 ⟨a, ha, by rw [e3, e2]⟩
  have hlen : ps.tracker.comms.length = commitCount commit ops := by
    have := congrArg List.length hT.comms
    simpa [commitCount] using this
  have hidx : ∀ i, i < ps.handles.length → (ps.handles.map (·.id)).idxOf (hid ps.handles i) = i := by
    intro i hl
    have hnd : (ps.handles.map (·.id)).Nodup := hT.ids.imp fun h => Nat.ne_of_lt h
    have := hnd.idxOf_getElem i (by simpa using hl)
    unfold hid
    rw [List.getElem?_eq_getElem hl]
    simpa using this
  rw [hN]
  refine ⟨hsh, ?_, ?_, polys, evals, tr, bp, tr', h1, h2, h3, h4.trans hlen, h5.trans hlen⟩
  · have hf := hdeg (fun id => (degrees commit ops).getD ((ps.handles.map (·.id)).idxOf id) 1) ?_
    · rw [hf]
      unfold proofDegree
      congr 1
      congr 1
      unfold zeroDegree
      rw [← foldl_max_filter _ (fun i => i ∈ ops.filterMap POp.summed) _ 1 (le_refl _), hT.zero, hT.sum, List.map_map]
      congr 1
      refine List.map_congr_left fun i hi => ?_
      have hl := hT.zeroLt i hi
      have hm : hid ps.handles i ∈ (ops.filterMap POp.summed).map (hid ps.handles) ↔ i ∈ ops.filterMap POp.summed := by
        constructor
        · intro h
          obtain ⟨j, hj, e⟩ := List.mem_map.1 h
          rwa [← hT.hid_inj (hT.sumLt j hj) hl e]
        · exact fun h => List.mem_map.2 ⟨i, h, rfl⟩
      simp only [Function.comp_apply, hm, hidx i hl]
    · intro c hcz
      rw [hT.zero] at hcz
      obtain ⟨i, hi, rfl⟩ := List.mem_map.1 hcz
      have hl := hT.zeroLt i hi
      simp only [hidx i hl]
      have := hT.getD (List.getElem?_eq_getElem hl)
      unfold hid
      rw [List.getElem?_eq_getElem hl]
      exact this
  · have e : p.sumcheckClaims.length = (p.sumcheckClaims.map (·.1)).length := by simp
    have hnd : ((ops.filterMap POp.summed).dedup.map (hid ps.handles)).Nodup := by
      refine List.Nodup.map_on ?_ (List.nodup_dedup _)
      intro i hi j hj h
      exact hT.hid_inj (hT.sumLt i (List.mem_dedup.1 hi)) (hT.sumLt j (List.mem_dedup.1 hj)) h
    rw [e, nodup_length_eq (m := (ps.tracker.idCounter + 2 * ps.tracker.zeroClaims.length + 2) :: (ops.filterMap POp.summed).dedup.map (hid ps.handles)) hsh.claimsNodup]
    · simp [sumCount]
    · refine List.nodup_cons.2 ⟨?_, hnd⟩
      intro h
      obtain ⟨i, hi, e⟩ := List.mem_map.1 h
      have := hT.hid_lt (hT.sumLt i (List.mem_dedup.1 hi))
      omega
    · intro x
      rw [hsh.claims x, hT.sum, List.mem_cons, or_comm]
      simp only [List.mem_map, List.mem_dedup]
end

end Zksql
