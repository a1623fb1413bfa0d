import Verif.Lemmas.HonestEx
/-!
A prover that makes the verifier accept without one of its challenges being exceptional: what a soundness statement says about it must be true.
-/
set_option linter.unusedSectionVars false
namespace Zksql
open Spec
variable {F C B : Type} [Field F] [DecidableEq F]
variable {E : Env F C} {P : C → List F → F} {N : Nat}

open Classical in
theorem Spec.Completes.cheat {α β : Type} {cols : List (Mle F)} (hC : CanCommit E.commit N) (hO : Opens E.commit P N) (hcols : ∀ p ∈ cols, p.WF ∧ p.numVars ≤ N)
    (hne : cols ≠ []) {m : Env F C → Act (PTracker F C) α} {v : Env F C → Act (VSt F C B) β} {bounds bounds2 : List Nat} {Inputs Contents : VSt F C B → Prop} {Valid Fits : Prop}
    (h : Ready E.commit (startP E.commit cols PTracker.new) → (∀ i p, cols[i]? = some p → HoldsP (startP E.commit cols PTracker.new) ⟨i, p.numVars⟩ p.tbl) →
      Completes E P N m v (startP E.commit cols PTracker.new) bounds Inputs Contents Valid Fits)
    (hb : ∀ k < bounds.length, Plenty F (bounds.getD k 0 + bounds2.getD k 0)) (hv : Valid) (dflt : CompiledProof F C B)
    (hin : ∀ s : VSt F C B, (∀ i p, cols[i]? = some p → Known s i) → Inputs s)
    (hco : ∀ s : VSt F C B, (∀ i p, cols[i]? = some p → Holds s P N i p.numVars p.tbl) → Contents s) (hx : Fits := by trivial) :
    ∃ (H : Oracle F C) (vs : VState F C B), VReachable E.debug H vs ∧
      (∀ i p, cols[i]? = some p → Known vs.st i) ∧ (∀ i p, cols[i]? = some p → Holds vs.st P N i p.numVars p.tbl) ∧
      ∀ Concl, SoundExcept (fun H => v (E.withH H)) vs.st N bounds2 Concl → ∃ pf, Concl pf P := by
  have hi0 : (PTracker.new : PTracker F C).Inv (commR E.commit) := (stInv_init (commit := E.commit)).inv
  set t := startP E.commit cols (PTracker.new : PTracker F C) with ht
  have base := fun H => start_run (B := B) (E := E) (P := P) E.debug H hC cols hcols (Γ := Facts.none) hi0
  obtain ⟨i1, i2, i3, i4, i5, i6, i7, -⟩ := base fun _ _ => 0
  have hr : Ready E.commit t := ⟨i1, i2 (.inl hne)⟩
  have hid : (PTracker.new : PTracker F C).idCounter = 0 := rfl
  obtain ⟨bad, hcomp⟩ := h hr fun i p hip => by
    have := (i7 i p hip).holdsP hr
    rw [hid, Nat.zero_add] at this
    exact this
  have hs0 : SumsTrueP t := by
    intro c hc
    rw [i4] at hc
    exact absurd hc (by simp [PTracker.new])
  have mem : ∀ i p, cols[i]? = some p → colFacts Facts.none (PTracker.new : PTracker F C).idCounter cols i p.numVars p.tbl := fun i p hip => by
    have := colFacts_mem (PTracker.new : PTracker F C).idCounter cols Facts.none hip
    rwa [hid, Nat.zero_add, ← hid] at this
  -- the verifier after receiving the columns
  have start : ∀ (H : Oracle F C) (t' : PTracker F C) (pf : CompiledProof F C B), (∀ id c, t.comms.lookup id = some c → t'.comms.lookup id = some c) → Carries pf t' →
      ∃ vs : VState F C B, VReachable E.debug H vs ∧ Match (colFacts Facts.none (PTracker.new : PTracker F C).idCounter cols) t vs.st ∧ vs.st.own.proof = pf ∧
        Truth E P N True (colFacts Facts.none (PTracker.new : PTracker F C).idCounter cols) vs.st ∧ vs.st = startV E.commit cols (VState.withProof pf : VState F C B).st := by
    intro H t' pf hkeep hpf
    have hback : Carries pf t := by
      refine ⟨fun id c hc => hpf.comms id c (hkeep id c hc), fun e he => ?_⟩
      rw [i4] at he
      exact absurd he (by simp [PTracker.new])
    have hm0 : Match Facts.none (PTracker.new : PTracker F C) (VState.withProof pf : VState F C B).st :=
      ⟨VReachable.sane (debug := true) (H := fun _ _ => 0) ⟨[.setProof pf], rfl⟩, ⟨rfl, rfl, rfl, rfl, rfl, fun _ h => by simp [VState.withProof, VSt.new] at h⟩, fun _ _ _ h => h.elim⟩
    have htr0 : Truth E P N True Facts.none (VState.withProof pf : VState F C B).st := ⟨trivial, fun _ _ _ h => h.elim, fun _ h => by simp [VState.withProof, VSt.new] at h, fun _ h => by simp [VState.withProof, VSt.new] at h⟩
    obtain ⟨-, -, -, -, -, -, -, i8⟩ := base H
    obtain ⟨vs, j1, j2, j3, j4, j5⟩ := i8 (VState.withProof pf) hm0 hback
    exact ⟨vs, ⟨.setProof pf :: List.replicate cols.length .transferNext, j1⟩, j2, j3, j4 (hO.ot i1) htr0, j5⟩
  obtain ⟨a0, t0, -, r0, keep0, -, -, s0, -, -⟩ := hcomp fun _ _ => 0
  obtain ⟨pf0, pf01, -⟩ := exists_proof r0 (s0 hs0) N dflt
  obtain ⟨vs0, reach0, m0, p0, tr0, e0⟩ := start (fun _ _ => 0) t0 pf0 keep0 pf01
  refine ⟨_, vs0, reach0, fun i p hip => m0.known _ _ _ (mem i p hip), fun i p hip => tr0.holds _ _ _ (mem i p hip), fun Concl ⟨bad2, hsound⟩ => ?_⟩
  let H : Oracle F C := fun _ hh => if hx : ∃ x, x ∉ bad hh ∪ bad2 hh P then hx.choose else if hx : ∃ x, x ∉ bad hh then hx.choose else 0
  obtain ⟨a, t', h1, h2, hkeep, h3, h4, h5, h6, h7⟩ := hcomp H
  have hav : ∀ hh ∈ drawn t t', H t.transcript.label hh ∉ bad hh := by
    intro hh hhm
    obtain ⟨k, hk, rfl⟩ := List.getElem_of_mem hhm
    have hcard := h4 k _ (List.getElem?_eq_getElem hk)
    have hx : ∃ x, x ∉ bad (drawn t t')[k] := hb k (h3 ▸ hk) _ (by omega)
    by_cases hy : ∃ x, x ∉ bad (drawn t t')[k] ∪ bad2 (drawn t t')[k] P
    · simp only [H, dif_pos hy]
      exact fun h => hy.choose_spec (Finset.mem_union_left _ h)
    · simp only [H, dif_neg hy, dif_pos hx]
      exact hx.choose_spec
  obtain ⟨pf, hpf1, hpf2⟩ := exists_proof h2 (h5 hs0) N dflt
  obtain ⟨vs, reach, m1, p1, tr1, e1⟩ := start H t' pf hkeep hpf1
  have hvs : vs.st = withProof vs0.st pf := by
    rw [e0, e1, ← startV_withProof]
    rfl
  have hkn : ∀ i p, cols[i]? = some p → Known vs.st i := fun i p hip => m1.known _ _ _ (mem i p hip)
  have hho : ∀ i p, cols[i]? = some p → Holds vs.st P N i p.numVars p.tbl := fun i p hip => tr1.holds _ _ _ (mem i p hip)
  rcases h7 vs.st m1.sane m1.tog (hin _ hkn) (by rw [p1]; exact hpf1) with ⟨b, s', k1, k2, k3, -, k4⟩ | ⟨s', k1, k2⟩
  · rw [hvs] at k1
    obtain ⟨q1, q2, q3⟩ := hsound pf H b s' k1
    have hnew : newChallenges vs0.st s' = drawn t t' := by
      unfold newChallenges drawn
      rw [k3.transcript, m0.tog.transcript]
    rw [hnew] at q1 q2 q3
    refine ⟨pf, q3 P (k4 hO (hco _ hho) tr1.claims (by rw [p1]; exact hpf2) hv hx hav) fun hh hhm => ?_⟩
    obtain ⟨k, hk, rfl⟩ := List.getElem_of_mem hhm
    have c1 := h4 k _ (List.getElem?_eq_getElem hk)
    have c2 := (q2 k _ (List.getElem?_eq_getElem hk)).1 P
    have hy : ∃ x, x ∉ bad (drawn t t')[k] ∪ bad2 (drawn t t')[k] P := hb k (h3 ▸ hk) _ ((Finset.card_union_le _ _).trans (by omega))
    rw [m0.tog.transcript]
    simp only [H, dif_pos hy]
    exact fun h => hy.choose_spec (Finset.mem_union_right _ h)
  · exact absurd ⟨by rw [p1]; exact hpf2, hv, hav⟩ k2

end Zksql
