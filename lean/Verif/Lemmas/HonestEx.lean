import Verif.Lemmas.Honest
import Verif.Lemmas.Reach
import Verif.Lemmas.Joint2
/-!
Whole honest runs: the prover commits to columns and runs its side of a check, the verifier receives the columns and runs its side.
-/
set_option linter.unusedSectionVars false
namespace Zksql
open Spec
variable {F C B : Type} [Field F] [DecidableEq F]
variable {E : Env F C} {P : C → List F → F} {N : Nat}

/-- The prover's state after committing to the columns. -/
def startP (commit : Mle F → Res C) : List (Mle F) → PTracker F C → PTracker F C
  | [], t => t
  | p :: ps, t => startP commit ps (TPoly.trackAndCommit commit p t).2

/-- The verifier's state after receiving the columns. -/
def startV (commit : Mle F → Res C) : List (Mle F) → VSt F C B → VSt F C B
  | [], s => s
  | p :: ps, s => match commit p with
    | .ok c => startV commit ps (s.pushMat c)
    | .error _ => s

theorem startV_withProof (commit : Mle F → Res C) (ps : List (Mle F)) (pf : CompiledProof F C B) :
    ∀ s, startV commit ps (withProof s pf) = withProof (startV commit ps s) pf := by
  induction ps with
  | nil => intro s; rfl
  | cons p ps ih =>
    intro s
    simp only [startV]
    split
    · exact ih (s.pushMat _)
    · rfl

theorem pushComm_counter (t : PTracker F C) (p : Mle F) (c : C) : (t.pushComm p c).idCounter = t.idCounter + 1 := rfl

/-- The facts about columns under consecutive identifiers. -/
def colFacts (Γ : Facts F) : Nat → List (Mle F) → Facts F
  | _, [] => Γ
  | k, p :: ps => colFacts (Γ.ins k p.numVars p.tbl) (k + 1) ps

theorem colFacts_le (k : Nat) (ps : List (Mle F)) (Γ : Facts F) : Γ ≤ colFacts Γ k ps := by
  induction ps generalizing k Γ with
  | nil => exact le_rfl
  | cons p ps ih => exact (Facts.le_ins _ _ _ _).trans (ih _ _)

theorem colFacts_mem (k : Nat) (ps : List (Mle F)) (Γ : Facts F) {i : Nat} {p : Mle F} (h : ps[i]? = some p) : colFacts Γ k ps (k + i) p.numVars p.tbl := by
  induction ps generalizing k Γ i with
  | nil => simp at h
  | cons q ps ih =>
    cases i with
    | zero =>
      obtain rfl : q = p := by simpa using h
      exact colFacts_le (k + 1) ps (Γ.ins k q.numVars q.tbl) _ _ _ (Facts.mem_ins ..)
    | succ i =>
      have := ih (k + 1) (Γ.ins k q.numVars q.tbl) (i := i) (by simpa using h)
      rw [show k + (i + 1) = k + 1 + i by omega]
      exact this

/-- Sending columns. -/
theorem start_run (d : Bool) (H : Oracle F C) (hC : CanCommit E.commit N) (ps : List (Mle F)) (hp : ∀ p ∈ ps, p.WF ∧ p.numVars ≤ N) {t : PTracker F C} {Γ : Facts F}
    (hi : t.Inv (commR E.commit)) :
    (startP E.commit ps t).Inv (commR E.commit) ∧ ((ps ≠ [] ∨ t.transcript.isEmpty = false) → (startP E.commit ps t).transcript.isEmpty = false) ∧
    PTracker.Pres t (startP E.commit ps t) ∧
    (startP E.commit ps t).sumClaims = t.sumClaims ∧ (startP E.commit ps t).zeroClaims = t.zeroClaims ∧
    (∀ id c, t.comms.lookup id = some c → (startP E.commit ps t).comms.lookup id = some c) ∧
    (∀ i p, ps[i]? = some p → PH (startP E.commit ps t) ⟨t.idCounter + i, p.numVars⟩ p.tbl) ∧
    ∀ vs : VState F C B, Match Γ t vs.st → Carries vs.st.own.proof (startP E.commit ps t) →
      ∃ vs', runVOps d H vs (List.replicate ps.length .transferNext) = .ok vs' ∧ Match (colFacts Γ t.idCounter ps) (startP E.commit ps t) vs'.st ∧
        vs'.st.own.proof = vs.st.own.proof ∧ (OT P N (startP E.commit ps t) → Truth E P N True Γ vs.st → Truth E P N True (colFacts Γ t.idCounter ps) vs'.st) ∧
        vs'.st = startV E.commit ps vs.st := by
  induction ps generalizing t Γ with
  | nil =>
    exact ⟨hi, by rintro (h | h); exact absurd rfl h; exact h, PTracker.Pres.refl t, rfl, rfl, fun _ _ h => h, by simp, fun vs hm _ => ⟨vs, rfl, hm, rfl, fun _ => id, rfl⟩⟩
  | cons p ps ih =>
    obtain ⟨hw, hn⟩ := hp p List.mem_cons_self
    obtain ⟨c, hc⟩ := hC p hw hn
    obtain ⟨s1, s2, s3, s4, s5, s6⟩ := commit_step (B := B) (P := P) (N := N) (d := d) (Γ := Γ) hi hw hn hc
    have e : startP E.commit (p :: ps) t = startP E.commit ps (t.pushComm p c) := by
      show startP E.commit ps (TPoly.trackAndCommit E.commit p t).2 = _
      rw [s1]
    obtain ⟨i1, i2, i3, i4, i5, i6, i7, i8⟩ := ih (fun q hq => hp q (List.mem_cons_of_mem _ hq)) (Γ := Γ.ins t.idCounter p.numVars p.tbl) s3.inv
    rw [e]
    refine ⟨i1, fun _ => i2 (.inr s3.started), s2.trans i3, i4, i5, fun id c' h => i6 id c' (s5 id c' h), fun i q hq => ?_, fun vs hm hcar => ?_⟩
    · cases i with
      | zero =>
        obtain rfl : p = q := by simpa using hq
        exact s4.pres i3
      | succ i =>
        have := i7 i q (by simpa using hq)
        rw [pushComm_counter] at this
        rw [show t.idCounter + (i + 1) = t.idCounter + 1 + i by omega]
        exact this
    · have hcar' : Carries vs.st.own.proof (t.pushComm p c) := ⟨fun id c' h => hcar.comms id c' (i6 id c' h), fun e he => hcar.sums e (by rw [i4]; exact he)⟩
      obtain ⟨k1, k2, k3, k4⟩ := s6 vs.st hm hcar'
      have hrun : (VOp.transferNext : VOp F C B).run d H vs = .ok ⟨vs.st.pushMat c, vs.handles ++ [t.idCounter]⟩ := by
        show vstepHandle vs (VSt.getNextId >>= VSt.transferComm d) = _
        unfold vstepHandle
        rw [k1]
      obtain ⟨vs', j1, j2, j3, j4, j5⟩ := i8 ⟨vs.st.pushMat c, vs.handles ++ [t.idCounter]⟩ k2 hcar
      refine ⟨vs', ?_, j2, j3, fun ho htr => j4 ho (k4 (fun id c a hc ha => ho id c a (i6 id c hc) (i3.mats _ _ ha)) htr), by rw [j5]; simp [startV, hc]⟩
      rw [List.length_cons, List.replicate_succ]
      unfold runVOps
      rw [List.foldlM_cons, hrun]
      exact j1

theorem lookup_consistent {l : List (Nat × F)} (hl : ∀ e ∈ l, ∀ e' ∈ l, e.1 = e'.1 → e.2 = e'.2) {e : Nat × F} (he : e ∈ l) : l.lookup e.1 = some e.2 := by
  induction l with
  | nil => cases he
  | cons a l ih =>
    rw [List.lookup_cons]
    by_cases h : e.1 = a.1
    · rw [hl e he a List.mem_cons_self h]; simp [h]
    · have : (e.1 == a.1) = false := by simpa using h
      rw [this]
      rcases List.mem_cons.1 he with rfl | h'
      · exact absurd rfl h
      · exact ih (fun x hx y hy => hl x (List.mem_cons_of_mem _ hx) y (List.mem_cons_of_mem _ hy)) h'

/-- A proof with the prover's commitments and true sums. -/
theorem exists_proof {t : PTracker F C} (hr : Ready E.commit t) (hs : SumsTrueP t) (N : Nat) (dflt : CompiledProof F C B) :
    ∃ pf : CompiledProof F C B, Carries pf t ∧ TrueSums N pf t := by
  let nvOf : Nat → Nat := fun i => match t.getPolyNv i with
    | .ok n => n
    | .error _ => 0
  let L : List (Nat × F) := t.sumClaims.map fun e => (e.1, 2 ^ (N - nvOf e.1) * e.2)
  have key : ∀ e ∈ t.sumClaims, L.lookup e.1 = some (2 ^ (N - nvOf e.1) * e.2) := by
    intro e he
    refine lookup_consistent (l := L) (e := (e.1, 2 ^ (N - nvOf e.1) * e.2)) ?_ (List.mem_map.2 ⟨e, he, rfl⟩)
    rintro x hx y hy hxy
    obtain ⟨x, hx', rfl⟩ := List.mem_map.1 hx
    obtain ⟨y, hy', rfl⟩ := List.mem_map.1 hy
    dsimp only at hxy ⊢
    obtain ⟨a, T, h1, h2, h3⟩ := hs x hx'
    obtain ⟨b, U, g1, g2, g3⟩ := hs y hy'
    obtain ⟨ai, an⟩ := a
    obtain ⟨bi, bn⟩ := b
    dsimp only at h1 g1 h3 g3
    have e1 : ai = bi := by rw [h1, g1, hxy]
    subst e1
    obtain rfl : an = bn := by
      have := h2.1.symm.trans g2.1
      injection this
    have : cubeSum an T = cubeSum an U := by
      unfold cubeSum
      refine Finset.sum_congr rfl fun i hi => ?_
      rw [← (h2.ph hr).val i (Finset.mem_range.1 hi), ← (g2.ph hr).val i (Finset.mem_range.1 hi)]
    rw [hxy, ← h3, ← g3, this]
  refine ⟨{ dflt with comms := t.comms, sumcheckClaims := L }, ⟨fun _ _ h => h, fun e he => ⟨_, key e he⟩⟩, fun e he nv hn => ?_⟩
  rw [key e he]
  simp only [nvOf, hn]

/-- Every set of at most so many elements misses one. -/
def Plenty (F : Type) (n : Nat) : Prop := ∀ S : Finset F, S.card ≤ n → ∃ x, x ∉ S

open Classical in
/-- A whole honest run: the prover commits to `cols` and runs its side; for suitable challenges the verifier gets a proof, receives the columns, and accepts. -/
theorem Spec.Completes.wholeR {α β : Type} {cols : List (Mle F)} (hC : CanCommit E.commit N) (hO : Opens E.commit P N) (hcols : ∀ p ∈ cols, p.WF ∧ p.numVars ≤ N)
    (hne : cols ≠ []) {m : Env F C → Act (PTracker F C) α} {v : Env F C → Act (VSt F C B) β} {bounds : List Nat} {Inputs Contents : VSt F C B → Prop} {Valid Fits : Prop}
    (h : Ready E.commit (startP E.commit cols PTracker.new) → (∀ i p, cols[i]? = some p → HoldsP (startP E.commit cols PTracker.new) ⟨i, p.numVars⟩ p.tbl) →
      Completes E P N m v (startP E.commit cols PTracker.new) bounds Inputs Contents Valid Fits)
    (hb : ∀ n ∈ bounds, Plenty F n) (hv : Valid) (dflt : CompiledProof F C B)
    (hin : ∀ s : VSt F C B, (∀ i p, cols[i]? = some p → Known s i) → Inputs s)
    (hco : ∀ s : VSt F C B, (∀ i p, cols[i]? = some p → Holds s P N i p.numVars p.tbl) → Contents s) (hx : Fits := by trivial) :
    ∃ (H : Oracle F C) (a : α) (t' : PTracker F C) (vs : VState F C B) (b : β) (s' : VSt F C B), m (E.withH H) (startP E.commit cols PTracker.new) = (.ok a, t') ∧
      VReachable E.debug H vs ∧ v (E.withH H) vs.st = (.ok b, s') ∧ ClaimsTrue P N s' ∧
      (∀ i p, cols[i]? = some p → Known vs.st i) ∧ ∀ i p, cols[i]? = some p → Holds vs.st P N i p.numVars p.tbl := by
  have hi0 : (PTracker.new : PTracker F C).Inv (commR E.commit) := (stInv_init (commit := E.commit)).inv
  set t := startP E.commit cols (PTracker.new : PTracker F C) with ht
  have base := fun H => start_run (B := B) (E := E) (P := P) E.debug H hC cols hcols (Γ := Facts.none) hi0
  obtain ⟨i1, i2, i3, i4, i5, i6, i7, -⟩ := base fun _ _ => 0
  have hr : Ready E.commit t := ⟨i1, i2 (.inl hne)⟩
  have hid : (PTracker.new : PTracker F C).idCounter = 0 := rfl
  obtain ⟨bad, hcomp⟩ := h hr fun i p hip => by
    have := (i7 i p hip).holdsP hr
    rw [hid, Nat.zero_add] at this
    exact this
  let H : Oracle F C := fun _ hh => if hx : ∃ x, x ∉ bad hh then hx.choose else 0
  obtain ⟨a, t', h1, h2, hkeep, h3, h4, h5, h6, h7⟩ := hcomp H
  have hs0 : SumsTrueP t := by
    intro c hc
    rw [i4] at hc
    exact absurd hc (by simp [PTracker.new])
  have hav : ∀ hh ∈ drawn t t', H t.transcript.label hh ∉ bad hh := by
    intro hh hhm
    obtain ⟨k, hk, rfl⟩ := List.getElem_of_mem hhm
    have hcard := h4 k _ (List.getElem?_eq_getElem hk)
    have hkb : k < bounds.length := h3 ▸ hk
    have hx : ∃ x, x ∉ bad (drawn t t')[k] := hb _ (List.getElem_mem hkb) _ (by
      rw [List.getD_eq_getElem?_getD, List.getElem?_eq_getElem hkb] at hcard
      exact hcard)
    simp only [H, dif_pos hx]
    exact hx.choose_spec
  obtain ⟨pf, hpf1, hpf2⟩ := exists_proof h2 (h5 hs0) N dflt
  have hback : Carries pf t := by
    refine ⟨fun id c hc => hpf1.comms id c (hkeep id c hc), fun e he => ?_⟩
    rw [i4] at he
    exact absurd he (by simp [PTracker.new])
  have hm0 : Match Facts.none (PTracker.new : PTracker F C) (VState.withProof pf : VState F C B).st :=
    ⟨VReachable.sane (debug := true) (H := fun _ _ => 0) ⟨[.setProof pf], rfl⟩, ⟨rfl, rfl, rfl, rfl, rfl, fun _ h => by simp [VState.withProof, VSt.new] at h⟩, fun _ _ _ h => h.elim⟩
  have htr0 : Truth E P N True Facts.none (VState.withProof pf : VState F C B).st := ⟨trivial, fun _ _ _ h => h.elim, fun _ h => by simp [VState.withProof, VSt.new] at h, fun _ h => by simp [VState.withProof, VSt.new] at h⟩
  obtain ⟨-, -, -, -, -, -, -, i8⟩ := base H
  obtain ⟨vs, j1, j2, j3, j4, -⟩ := i8 (VState.withProof pf) hm0 hback
  have htr := j4 (hO.ot i1) htr0
  have hpf : vs.st.own.proof = pf := j3
  have mem : ∀ i p, cols[i]? = some p → colFacts Facts.none (PTracker.new : PTracker F C).idCounter cols i p.numVars p.tbl := fun i p hip => by
    have := colFacts_mem (PTracker.new : PTracker F C).idCounter cols Facts.none hip
    rwa [hid, Nat.zero_add, ← hid] at this
  have hkn : ∀ i p, cols[i]? = some p → Known vs.st i := fun i p hip => j2.known _ _ _ (mem i p hip)
  have hho : ∀ i p, cols[i]? = some p → Holds vs.st P N i p.numVars p.tbl := fun i p hip => htr.holds _ _ _ (mem i p hip)
  have hreach : VReachable E.debug H vs := ⟨.setProof pf :: List.replicate cols.length .transferNext, j1⟩
  rcases h7 vs.st j2.sane j2.tog (hin _ hkn) (by rw [hpf]; exact hpf1) with ⟨b, s', k1, k2, k3, -, k4⟩ | ⟨s', k1, k2⟩
  · exact ⟨H, a, t', vs, b, s', h1, hreach, k1, k4 hO (hco _ hho) htr.claims (by rw [hpf]; exact hpf2) hv hx hav, hkn, hho⟩
  · exact absurd ⟨by rw [hpf]; exact hpf2, hv, hav⟩ k2

theorem Spec.Completes.whole {cols : List (Mle F)} (hC : CanCommit E.commit N) (hO : Opens E.commit P N) (hcols : ∀ p ∈ cols, p.WF ∧ p.numVars ≤ N)
    (hne : cols ≠ []) {m : Env F C → Act (PTracker F C) Unit} {v : Env F C → Act (VSt F C B) Unit} {bounds : List Nat} {Inputs Contents : VSt F C B → Prop} {Valid Fits : Prop}
    (h : Ready E.commit (startP E.commit cols PTracker.new) → (∀ i p, cols[i]? = some p → HoldsP (startP E.commit cols PTracker.new) ⟨i, p.numVars⟩ p.tbl) →
      Completes E P N m v (startP E.commit cols PTracker.new) bounds Inputs Contents Valid Fits)
    (hb : ∀ n ∈ bounds, Plenty F n) (hv : Valid) (dflt : CompiledProof F C B)
    (hin : ∀ s : VSt F C B, (∀ i p, cols[i]? = some p → Known s i) → Inputs s)
    (hco : ∀ s : VSt F C B, (∀ i p, cols[i]? = some p → Holds s P N i p.numVars p.tbl) → Contents s) (hx : Fits := by trivial) :
    ∃ (H : Oracle F C) (vs : VState F C B) (s' : VSt F C B), VReachable E.debug H vs ∧ v (E.withH H) vs.st = (.ok (), s') ∧ ClaimsTrue P N s' ∧
      (∀ i p, cols[i]? = some p → Known vs.st i) ∧ ∀ i p, cols[i]? = some p → Holds vs.st P N i p.numVars p.tbl := by
  obtain ⟨H, -, -, vs, b, s', -, h2, h3, h4⟩ := Spec.Completes.wholeR hC hO hcols hne h hb hv dflt hin hco hx
  exact ⟨H, vs, s', h2, h3, h4⟩

end Zksql
