import Verif.Lemmas.HonestTables
import Verif.Lemmas.HonestSets
import Verif.Props.TableRuns
import Verif.Spec.Program
/-! Honest runs of programs. -/
set_option linter.unusedSectionVars false
namespace Zksql
open Spec
variable {F C B K : Type} [Field F] [DecidableEq F]
variable {E : Env F C} {P : C → List F → F} {N : Nat} {Sz : Prop} {t t1 t2 t' : PTracker F C} {s s1 s' : VSt F C B}
variable {Γ Γ1 : Facts F} {Φ Φ' : Prop}

/-- The column on both sides. -/
abbrev KOk (Γ : Facts F) (t : PTracker F C) (φ : K → TPoly) (W : K → Column F) (k : K) : Prop := COk Γ t (φ k) (φ k).id (W k).nv (W k).val

section
variable {φ : K → TPoly} {W : K → Column F}

theorem KOk.bag {b : K × K} (h1 : KOk Γ t φ W b.1) (h2 : KOk Γ t φ W b.2) (he : Even W b) :
    BOk Γ t (bagOf (b.map φ φ)) (bagCommOf (b.map φ φ)) (bagTab W b) := by
  have h2' : COk Γ t (φ b.2) (φ b.2).id (W b.1).nv (W b.2).val := he ▸ h2
  have := h1.bok h2'
  unfold bagCommOf bagOf sameBag bagTab
  simpa [h1.size] using this

theorem KOk.cols {nv : Nat} : ∀ {cs : List K}, (∀ c ∈ cs, KOk Γ t φ W c) → (∀ c ∈ cs, (W c).nv = nv) →
    CsOk Γ t nv (cs.map φ) ((cs.map φ).map (·.id)) (cs.map fun c => (W c).val)
  | [], _, _ => trivial
  | c :: cs, h, hn => ⟨hn c (by simp) ▸ h c (by simp), KOk.cols (fun c hc => h c (by simp [hc])) fun c hc => hn c (by simp [hc])⟩

theorem KOk.tab {b : List K × K} (h1 : ∀ c ∈ b.1, KOk Γ t φ W c) (h2 : KOk Γ t φ W b.2) (he : EvenTab W b) :
    TOk Γ t (tableOf (b.1.map φ, φ b.2)) (tableCommOf (b.1.map φ, φ b.2)) (tabData W b) :=
  ⟨h2, h2.size, KOk.cols h1 he⟩

theorem KOk.aggs {nv nc : Nat} : ∀ {es : List (Nat × AggType × K)}, (∀ e ∈ es, KOk Γ t φ W e.2.2) → (∀ e ∈ es, (W e.2.2).nv = nv ∧ e.1 < nc ∧ (e.2.1 = .count ∨ e.2.1 = .sum)) →
    AgOk Γ t nv nc (es.map fun e => (e.1, e.2.1, φ e.2.2)) ((es.map fun e => (e.1, e.2.1, φ e.2.2)).map fun e => (e.1, e.2.1, e.2.2.id)) (es.map fun e => (e.1, e.2.1, (W e.2.2).val))
  | [], _, _ => trivial
  | e :: es, h, hn => ⟨⟨rfl, rfl, rfl, rfl, (hn e (by simp)).2⟩, (hn e (by simp)).1 ▸ h e (by simp), KOk.aggs (fun e he => h e (by simp [he])) fun e he => hn e (by simp [he])⟩

end

theorem exists_imp {A : Type} [Inhabited A] {p : A → Prop} (h : Φ → ∃ a, p a) : ∃ a, Φ → p a := by
  by_cases hφ : Φ
  · obtain ⟨a, ha⟩ := h hφ
    exact ⟨a, fun _ => ha⟩
  · exact ⟨default, fun h => absurd h hφ⟩

/-- Every check, on both sides. -/
theorem check_cmp {φ : K → TPoly} {W : K → Column F} {c : Check K} (h2 : (2 : F) ≠ 0) (hC : CanCommit E.commit N) (hr : Ready E.commit t)
    (hk : ∀ k ∈ c.names, KOk Γ t φ W k) (hf : c.Fits N W) (hrun : c.Runs E.debug W) (hSz : Sz → c.Exact N W) (hΦ : Φ → c.Valid E.rep W) :
    Cmp (B := B) E P N Sz (fun H => (c.map φ).prove (E.withH H)) (fun H => (c.map φ).verify (E.withH H)) Γ t (c.bounds W) Φ := by
  obtain ⟨hN, hf⟩ := hf
  cases c with
  | multiset fs gs =>
    obtain ⟨hfs, hgs, he⟩ := hf
    have ok : ∀ e ∈ fs ++ gs, EOk Γ t ((bagOf (e.1.map φ φ), φ e.2), (bagCommOf (e.1.map φ φ), (φ e.2).id), (bagTab W e.1, (W e.2).val)) := by
      intro e hm
      obtain ⟨h3, h4⟩ := he e hm
      have m : ∀ k ∈ [e.1.1, e.1.2, e.2], KOk Γ t φ W k := fun k hk' => hk k (by unfold Check.names; exact List.mem_flatMap.2 ⟨e, hm, hk'⟩)
      have h5 := m e.2 (by simp)
      exact (KOk.bag (m e.1.1 (by simp)) (m e.1.2 (by simp)) h3).eok (h5.size.trans h4) h5.p (by have := h5.f; rw [h4] at this; exact this)
    let J : (K × K) × K → Joint F := fun e => ((bagOf (e.1.map φ φ), φ e.2), (bagCommOf (e.1.map φ φ), (φ e.2).id), (bagTab W e.1, (W e.2).val))
    have := multitool_cmp (B := B) (E := E) (P := P) (N := N) (Sz := Sz) (Γ := Γ) (Φ := Φ) (Lf := fs.map J) (Lg := gs.map J)
      (D := ((fs ++ gs).map fun e => 2 ^ (W e.1.1).nv).sum) hr
      (by
        intro q hq
        obtain ⟨e, hm, rfl⟩ := List.mem_map.1 hq
        exact ok e (List.mem_append_left _ hm))
      (by
        intro q hq
        obtain ⟨e, hm, rfl⟩ := List.mem_map.1 hq
        exact ok e (List.mem_append_right _ hm))
      (by simpa using hfs) (by simpa using hgs)
      (by
        intro q hq
        rw [← List.map_append] at hq
        obtain ⟨e, hm, rfl⟩ := List.mem_map.1 hq
        exact hN e.1.1 (by unfold Check.names; exact List.mem_flatMap.2 ⟨e, hm, by simp⟩))
      h2 hC
      (by
        intro hφ z
        have := hΦ hφ z
        simpa [List.map_map, Function.comp_def, J] using this)
      (by simp [← List.map_append, J, List.map_map, Function.comp_def, bagTab])
    simpa [List.map_map, Function.comp_def, J, Check.map, Check.prove, Check.verify, Check.bounds, Prod.map] using this
  | bagEq f g =>
    have hf' := KOk.bag (hk f.1 (by simp [Check.names])) (hk f.2 (by simp [Check.names])) hf.1
    have hg' := KOk.bag (hk g.1 (by simp [Check.names])) (hk g.2 (by simp [Check.names])) hf.2.1
    have := bagEq_cmp (B := B) (E := E) (P := P) (N := N) (Sz := Sz) (Φ := Φ) hr hf' hg' hf.2.2 (hN f.1 (by simp [Check.names])) h2 hC fun h => hΦ h
    rw [hf'.nvc, hg'.nvc] at this
    exact this
  | bagSum f g h =>
    have hf' := KOk.bag (hk f.1 (by simp [Check.names])) (hk f.2 (by simp [Check.names])) hf.1
    have hg' := KOk.bag (hk g.1 (by simp [Check.names])) (hk g.2 (by simp [Check.names])) hf.2.1
    have hh' := KOk.bag (hk h.1 (by simp [Check.names])) (hk h.2 (by simp [Check.names])) hf.2.2
    have := bagSum_cmp (B := B) (E := E) (P := P) (N := N) (Sz := Sz) (Φ := Φ) hr hf' hg' hh' (hN f.1 (by simp [Check.names])) (hN g.1 (by simp [Check.names]))
      (hN h.1 (by simp [Check.names])) h2 hC fun h => hΦ h
    rw [hf'.nvc, hg'.nvc, hh'.nvc] at this
    exact this
  | inclusion f g =>
    have hf' := KOk.bag (hk f.1 (by simp [Check.names])) (hk f.2 (by simp [Check.names])) hf.1
    have hg' := KOk.bag (hk g.1 (by simp [Check.names])) (hk g.2 (by simp [Check.names])) hf.2
    have := inclusion_cmp (B := B) (E := E) (P := P) (N := N) (Sz := Sz) (Φ := Φ) hr hf' hg' (hN f.1 (by simp [Check.names])) (hN g.1 (by simp [Check.names])) h2 hC
      fun h => hΦ h
    rw [hf'.nvc, hg'.nvc] at this
    exact this
  | inclusionAdvice f g m =>
    have hf' := KOk.bag (hk f.1 (by simp [Check.names])) (hk f.2 (by simp [Check.names])) hf.1
    have hg' := KOk.bag (hk g.1 (by simp [Check.names])) (hk g.2 (by simp [Check.names])) hf.2.1
    have hm : KOk Γ t φ W m := hk m (by simp [Check.names])
    have hm' : COk Γ t (φ m) (φ m).id (bagTab W g).nv (W m).val := by
      have e := hf.2.2
      rw [KOk, e] at hm
      exact hm
    have := inclusionAdvice_cmp (B := B) (E := E) (P := P) (N := N) (Sz := Sz) (Φ := Φ) hr hf' hg' hm' (hN f.1 (by simp [Check.names])) (hN g.1 (by simp [Check.names])) h2 hC
      fun h => hΦ h
    rw [hf'.nvc, hg'.nvc] at this
    exact this
  | noZeros f =>
    have hf' := KOk.bag (hk f.1 (by simp [Check.names])) (hk f.2 (by simp [Check.names])) hf
    have := noZeros_cmp (B := B) (E := E) (P := P) (N := N) (Sz := Sz) (Φ := Φ) hr hf' (hN f.1 (by simp [Check.names])) hC fun h => hΦ h
    exact this
  | selector m =>
    have := selectorValid_cmp (B := B) (E := E) (P := P) (N := N) (Sz := Sz) (Φ := Φ) hr (hk m (by simp [Check.names])) fun h => hΦ h
    exact this
  | permutation f g p =>
    have h1 : KOk Γ t φ W f.1 := hk f.1 (by simp [Check.names])
    have h3 : KOk Γ t φ W g.1 := hk g.1 (by simp [Check.names])
    have h4 : KOk Γ t φ W p := hk p (by simp [Check.names])
    have h3' : COk Γ t (φ g.1) (φ g.1).id (W f.1).nv (W g.1).val := hf.2.2.1 ▸ h3
    have h4' : COk Γ t (φ p) (φ p).id (W f.1).nv (W p).val := hf.2.2.2 ▸ h4
    have := prescPerm_cmp (B := B) (E := E) (P := P) (N := N) (Sz := Sz) (Φ := Φ) (bf := bagOf (f.map φ φ)) (cf := bagCommOf (f.map φ φ)) (bg := bagOf (g.map φ φ))
      (cg := bagCommOf (g.map φ φ)) hr h1 h3' h1.size h3'.size h4' (hN f.1 (by simp [Check.names])) h2 hC hSz fun h => hΦ h
    exact this
  | sort f range =>
    have hf' := KOk.bag (hk f.1 (by simp [Check.names])) (hk f.2 (by simp [Check.names])) hf
    have hr' : KOk Γ t φ W range.1 := hk range.1 (by simp [Check.names])
    have := strictSort_cmp (B := B) (E := E) (P := P) (N := N) (Sz := Sz) (Φ := Φ) (br := bagOf (range.map φ φ)) (cr := bagCommOf (range.map φ φ)) hr hf' hr' hr'.size
      (hN f.1 (by simp [Check.names])) (hN range.1 (by simp [Check.names])) h2 hC hSz fun h => hΦ h
    exact this
  | support f g range =>
    have hf' := KOk.bag (hk f.1 (by simp [Check.names])) (hk f.2 (by simp [Check.names])) hf.1
    have hg' := KOk.bag (hk g.1 (by simp [Check.names])) (hk g.2 (by simp [Check.names])) hf.2
    have hr' : KOk Γ t φ W range.1 := hk range.1 (by simp [Check.names])
    have := supp_cmp (B := B) (E := E) (P := P) (N := N) (Sz := Sz) (Φ := Φ) (br := bagOf (range.map φ φ)) (cr := bagCommOf (range.map φ φ)) hr hf' hg' hr' hr'.size
      (hN f.1 (by simp [Check.names])) (hN g.1 (by simp [Check.names])) (hN range.1 (by simp [Check.names])) h2 hC hSz
      fun h => hΦ h
    exact this
  | supportAdvice f g m range =>
    have hf' := KOk.bag (hk f.1 (by simp [Check.names])) (hk f.2 (by simp [Check.names])) hf.1
    have hg' := KOk.bag (hk g.1 (by simp [Check.names])) (hk g.2 (by simp [Check.names])) hf.2.1
    have hm : KOk Γ t φ W m := hk m (by simp [Check.names])
    have hm' : COk Γ t (φ m) (φ m).id (W g.1).nv (W m).val := hf.2.2 ▸ hm
    have hr' : KOk Γ t φ W range.1 := hk range.1 (by simp [Check.names])
    have := suppAdvice_cmp (B := B) (E := E) (P := P) (N := N) (Sz := Sz) (Φ := Φ) (br := bagOf (range.map φ φ)) (cr := bagCommOf (range.map φ φ)) hr hf' hg' hm' hr' hr'.size
      (hN f.1 (by simp [Check.names])) (hN g.1 (by simp [Check.names])) (hN range.1 (by simp [Check.names])) h2 hC hSz
      fun h => hΦ h
    exact this
  | disjoint f g range =>
    have hf' := KOk.bag (hk f.1 (by simp [Check.names])) (hk f.2 (by simp [Check.names])) hf.1
    have hg' := KOk.bag (hk g.1 (by simp [Check.names])) (hk g.2 (by simp [Check.names])) hf.2.1
    have hr' : KOk Γ t φ W range.1 := hk range.1 (by simp [Check.names])
    obtain ⟨M, hM⟩ := exists_imp fun h => (hΦ h).2.2
    have hn : max (bagTab W f).nv (bagTab W g).nv + 1 ≤ N := hf.2.2
    have := disjoint_cmp (B := B) (E := E) (P := P) (N := N) (Sz := Sz) (Φ := Φ) (M := M) (br := bagOf (range.map φ φ)) (cr := bagCommOf (range.map φ φ)) hr hf' hg' hr' hr'.size
      hn (hN range.1 (by simp [Check.names])) h2 hC hSz
      fun h => let ⟨a2, a3, _⟩ := hΦ h; let ⟨b1, b2, b3, b4, b5, b6⟩ := hM h; ⟨b1, b2, b3, b4, b5, a2, a3, b6⟩
    exact this
  | setDisjoint f g range =>
    have hf' := KOk.bag (hk f.1 (by simp [Check.names])) (hk f.2 (by simp [Check.names])) hf.1
    have hg' := KOk.bag (hk g.1 (by simp [Check.names])) (hk g.2 (by simp [Check.names])) hf.2.1
    have hr' : KOk Γ t φ W range.1 := hk range.1 (by simp [Check.names])
    obtain ⟨M, hM⟩ := exists_imp fun h => (hΦ h).2.2
    have hn : max (bagTab W f).nv (bagTab W g).nv + 1 ≤ N := hf.2.2
    have := setDisjoint_cmp (B := B) (E := E) (P := P) (N := N) (Sz := Sz) (Φ := Φ) (M := M) (br := bagOf (range.map φ φ)) (cr := bagCommOf (range.map φ φ)) hr hf' hg' hr' hr'.size
      hn (hN range.1 (by simp [Check.names])) h2 hC hSz
      fun h => let ⟨a2, a3, _⟩ := hΦ h; let ⟨b1, b2, b3, b4, b5, b6⟩ := hM h; ⟨b1, b2, b3, b4, b5, a2, a3, b6⟩
    exact this
  | union f g u range =>
    have hf' := KOk.bag (hk f.1 (by simp [Check.names])) (hk f.2 (by simp [Check.names])) hf.1
    have hg' := KOk.bag (hk g.1 (by simp [Check.names])) (hk g.2 (by simp [Check.names])) hf.2.1
    have hu' := KOk.bag (hk u.1 (by simp [Check.names])) (hk u.2 (by simp [Check.names])) hf.2.2.1
    have hr' : KOk Γ t φ W range.1 := hk range.1 (by simp [Check.names])
    have hn : max (bagTab W f).nv (bagTab W g).nv + 1 ≤ N := hf.2.2.2
    have := setUnion_cmp (B := B) (E := E) (P := P) (N := N) (Sz := Sz) (Φ := Φ) (br := bagOf (range.map φ φ)) (cr := bagCommOf (range.map φ φ)) hr hf' hg' hu' hr' hr'.size
      hn (hN u.1 (by simp [Check.names])) (hN range.1 (by simp [Check.names])) h2 hC hSz fun h => hΦ h
    exact this
  | diff f g l m mult range =>
    have hf' := KOk.bag (hk f.1 (by simp [Check.names])) (hk f.2 (by simp [Check.names])) hf.1
    have hg' := KOk.bag (hk g.1 (by simp [Check.names])) (hk g.2 (by simp [Check.names])) hf.2.1
    have hl' := KOk.bag (hk l.1 (by simp [Check.names])) (hk l.2 (by simp [Check.names])) hf.2.2.1
    have hm' := KOk.bag (hk m.1 (by simp [Check.names])) (hk m.2 (by simp [Check.names])) hf.2.2.2.1
    have hx : KOk Γ t φ W mult := hk mult (by simp [Check.names])
    have hx' : COk Γ t (φ mult) (φ mult).id (W g.1).nv (W mult).val := hf.2.2.2.2.1 ▸ hx
    have hr' : KOk Γ t φ W range.1 := hk range.1 (by simp [Check.names])
    obtain ⟨M, hM⟩ := exists_imp fun h => (hΦ h).2.2.1
    have hn : max (bagTab W l).nv (bagTab W g).nv + 1 ≤ N := hf.2.2.2.2.2
    have := setDiff_cmp (B := B) (E := E) (P := P) (N := N) (Sz := Sz) (Φ := Φ) (M := M) (br := bagOf (range.map φ φ)) (cr := bagCommOf (range.map φ φ)) hr hf' hg' hl' hm' hx' hr'
      hr'.size hn (hN f.1 (by simp [Check.names])) (hN m.1 (by simp [Check.names])) (hN range.1 (by simp [Check.names])) h2 hC hSz
      fun h => let ⟨a2, a3, _, a4, a5⟩ := hΦ h; let ⟨b1, b2, b3, b4, b5, b6⟩ := hM h; ⟨⟨b1, b2, b3, b4, b5, a2, a3, b6⟩, a4, a5⟩
    exact this
  | intersect f g l m r range =>
    have hf' := KOk.bag (hk f.1 (by simp [Check.names])) (hk f.2 (by simp [Check.names])) hf.1
    have hg' := KOk.bag (hk g.1 (by simp [Check.names])) (hk g.2 (by simp [Check.names])) hf.2.1
    have hl' := KOk.bag (hk l.1 (by simp [Check.names])) (hk l.2 (by simp [Check.names])) hf.2.2.1
    have hm' := KOk.bag (hk m.1 (by simp [Check.names])) (hk m.2 (by simp [Check.names])) hf.2.2.2.1
    have hx' := KOk.bag (hk r.1 (by simp [Check.names])) (hk r.2 (by simp [Check.names])) hf.2.2.2.2.1
    have hr' : KOk Γ t φ W range.1 := hk range.1 (by simp [Check.names])
    obtain ⟨M, hM⟩ := exists_imp fun h => (hΦ h).2.2.1
    have hn : max (bagTab W l).nv (bagTab W r).nv + 1 ≤ N := hf.2.2.2.2.2
    have := setIntersect_cmp (B := B) (E := E) (P := P) (N := N) (Sz := Sz) (Φ := Φ) (M := M) (br := bagOf (range.map φ φ)) (cr := bagCommOf (range.map φ φ)) hr hf' hg' hl' hm' hx'
      hr' hr'.size hn (hN f.1 (by simp [Check.names])) (hN g.1 (by simp [Check.names])) (hN m.1 (by simp [Check.names]))
      (hN range.1 (by simp [Check.names])) h2 hC hSz
      fun h => let ⟨a2, a3, _, a4, a5⟩ := hΦ h; let ⟨b1, b2, b3, b4, b5, b6⟩ := hM h; ⟨⟨b1, b2, b3, b4, b5, a2, a3, b6⟩, a4, a5⟩
    exact this
  | joinReduction f g lSel rSel range =>
    have hf' := KOk.bag (hk f.1 (by simp [Check.names])) (hk f.2 (by simp [Check.names])) hf.1
    have hg' := KOk.bag (hk g.1 (by simp [Check.names])) (hk g.2 (by simp [Check.names])) hf.2.1
    have hl : KOk Γ t φ W lSel := hk lSel (by simp [Check.names])
    have hx : KOk Γ t φ W rSel := hk rSel (by simp [Check.names])
    have hl' : COk Γ t (φ lSel) (φ lSel).id (W f.1).nv (W lSel).val := hf.2.2.1 ▸ hl
    have hx' : COk Γ t (φ rSel) (φ rSel).id (W g.1).nv (W rSel).val := hf.2.2.2.1 ▸ hx
    have hr' : KOk Γ t φ W range.1 := hk range.1 (by simp [Check.names])
    obtain ⟨M, hM⟩ := exists_imp fun h => (hΦ h).2.2.1
    have hn : max (bagTab W f).nv (bagTab W g).nv + 1 ≤ N := hf.2.2.2.2
    have := joinReduction_cmp (B := B) (E := E) (P := P) (N := N) (Sz := Sz) (Φ := Φ) (M := M) (br := bagOf (range.map φ φ)) (cr := bagCommOf (range.map φ φ)) hr hf' hg' hl' hx'
      hr' hr'.size hn (hN range.1 (by simp [Check.names])) h2 hC hSz
      fun h => let ⟨a3, a4, _, a6, a7, a8, a9⟩ := hΦ h; let ⟨b1, b2, b3, b4, b5⟩ := hM h; ⟨b1, b2, b3, b4, b5, a3, a4, a6, a7, a8, a9⟩
    exact this
  | indexTransform inp out =>
    have hi := KOk.tab (b := inp) (fun c hc => hk c (by simp [Check.names, hc])) (hk inp.2 (by simp [Check.names])) hf.1
    have ho := KOk.tab (b := out) (fun c hc => hk c (by simp [Check.names, hc])) (hk out.2 (by simp [Check.names])) hf.2.1
    have := indexTransform_cmp (B := B) (E := E) (P := P) (N := N) (Sz := Sz) (Φ := Φ) hr hi ho (hN inp.2 (by simp [Check.names])) (hN out.2 (by simp [Check.names])) h2 hC
      (by simpa [tabData] using hf.2.2)
      fun h => let ⟨a1, a2, a3⟩ := hΦ h; ⟨a1, a2, fun i hi => let ⟨j, hj, e⟩ := a3 i hi; ⟨j, hj, by rw [e]⟩⟩
    rw [hi.nvc, ho.nvc] at this
    exact this
  | joinAdvice a b ai bi ta =>
    have ha := KOk.tab (b := a) (fun c hc => hk c (by simp [Check.names, hc])) (hk a.2 (by simp [Check.names])) hf.1
    have hb := KOk.tab (b := b) (fun c hc => hk c (by simp [Check.names, hc])) (hk b.2 (by simp [Check.names])) hf.2.1
    have ht := KOk.cols (cs := ta) (fun c hc => hk c (by simp [Check.names, hc])) hf.2.2.1
    intro α β f g b2 h
    have := k_finalJoinAdvice (B := B) (E := E) (P := P) (N := N) (Sz := Sz) (Φ := Φ) (f := fun _ => f ()) (g := fun _ => g ()) (bounds := b2) hr ha hb ht (by simpa [tabData] using hf.2.2.2.1)
      (by simpa [tabData] using hf.2.2.2.2.1) (by simpa [tabData] using hf.2.2.2.2.2) (fun hd => keysDistinct_of (hrun hd)) (hN a.2 (by simp [Check.names]))
      (hN b.2 (by simp [Check.names])) h2 hC
      (fun hφ => by
        obtain ⟨a1, a2, a3⟩ := hΦ hφ
        refine ⟨a1, a2, fun i hi => ?_, fun i hi => ?_⟩
        · obtain ⟨j, hj, e, -⟩ := a3 i hi
          exact ⟨j, hj, by rw [← e, List.map_map]; rfl⟩
        · obtain ⟨j, hj, e, e'⟩ := a3 i hi
          rw [← e']
          have h1 : ai < ta.length := by rw [hf.2.2.2.1]; exact hf.2.2.2.2.1
          have := congrArg (fun l => l.getD ai 0) e
          simp only [TabData.row, tabData, List.map_map] at this
          simp only [List.getD, List.getElem?_map, h1, hf.2.2.2.2.1, List.getElem?_eq_getElem, Option.map_some, Option.getD_some, TabData.col, tabData, Function.comp] at this ⊢
          exact this)
      fun t1 Γ1 x1 g1 _ => h t1 Γ1 x1 g1
    rw [ha.nvc, hb.nvc] at this
    simp only [Check.map, Check.prove, Check.verify, Act.bind_assoc]
    exact this
  | groupBy inp key grp mult aggs range =>
    have hi := KOk.tab (b := inp) (fun c hc => hk c (by simp [Check.names, hc])) (hk inp.2 (by simp [Check.names])) hf.1
    have hg := KOk.bag (hk grp.1 (by simp [Check.names])) (hk grp.2 (by simp [Check.names])) hf.2.1
    have hm : KOk Γ t φ W mult := hk mult (by simp [Check.names])
    have hm' : COk Γ t (φ mult) (φ mult).id (W grp.1).nv (W mult).val := hf.2.2.1 ▸ hm
    have hr' : KOk Γ t φ W range.1 := hk range.1 (by simp [Check.names])
    have ha := KOk.aggs (φ := φ) (W := W) (nv := (W grp.1).nv) (nc := inp.1.length) (es := aggs) (fun e he => hk e.2.2 (by
      simp only [Check.names, List.mem_append, List.mem_cons, List.mem_map]
      exact .inr (.inr (.inr (.inr (.inr (.inr (.inr ⟨e, he, rfl⟩)))))))) hf.2.2.2.2.2
    intro α β f g b2 h
    have := k_groupBy (B := B) (E := E) (P := P) (N := N) (Sz := Sz) (Φ := Φ) (f := fun _ => f ()) (g := fun _ => g ()) (bounds := b2)
      (i := requestOf key (grp.map φ φ) (φ mult) (aggs.map fun e => (e.1, e.2.1, φ e.2.2)))
      (j := sameInstr (requestOf key (grp.map φ φ) (φ mult) (aggs.map fun e => (e.1, e.2.1, φ e.2.2)))) (k := key) (sp := φ grp.1) (isp := (φ grp.1).id) (l := []) (l' := [])
      (Tg := bagTab W grp) (M := (W mult).val) (fs := aggs.map fun e => (e.1, e.2.1, (W e.2.2).val)) (r := (W range.1).nv) (ρ := (W range.1).val)
      (br := bagOf (range.map φ φ)) (cr := bagCommOf (range.map φ φ)) hr hi rfl rfl (by simpa [tabData] using hf.2.2.2.2.1) rfl rfl
      (hk grp.1 (by simp [Check.names])) hg.cs hm' (by
        have e : (tabData W inp).cols.length = inp.1.length := by simp [tabData]
        rw [e]; exact ha) hr' hr'.size hf.2.2.2.1 (hN grp.1 (by simp [Check.names]))
      (hN range.1 (by simp [Check.names])) h2 hC hSz
      (fun hφ => by
        obtain ⟨a2, a3, a4, a5⟩ := hΦ hφ
        obtain ⟨b1, b2, b3⟩ := a4.weights a2 a3
        exact ⟨b1, b2, a5, b3⟩)
      fun x y t1 Γ1 x1 g1 _ => h t1 Γ1 x1 g1
    have eb : sumBounds (2 ^ (tabData W inp).nv + 2 ^ (bagTab W grp).nv) (aggs.map fun e => (e.1, e.2.1, (W e.2.2).val)) =
        (aggs.filter fun e => e.2.1 = .sum).map fun _ => 2 ^ (W inp.2).nv + 2 ^ (W grp.1).nv := by
      unfold sumBounds
      rw [List.filter_map, List.map_map]
      rfl
    rw [eb, ← List.append_assoc] at this
    simp only [Check.map, Check.prove, Check.verify, Act.bind_assoc]
    exact this

/-! ### Programs -/

/-- All columns on both sides. -/
def AllOk (Γ : Facts F) (t : PTracker F C) (hs : List TPoly) (W : List (Column F)) : Prop :=
  hs.length = W.length ∧ ∀ i < W.length, KOk Γ t (at' hs) (colAt W) i

theorem AllOk.mono {hs : List TPoly} {W : List (Column F)} (h : AllOk Γ t hs W) (x : Ext E t t1) (hΓ : Γ ≤ Γ1) : AllOk Γ1 t1 hs W :=
  ⟨h.1, fun i hi => (h.2 i hi).mono x hΓ⟩

theorem AllOk.push {hs : List TPoly} {W : List (Column F)} (h : AllOk Γ t hs W) {x : TPoly} {w : Column F} (hx : COk Γ t x x.id w.nv w.val) :
    AllOk Γ t (hs ++ [x]) (W ++ [w]) := by
  refine ⟨by simp [h.1], fun i hi => ?_⟩
  rw [List.length_append, List.length_singleton] at hi
  rcases Nat.lt_or_ge i W.length with hi' | hi'
  · have := h.2 i hi'
    unfold KOk at'
    unfold colAt
    rw [List.getD_append _ _ _ _ (h.1 ▸ hi'), List.getD_append _ _ _ _ hi']
    exact this
  · obtain rfl : i = W.length := by omega
    unfold KOk at' colAt
    rw [List.getD_append_right _ _ _ _ h.1.le, List.getD_append_right _ _ _ _ le_rfl, h.1]
    simpa using hx

theorem AllOk.append {nv : Nat} : ∀ {xs : List TPoly} {Ts : List (Nat → F)} {hs : List TPoly} {W : List (Column F)}, AllOk Γ t hs W → CsOk Γ t nv xs (xs.map (·.id)) Ts →
    AllOk Γ t (hs ++ xs) (W ++ Ts.map fun T => ⟨nv, T⟩)
  | [], [], _, _, h, _ => by simpa using h
  | x :: xs, T :: Ts, hs, W, h, hc => by
    have := AllOk.append (hs := hs ++ [x]) (W := W ++ [⟨nv, T⟩]) (h.push hc.1) hc.2
    simpa using this
  | [], _ :: _, _, _, _, hc => hc.elim
  | _ :: _, [], _, _, _, hc => hc.elim

theorem partners_eq {A T : TabData F} {ai bi : Nat} {ks : List Nat} (h : IndexColumn A T ai bi ks) : ks = partners A T ai bi := by
  refine List.ext_getElem (by simp [partners, h.1]) fun i h1 _ => ?_
  have hi : i < 2 ^ T.nv := h.1 ▸ h1
  obtain ⟨ha, hb⟩ := h.2 i hi
  rw [List.getD_eq_getElem _ _ h1] at ha hb
  simp only [partners, List.getElem_map, List.getElem_range]
  split
  · next hs =>
    obtain ⟨h3, h4, h5⟩ := ha hs
    have hlt : ks[i] ≤ 2 ^ A.nv - 1 := Nat.le_sub_one_of_lt h3.1
    refine le_antisymm (Nat.le_findGreatest hlt ⟨h3.2, h4⟩) ?_
    have hp := Nat.findGreatest_spec (P := fun j => A.sel j ≠ 0 ∧ A.col ai j = T.col bi i) hlt ⟨h3.2, h4⟩
    exact h5 _ ⟨lt_of_le_of_lt (Nat.findGreatest_le _) (Nat.sub_lt (by positivity) (by norm_num)), hp.1⟩ hp.2
  · next hs => exact hb (not_not.1 hs)

theorem mle_eq_tab {p : Mle F} (h : p.WF) : p = tabMle p.numVars p.tbl := by
  obtain ⟨n, l⟩ := p
  unfold tabMle Mle.tbl
  simp only [Mle.mk.injEq, true_and]
  refine List.ext_getElem (by simpa [Mle.WF] using h) fun i h1 h2 => ?_
  simp [h1]

theorem program_gf {α β : Type} {f : List TPoly → Oracle F C → Act (PTracker F C) α} {g : List TPoly → CompiledProof F C B → Oracle F C → Act (VSt F C B) β}
    {b2 : List Nat} (h2 : (2 : F) ≠ 0) (hC : CanCommit E.commit N) : ∀ {prog : List (Step F)} {hs : List TPoly} {W : List (Column F)} {Γ : Facts F}
    {t : PTracker F C}, Ready E.commit t → AllOk Γ t hs W → Step.FitsAll N W prog → Step.RunsAll E.debug W prog → (Sz → Step.ExactAll N W prog) → (Φ → Step.ValidAll E.rep W prog) →
    (∀ hs' t1 Γ1, Ext E t t1 → Γ ≤ Γ1 → AllOk Γ1 t1 hs' (Step.nextAll W prog) → GF E P N Sz (f hs') (g hs') Γ1 t1 b2 Φ) →
    GF (B := B) E P N Sz (fun H => Step.proveAll (E.withH H) prog hs >>= fun x => f x H) (fun pf H => Step.verifyAll (E.withH H) prog hs >>= fun x => g x pf H) Γ t
      (Step.boundsAll W prog ++ b2) Φ
  | [], hs, W, Γ, t, hr, ha, _, _, _, _, k => k hs t Γ hr.ext le_rfl ha
  | .commit p :: r, hs, W, Γ, t, hr, ha, hf, hR, hX, hΦ, k => by
    simp only [Step.proveAll, Step.verifyAll, Act.bind_assoc]
    refine k_commit (T := p.tbl) (nv := p.numVars) hr (mle_eq_tab hf.1.1) hf.1.2 hC fun x t1 Γ1 x1 g1 k1 => ?_
    have e : (⟨x.id, p.numVars⟩ : TPoly) = x := by rw [← k1.size]
    rw [e]
    exact program_gf h2 hC x1.ready ((ha.mono x1 g1).push (w := ⟨p.numVars, _⟩) k1) hf.2 hR.2 hX hΦ fun hs' t2 Γ2 x2 g2 => k hs' t2 Γ2 (x1.trans x2) (g1.trans g2)
  | .add i j :: r, hs, W, Γ, t, hr, ha, hf, hR, hX, hΦ, k => by
    simp only [Step.proveAll, Step.verifyAll, Act.bind_assoc]
    have hi := ha.2 i hf.1.1
    have hj : COk Γ t (at' hs j) (at' hs j).id (colAt W i).nv (colAt W j).val := hf.1.2.2 ▸ ha.2 j hf.1.2.1
    refine k_add hr hi hj fun x t1 Γ1 x1 g1 k1 => ?_
    have e : (⟨x.id, (at' hs i).numVars⟩ : TPoly) = x := by rw [hi.size, ← k1.size]
    rw [e]
    exact program_gf h2 hC x1.ready ((ha.mono x1 g1).push (w := ⟨(colAt W i).nv, _⟩) k1) hf.2 hR.2 hX hΦ fun hs' t2 Γ2 x2 g2 => k hs' t2 Γ2 (x1.trans x2) (g1.trans g2)
  | .sub i j :: r, hs, W, Γ, t, hr, ha, hf, hR, hX, hΦ, k => by
    simp only [Step.proveAll, Step.verifyAll, Act.bind_assoc]
    have hi := ha.2 i hf.1.1
    have hj : COk Γ t (at' hs j) (at' hs j).id (colAt W i).nv (colAt W j).val := hf.1.2.2 ▸ ha.2 j hf.1.2.1
    refine k_sub hr hi hj fun x t1 Γ1 x1 g1 k1 => ?_
    have e : (⟨x.id, (at' hs i).numVars⟩ : TPoly) = x := by rw [hi.size, ← k1.size]
    rw [e]
    exact program_gf h2 hC x1.ready ((ha.mono x1 g1).push (w := ⟨(colAt W i).nv, _⟩) k1) hf.2 hR.2 hX hΦ fun hs' t2 Γ2 x2 g2 => k hs' t2 Γ2 (x1.trans x2) (g1.trans g2)
  | .mul i j :: r, hs, W, Γ, t, hr, ha, hf, hR, hX, hΦ, k => by
    simp only [Step.proveAll, Step.verifyAll, Act.bind_assoc]
    have hi := ha.2 i hf.1.1
    have hj : COk Γ t (at' hs j) (at' hs j).id (colAt W i).nv (colAt W j).val := hf.1.2.2 ▸ ha.2 j hf.1.2.1
    refine k_mul hr hi hj fun x t1 Γ1 x1 g1 k1 => ?_
    have e : (⟨x.id, (at' hs i).numVars⟩ : TPoly) = x := by rw [hi.size, ← k1.size]
    rw [e]
    exact program_gf h2 hC x1.ready ((ha.mono x1 g1).push (w := ⟨(colAt W i).nv, _⟩) k1) hf.2 hR.2 hX hΦ fun hs' t2 Γ2 x2 g2 => k hs' t2 Γ2 (x1.trans x2) (g1.trans g2)
  | .addScalar i c :: r, hs, W, Γ, t, hr, ha, hf, hR, hX, hΦ, k => by
    simp only [Step.proveAll, Step.verifyAll, Act.bind_assoc]
    have hi := ha.2 i hf.1
    refine k_addScalar hr hi fun x t1 Γ1 x1 g1 k1 => ?_
    have e : (⟨x.id, (at' hs i).numVars⟩ : TPoly) = x := by rw [hi.size, ← k1.size]
    rw [e]
    exact program_gf h2 hC x1.ready ((ha.mono x1 g1).push (w := ⟨(colAt W i).nv, _⟩) k1) hf.2 hR.2 hX hΦ fun hs' t2 Γ2 x2 g2 => k hs' t2 Γ2 (x1.trans x2) (g1.trans g2)
  | .mulScalar i c :: r, hs, W, Γ, t, hr, ha, hf, hR, hX, hΦ, k => by
    simp only [Step.proveAll, Step.verifyAll, Act.bind_assoc]
    have hi := ha.2 i hf.1
    refine k_mulScalar hr hi fun x t1 Γ1 x1 g1 k1 => ?_
    have e : (⟨x.id, (at' hs i).numVars⟩ : TPoly) = x := by rw [hi.size, ← k1.size]
    rw [e]
    exact program_gf h2 hC x1.ready ((ha.mono x1 g1).push (w := ⟨(colAt W i).nv, _⟩) k1) hf.2 hR.2 hX hΦ fun hs' t2 Γ2 x2 g2 => k hs' t2 Γ2 (x1.trans x2) (g1.trans g2)
  | .check c :: r, hs, W, Γ, t, hr, ha, hf, hR, hX, hΦ, k => by
    simp only [Step.proveAll, Step.verifyAll, Step.boundsAll, Act.bind_assoc, List.append_assoc]
    refine (check_cmp (B := B) (E := E) (P := P) h2 hC hr (fun k hk => ha.2 k (hf.1.1 k hk)) hf.1.2 hR.1 (fun h => (hX h).1) fun h => (hΦ h).1).bind fun t1 Γ1 x1 g1 => ?_
    exact program_gf h2 hC x1.ready (ha.mono x1 g1) hf.2 hR.2 (fun h => (hX h).2) (fun h => (hΦ h).2) fun hs' t2 Γ2 x2 g2 => k hs' t2 Γ2 (x1.trans x2) (g1.trans g2)

  | .join a b ai bi :: r, hs, W, Γ, t, hr, ha, hf, hR, hX, hΦ, k => by
    simp only [Step.proveAll, Step.verifyAll, Step.boundsAll]
    obtain ⟨⟨hN, ea, eb, hai, hbi⟩, hf⟩ := hf
    obtain ⟨⟨bA, bB, hM, hd⟩, hR⟩ := hR
    have ta := KOk.tab (b := a) (fun c hc => ha.2 c (hN c (by simp [hc])).1) (ha.2 a.2 (hN a.2 (by simp)).1) ea
    have tb := KOk.tab (b := b) (fun c hc => ha.2 c (hN c (by simp [hc])).1) (ha.2 b.2 (hN b.2 (by simp)).1) eb
    have := k_finalJoin (B := B) (E := E) (P := P) (N := N) (Sz := Sz) (Φ := Φ) (ai := ai) (bi := bi) (bounds := Step.boundsAll ((Step.join a b ai bi : Step F).next W) r ++ b2)
      (f := fun x H => Step.proveAll (E.withH H) r (hs ++ x.colVals.take a.1.length) >>= fun x => f x H)
      (g := fun y pf H => Step.verifyAll (E.withH H) r (hs ++ (y.colVals.take a.1.length).map fun i => ⟨i, (at' hs b.2).numVars⟩) >>= fun x => g x pf H)
      hr ta tb (by simpa [tabData] using hai) (by simpa [tabData] using hbi) (fun h => keysDistinct_of (hd h)) (hN a.2 (by simp)).2 (hN b.2 (by simp)).2 h2 hC bA bB hM
      fun ks xs t1 Γ1 x1 g1 hI hxs _ => by
        obtain rfl := partners_eq hI
        have hl : xs.length = a.1.length := by have := hxs.length.1; simpa [tabData] using this
        have e1 : (xs ++ (tableOf (b.1.map (at' hs), at' hs b.2)).colVals).take a.1.length = xs := by rw [← hl, List.take_left']; rfl
        have e2 : ((xs.map (·.id) ++ (tableCommOf (b.1.map (at' hs), at' hs b.2)).colVals).take a.1.length).map (fun i => (⟨i, (at' hs b.2).numVars⟩ : TPoly)) = xs := by
          rw [← hl, List.take_left' (by simp), List.map_map]
          conv_rhs => rw [← List.map_id xs]
          refine List.map_congr_left fun x hx => ?_
          have := hxs.sizes x hx
          have e : (at' hs b.2).numVars = x.numVars := by rw [this]; exact (ha.2 b.2 (hN b.2 (by simp)).1).size
          simp only [Function.comp, e]; rfl
        simp only [e1, e2]
        have hall := (ha.mono x1 g1).append hxs
        refine program_gf h2 hC x1.ready (W := (Step.join a b ai bi : Step F).next W) ?_ hf hR hX hΦ fun hs' t2 Γ2 x2 g2 => k hs' t2 Γ2 (x1.trans x2) (g1.trans g2)
        simpa [Step.next, tabData, List.map_map, Function.comp_def] using hall
    rw [ta.nvc, tb.nvc] at this
    simp only [Act.bind_assoc]
    exact this

theorem at'_of {hs : List TPoly} {i : Nat} (hi : i < hs.length) : at' hs i = hs[i] := List.getD_eq_getElem _ _ hi
theorem colAt_of {W : List (Column F)} {i : Nat} (hi : i < W.length) : colAt W i = W[i] := List.getD_eq_getElem _ _ hi

/-- The facts about the columns of a program. -/
def Facts.ofCols (hs : List TPoly) (W : List (Column F)) : Facts F := fun i nv T => ∃ k < W.length, i = (at' hs k).id ∧ nv = (colAt W k).nv ∧ T = (colAt W k).val

theorem Spec.HoldsAllP.allOk {hs : List TPoly} {W : List (Column F)} (hr : Ready E.commit t) (h : HoldsAllP t hs W) : AllOk (Facts.ofCols hs W) t hs W := by
  refine ⟨h.length_eq, fun i hi => ?_⟩
  have hi' : i < hs.length := h.length_eq ▸ hi
  obtain ⟨h1, h2⟩ := List.Forall₂.get h hi' hi
  refine ⟨?_, ?_, ⟨i, hi, rfl, rfl, rfl⟩⟩
  · rw [at'_of hi', colAt_of hi]; exact h1
  · rw [at'_of hi', colAt_of hi]; exact h2.ph hr

theorem AllOk.holds {hs : List TPoly} {W : List (Column F)} (hr : Ready E.commit t) (h : AllOk Γ t hs W) : HoldsAllP t hs W := by
  refine List.forall₂_iff_get.2 ⟨h.1, fun i h1 h2 => ?_⟩
  have k := h.2 i h2
  rw [KOk, at'_of h1, colAt_of h2] at k
  exact ⟨k.size, k.p.holdsP hr⟩

theorem known_ofCols {hs : List TPoly} {W : List (Column F)} (hl : hs.length = W.length) (h : KnownAll s hs) : ∀ i nv T, Facts.ofCols hs W i nv T → Known s i := by
  rintro _ _ _ ⟨k, hk, rfl, rfl, rfl⟩
  rw [at'_of (hl ▸ hk)]
  exact h _ (List.getElem_mem _)

theorem holds_ofCols {hs : List TPoly} {W : List (Column F)} (h : HoldsAll s P N hs W) : ∀ i nv T, Facts.ofCols hs W i nv T → Holds s P N i nv T := by
  rintro _ _ _ ⟨k, hk, rfl, rfl, rfl⟩
  have hk' : k < hs.length := h.length_eq ▸ hk
  rw [at'_of hk', colAt_of hk]
  exact List.Forall₂.get h hk' hk

end Zksql
