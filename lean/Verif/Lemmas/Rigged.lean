import Verif.Lemmas.HonestSets
import Verif.Lemmas.Cheat
import Verif.Lemmas.RunEx
/-!
A prover that departs from the code in one place: in the set-disjointness check it commits to a sum bag of its own choice.
-/
set_option linter.unusedSectionVars false
namespace Zksql
open Spec
variable {F C B : Type} [Field F] [DecidableEq F]
variable {E : Env F C} {P : C → List F → F} {N : Nat} {Sz : Prop} {t t1 t2 t' : PTracker F C} {s s1 s' : VSt F C B}
variable {α β α0 β0 : Type} {Γ Γ1 : Facts F} {bounds b1 b2 : List Nat} {Φ Φ' : Prop}
variable {bf bg b0 br : Bag} {cf cg c0 cr : BagComm} {Tf Tg T0 Tr : BagTab F}
variable {ba bb bl bm brr : Bag} {ca cb cl cm crr : BagComm} {Ta Tb Tl Tm Trr : BagTab F}

namespace Rigged

/-- `SetDisjoint.prove` with a sum bag chosen by the prover. -/
def setDisjoint (E : Env F C) (vals sels : Mle F) (a b range : Bag) : Act (PTracker F C) Unit := do
  let p ← TPoly.trackAndCommit E.commit vals
  let s ← TPoly.trackAndCommit E.commit sels
  let sum ← Bag.new E.debug p s
  BagSum.prove E a b sum
  StrictSort.prove E sum range

/-- `SetDiff.prove` with it. -/
def setDiff (E : Env F C) (vals sels : Mle F) (a b l m : Bag) (bm : TPoly) (range : Bag) : Act (PTracker F C) Unit := do
  setDisjoint E vals sels l b range
  BagSum.prove E l m a
  Inclusion.proveWithAdvice E m b bm

/-- `SetIntersect.prove` with it. -/
def setIntersect (E : Env F C) (vals sels : Mle F) (a b l m r range : Bag) : Act (PTracker F C) Unit := do
  BagSum.prove E l m a
  BagSum.prove E m r b
  setDisjoint E vals sels l r range

theorem setDisjoint_cmp {r : Nat} {ρ V S : Nat → F} (hr : Ready E.commit t) (hf : BOk Γ t bf cf Tf) (hg : BOk Γ t bg cg Tg)
    (hR : COk Γ t br.poly cr.poly r ρ) (hcr : cr.numVars = r) (hN : max Tf.nv Tg.nv + 1 ≤ N) (hNr : r ≤ N)
    (h2 : (2 : F) ≠ 0) (hC : CanCommit E.commit N)
    (hSz : Sz → N = max Tf.nv Tg.nv + 1) (hΦ : Φ → (∀ z, Tf.weight (fun _ => 1) z + Tg.weight (fun _ => 1) z = (⟨max Tf.nv Tg.nv + 1, V, S⟩ : BagTab F).weight (fun _ => 1) z) ∧
      SortedIn (max Tf.nv Tg.nv + 1) r V S ρ) :
    Cmp (B := B) E P N Sz (fun H => setDisjoint (E.withH H) (tabMle (max Tf.nv Tg.nv + 1) V) (tabMle (max Tf.nv Tg.nv + 1) S) bf bg br)
      (fun H => SetDisjoint.verify (E.withH H) cf cg cr) Γ t (hSetDisjoint Tf.nv Tg.nv r) Φ := by
  intro α β k1 k2 b2 h
  have hNf : Tf.nv ≤ N := by omega
  have hNg : Tg.nv ≤ N := by omega
  unfold setDisjoint SetDisjoint.verify
  simp only [Act.bind_assoc, withH_debug, hf.nvc, hg.nvc]
  refine k_commit hr rfl hN hC fun p t5 Γ5 x5 g5 o5 => ?_
  refine k_commit x5.ready rfl hN hC fun q t6 Γ6 x6 g6 o6 => ?_
  have o5' := o5.mono x6 g6
  refine k_bagNew x6.ready (o5'.size.trans o6.size.symm) ?_
  have y6 := x5.trans x6
  have h6 := g5.trans g6
  have c6 := o5'.bok o6
  unfold hSetDisjoint
  rw [List.append_assoc]
  have cmp1 := bagSum_cmp (B := B) (E := E) (P := P) (N := N) (Sz := Sz) (Φ := Φ) x6.ready (hf.mono y6 h6) (hg.mono y6 h6) c6 hNf hNg hN h2 hC fun hφ z => (hΦ hφ).1 z
  rw [hf.nvc, hg.nvc] at cmp1
  refine cmp1.bind fun t7 Γ7 x7 g7 => ?_
  refine (strictSort_cmp (B := B) (E := E) (P := P) (N := N) (Sz := Sz) (Φ := Φ) x7.ready (c6.mono x7 g7) (hR.mono (y6.trans x7) (h6.trans g7)) hcr hN hNr h2 hC hSz fun hφ => ?_).bind fun t8 Γ8 x8 g8 => ?_
  · exact (hΦ hφ).2
  exact h t8 Γ8 (y6.trans (x7.trans x8)) (h6.trans (g7.trans g8))

theorem setDiff_cmp {r : Nat} {ρ V S : Nat → F} {mm : TPoly} {i : Nat} {μ : Nat → F} (hr : Ready E.commit t) (ha : BOk Γ t ba ca Ta) (hb : BOk Γ t bb cb Tb)
    (hl : BOk Γ t bl cl Tl) (hm : BOk Γ t bm cm Tm) (hmm : COk Γ t mm i Tb.nv μ)
    (hR : COk Γ t br.poly cr.poly r ρ) (hcr : cr.numVars = r) (hN : max Tl.nv Tb.nv + 1 ≤ N) (hNa : Ta.nv ≤ N) (hNm : Tm.nv ≤ N) (hNr : r ≤ N)
    (h2 : (2 : F) ≠ 0) (hC : CanCommit E.commit N)
    (hSz : Sz → N = max Tl.nv Tb.nv + 1) (hΦ : Φ → ((∀ z, Tl.weight (fun _ => 1) z + Tb.weight (fun _ => 1) z = (⟨max Tl.nv Tb.nv + 1, V, S⟩ : BagTab F).weight (fun _ => 1) z) ∧
      SortedIn (max Tl.nv Tb.nv + 1) r V S ρ) ∧ (∀ z, Tl.weight (fun _ => 1) z + Tm.weight (fun _ => 1) z = Ta.weight (fun _ => 1) z) ∧
      ∀ z, Tm.weight (fun _ => 1) z = Tb.weight μ z) :
    Cmp (B := B) E P N Sz (fun H => setDiff (E.withH H) (tabMle (max Tl.nv Tb.nv + 1) V) (tabMle (max Tl.nv Tb.nv + 1) S) ba bb bl bm mm br)
      (fun H => SetDiff.verify (E.withH H) ca cb cl cm i cr) Γ t (hDiff Ta.nv Tb.nv Tl.nv Tm.nv r) Φ := by
  intro α β k1 k2 b2 h
  unfold setDiff SetDiff.verify
  simp only [Act.bind_assoc]
  have bnd : hDiff Ta.nv Tb.nv Tl.nv Tm.nv r ++ b2 = hSetDisjoint Tl.nv Tb.nv r ++ ([2 ^ Tl.nv + 2 ^ Tm.nv + 2 ^ Ta.nv] ++ ([2 ^ Tm.nv + 2 ^ Tb.nv] ++ b2)) := by
    unfold hDiff; simp
  rw [bnd]
  refine (setDisjoint_cmp (B := B) (E := E) (P := P) (N := N) (Sz := Sz) (Φ := Φ) hr hl hb hR hcr hN hNr h2 hC hSz fun hφ => (hΦ hφ).1).bind fun t1 Γ1 x1 g1 => ?_
  have cmp1 := bagSum_cmp (B := B) (E := E) (P := P) (N := N) (Sz := Sz) (Φ := Φ) x1.ready (hl.mono x1 g1) (hm.mono x1 g1) (ha.mono x1 g1) (by omega) hNm hNa h2 hC
    fun hφ => (hΦ hφ).2.1
  rw [hl.nvc, hm.nvc, ha.nvc] at cmp1
  refine cmp1.bind fun t2 Γ2 x2 g2 => ?_
  have y2 := x1.trans x2
  have h2' := g1.trans g2
  have cmp2 := inclusionAdvice_cmp (B := B) (E := E) (P := P) (N := N) (Sz := Sz) (Φ := Φ) x2.ready (hm.mono y2 h2') (hb.mono y2 h2') (hmm.mono y2 h2') hNm (by omega) h2 hC
    fun hφ => (hΦ hφ).2.2
  rw [hm.nvc, hb.nvc] at cmp2
  exact cmp2.bind fun t3 Γ3 x3 g3 => h t3 Γ3 (y2.trans x3) (h2'.trans g3)

theorem setIntersect_cmp {r : Nat} {ρ V S : Nat → F} (hr : Ready E.commit t) (ha : BOk Γ t ba ca Ta) (hb : BOk Γ t bb cb Tb)
    (hl : BOk Γ t bl cl Tl) (hm : BOk Γ t bm cm Tm) (hrr : BOk Γ t brr crr Trr)
    (hR : COk Γ t br.poly cr.poly r ρ) (hcr : cr.numVars = r) (hN : max Tl.nv Trr.nv + 1 ≤ N) (hNa : Ta.nv ≤ N) (hNb : Tb.nv ≤ N) (hNm : Tm.nv ≤ N) (hNr : r ≤ N)
    (h2 : (2 : F) ≠ 0) (hC : CanCommit E.commit N)
    (hSz : Sz → N = max Tl.nv Trr.nv + 1) (hΦ : Φ → ((∀ z, Tl.weight (fun _ => 1) z + Trr.weight (fun _ => 1) z = (⟨max Tl.nv Trr.nv + 1, V, S⟩ : BagTab F).weight (fun _ => 1) z) ∧
      SortedIn (max Tl.nv Trr.nv + 1) r V S ρ) ∧ (∀ z, Tl.weight (fun _ => 1) z + Tm.weight (fun _ => 1) z = Ta.weight (fun _ => 1) z) ∧
      ∀ z, Tm.weight (fun _ => 1) z + Trr.weight (fun _ => 1) z = Tb.weight (fun _ => 1) z) :
    Cmp (B := B) E P N Sz (fun H => setIntersect (E.withH H) (tabMle (max Tl.nv Trr.nv + 1) V) (tabMle (max Tl.nv Trr.nv + 1) S) ba bb bl bm brr br)
      (fun H => SetIntersect.verify (E.withH H) ca cb cl cm crr cr) Γ t (hIntersect Ta.nv Tb.nv Tl.nv Tm.nv Trr.nv r) Φ := by
  intro α β k1 k2 b2 h
  unfold setIntersect SetIntersect.verify
  simp only [Act.bind_assoc]
  have bnd : hIntersect Ta.nv Tb.nv Tl.nv Tm.nv Trr.nv r ++ b2 = [2 ^ Tl.nv + 2 ^ Tm.nv + 2 ^ Ta.nv] ++ ([2 ^ Tm.nv + 2 ^ Trr.nv + 2 ^ Tb.nv] ++ (hSetDisjoint Tl.nv Trr.nv r ++ b2)) := by
    unfold hIntersect; simp
  rw [bnd]
  have cmp1 := bagSum_cmp (B := B) (E := E) (P := P) (N := N) (Sz := Sz) (Φ := Φ) hr hl hm ha (by omega) hNm hNa h2 hC fun hφ => (hΦ hφ).2.1
  rw [hl.nvc, hm.nvc, ha.nvc] at cmp1
  refine cmp1.bind fun t1 Γ1 x1 g1 => ?_
  have cmp2 := bagSum_cmp (B := B) (E := E) (P := P) (N := N) (Sz := Sz) (Φ := Φ) x1.ready (hm.mono x1 g1) (hrr.mono x1 g1) (hb.mono x1 g1) hNm (by omega) hNb h2 hC
    fun hφ => (hΦ hφ).2.2
  rw [hm.nvc, hrr.nvc, hb.nvc] at cmp2
  refine cmp2.bind fun t2 Γ2 x2 g2 => ?_
  have y2 := x1.trans x2
  have h2' := g1.trans g2
  refine (setDisjoint_cmp (B := B) (E := E) (P := P) (N := N) (Sz := Sz) (Φ := Φ) x2.ready (hl.mono y2 h2') (hrr.mono y2 h2') (hR.mono y2 h2') hcr hN hNr h2 hC hSz fun hφ => (hΦ hφ).1).bind fun t3 Γ3 x3 g3 =>
    h t3 Γ3 (y2.trans x3) (h2'.trans g3)

end Rigged

namespace REx

/-- Over the field with 101 elements. -/
theorem cheat {α β : Type} {N : Nat} (cols : List (Mle G)) (hcols : (cols.all fun p => p.evals.length = 2 ^ p.numVars ∧ p.numVars ≤ N) = true) (hne : cols ≠ [])
    {m : Env G (Mle G) → Act (PTracker G (Mle G)) α} {v : Env G (Mle G) → Act (VSt G (Mle G) Unit) β} {bounds bounds2 : List Nat}
    {Inputs Contents : VSt G (Mle G) Unit → Prop} {Valid Fits : Prop}
    (h : Ready env.commit (startP env.commit cols PTracker.new) → (∀ i p, cols[i]? = some p → HoldsP (startP env.commit cols PTracker.new) ⟨i, p.numVars⟩ p.tbl) →
      Completes env poly N m v (startP env.commit cols PTracker.new) bounds Inputs Contents Valid Fits)
    (hb : ((List.range bounds.length).all fun k => bounds.getD k 0 + bounds2.getD k 0 < 101) = true) (hv : Valid)
    (hin : ∀ s : VSt G (Mle G) Unit, (∀ i p, cols[i]? = some p → Known s i) → Inputs s)
    (hco : ∀ s : VSt G (Mle G) Unit, (∀ i p, cols[i]? = some p → Holds s poly N i p.numVars p.tbl) → Contents s) (hx : Fits := by trivial) :
    ∃ (H : Oracle G (Mle G)) (vs : VState G (Mle G) Unit), VReachable true H vs ∧
      (∀ i p, cols[i]? = some p → Known vs.st i) ∧ (∀ i p, cols[i]? = some p → Holds vs.st poly N i p.numVars p.tbl) ∧
      ∀ Concl, SoundExcept (fun H => v (env.withH H)) vs.st N bounds2 Concl → ∃ pf, Concl pf poly := by
  refine Completes.cheat (E := env) (canCommit N) (opens N) (fun p hp => ?_) hne h (fun k hk => plenty ?_) hv CompiledProof.default hin hco hx
  · have := List.all_eq_true.1 hcols p hp
    simp only [decide_eq_true_eq] at this
    exact ⟨this.1, this.2⟩
  · simpa using List.all_eq_true.1 hb k (List.mem_range.2 hk)

end REx
end Zksql
