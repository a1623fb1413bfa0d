import Verif.Lemmas.MemoryForeign
import Verif.Props.Memory
import Verif.Props.SetChecks
/-!
# Property C93: protocols in programs with several trackers
-/
set_option linter.unusedSectionVars false
namespace Zksql
open Spec
variable {F C B : Type} [Field F] [DecidableEq F]

/-! ### Own handles -/

/-- C93 (own handles, prover): on bags and columns of tracker `k` each protocol with tracker `k`, in a program with any number of trackers, has the
outcome of the one-tracker model and changes only tracker `k`, as in the one-tracker model.  Where only the column of a bag is used (ranges, and the
bags of the permutation check) only the column has to be of tracker `k`. -/
theorem C93_own_handles (E : Env F C) (k : Nat) :
    (∀ inc sup : BagRef, inc.Of k → sup.Of k → ActsOn k id (Mem.Inclusion.prove E k inc sup) (Inclusion.prove E inc.bag sup.bag)) ∧
    (∀ (fx gx : BagRef) (perm : PolyRef), fx.poly.tracker = k → gx.poly.tracker = k → perm.tracker = k →
      ActsOn k id (Mem.PrescPerm.prove E k fx gx perm) (PrescPerm.prove E fx.bag gx.bag perm.poly)) ∧
    (∀ sorted range : BagRef, sorted.Of k → range.poly.tracker = k →
      ActsOn k id (Mem.StrictSort.prove E k sorted range) (StrictSort.prove E sorted.bag range.bag)) ∧
    (∀ bag supp range : BagRef, bag.Of k → supp.Of k → range.poly.tracker = k →
      ActsOn k id (Mem.Supp.prove E k bag supp range) (Supp.prove E bag.bag supp.bag range.bag)) ∧
    (∀ a b range : BagRef, a.Of k → b.Of k → range.poly.tracker = k →
      ActsOn k id (Mem.Disjoint.prove E k a b range) (Disjoint.prove E a.bag b.bag range.bag) ∧
      ActsOn k id (Mem.SetDisjoint.prove E k a b range) (SetDisjoint.prove E a.bag b.bag range.bag)) ∧
    (∀ (a b l m range : BagRef) (bm : PolyRef), a.Of k → b.Of k → l.Of k → m.Of k → bm.tracker = k → range.poly.tracker = k →
      ActsOn k id (Mem.SetDiff.prove E k a b l m bm range) (SetDiff.prove E a.bag b.bag l.bag m.bag bm.poly range.bag)) ∧
    (∀ a b union range : BagRef, a.Of k → b.Of k → union.Of k → range.poly.tracker = k →
      ActsOn k id (Mem.SetUnion.prove E k a b union range) (SetUnion.prove E a.bag b.bag union.bag range.bag)) ∧
    (∀ a b l m r range : BagRef, a.Of k → b.Of k → l.Of k → m.Of k → r.Of k → range.poly.tracker = k →
      ActsOn k id (Mem.SetIntersect.prove E k a b l m r range) (SetIntersect.prove E a.bag b.bag l.bag m.bag r.bag range.bag)) ∧
    ∀ (a b range : BagRef) (lSel rSel : PolyRef), a.Of k → b.Of k → lSel.tracker = k → rSel.tracker = k → range.poly.tracker = k →
      ActsOn k id (Mem.JoinReduction.prove E k a b lSel rSel range) (JoinReduction.prove E a.bag b.bag lSel.poly rSel.poly range.bag) :=
  ⟨fun _ _ h1 h2 => psim_inclusion E h1 h2, fun _ _ _ h1 h2 h3 => psim_prescPerm E h1 h2 h3, fun _ _ h1 h2 => psim_strictSort E h1 h2,
    fun _ _ _ h1 h2 h3 => psim_supp E h1 h2 h3, fun _ _ _ h1 h2 h3 => ⟨psim_disjoint E h1 h2 h3, psim_setDisjoint E h1 h2 h3⟩,
    fun _ _ _ _ _ _ h1 h2 h3 h4 h5 h6 => psim_setDiff E h1 h2 h3 h4 h5 h6, fun _ _ _ _ h1 h2 h3 h4 => psim_setUnion E h1 h2 h3 h4,
    fun _ _ _ _ _ _ h1 h2 h3 h4 h5 h6 => psim_setIntersect E h1 h2 h3 h4 h5 h6,
    fun _ _ _ _ _ h1 h2 h3 h4 h5 => psim_joinReduction E h1 h2 h3 h4 h5⟩

/-- C93 (own handles, verifier). -/
theorem C93_own_handles_verifier (E : Env F C) (k : Nat) :
    (∀ inc sup : BagCommRef, inc.Of k → sup.Of k →
      VActsOn (B := B) k id (Mem.Inclusion.verify E k inc sup) (Inclusion.verify E inc.bag sup.bag)) ∧
    (∀ (fx gx : BagCommRef) (perm : CommRef), fx.poly.tracker = k → gx.poly.tracker = k → perm.tracker = k →
      VActsOn (B := B) k id (Mem.PrescPerm.verify E k fx gx perm) (PrescPerm.verify E fx.bag gx.bag perm.id)) ∧
    (∀ sorted range : BagCommRef, sorted.Of k → range.poly.tracker = k →
      VActsOn (B := B) k id (Mem.StrictSort.verify E k sorted range) (StrictSort.verify E sorted.bag range.bag)) ∧
    (∀ bag supp range : BagCommRef, bag.Of k → supp.Of k → range.poly.tracker = k →
      VActsOn (B := B) k id (Mem.Supp.verify E k bag supp range) (Supp.verify E bag.bag supp.bag range.bag)) ∧
    (∀ a b range : BagCommRef, a.Of k → b.Of k → range.poly.tracker = k →
      VActsOn (B := B) k id (Mem.Disjoint.verify E k a b range) (Disjoint.verify E a.bag b.bag range.bag) ∧
      VActsOn (B := B) k id (Mem.SetDisjoint.verify E k a b range) (SetDisjoint.verify E a.bag b.bag range.bag)) ∧
    (∀ (a b l m range : BagCommRef) (bm : CommRef), a.Of k → b.Of k → l.Of k → m.Of k → bm.tracker = k → range.poly.tracker = k →
      VActsOn (B := B) k id (Mem.SetDiff.verify E k a b l m bm range) (SetDiff.verify E a.bag b.bag l.bag m.bag bm.id range.bag)) ∧
    (∀ a b union range : BagCommRef, a.Of k → b.Of k → union.Of k → range.poly.tracker = k →
      VActsOn (B := B) k id (Mem.SetUnion.verify E k a b union range) (SetUnion.verify E a.bag b.bag union.bag range.bag)) ∧
    (∀ a b l m r range : BagCommRef, a.Of k → b.Of k → l.Of k → m.Of k → r.Of k → range.poly.tracker = k →
      VActsOn (B := B) k id (Mem.SetIntersect.verify E k a b l m r range) (SetIntersect.verify E a.bag b.bag l.bag m.bag r.bag range.bag)) ∧
    ∀ (a b range : BagCommRef) (lSel rSel : CommRef), a.Of k → b.Of k → lSel.tracker = k → rSel.tracker = k → range.poly.tracker = k →
      VActsOn (B := B) k id (Mem.JoinReduction.verify E k a b lSel rSel range) (JoinReduction.verify E a.bag b.bag lSel.id rSel.id range.bag) :=
  ⟨fun _ _ h1 h2 => vsim_inclusion E h1 h2, fun _ _ _ h1 h2 h3 => vsim_prescPerm E h1 h2 h3, fun _ _ h1 h2 => vsim_strictSort E h1 h2,
    fun _ _ _ h1 h2 h3 => vsim_supp E h1 h2 h3, fun _ _ _ h1 h2 h3 => ⟨vsim_disjoint E h1 h2 h3, vsim_setDisjoint E h1 h2 h3⟩,
    fun _ _ _ _ _ _ h1 h2 h3 h4 h5 h6 => vsim_setDiff E h1 h2 h3 h4 h5 h6, fun _ _ _ _ h1 h2 h3 h4 => vsim_setUnion E h1 h2 h3 h4,
    fun _ _ _ _ _ _ h1 h2 h3 h4 h5 h6 => vsim_setIntersect E h1 h2 h3 h4 h5 h6,
    fun _ _ _ _ _ h1 h2 h3 h4 h5 => vsim_joinReduction E h1 h2 h3 h4 h5⟩

/-- C93 (own tables, prover): the same for tables all of whose handles are of tracker `k`; the table returned has only handles of tracker `k`. -/
theorem C93_own_tables (E : Env F C) (k : Nat) :
    (∀ a b : TableRef, a.Of k → b.Of k → ActsOn k (TableRef.ofTable k) (Mem.CrossProduct.prover E a b) (CrossProduct.prover E a.table b.table)) ∧
    (∀ a b : TableRef, a.Of k → b.Of k → ActsOn k id (Mem.IndexTransform.prove E k a b) (IndexTransform.prove E a.table b.table)) ∧
    (∀ (a b : TableRef) (ai bi : Nat), a.Of k → b.Of k →
      ActsOn k (TableRef.ofTable k) (Mem.FinalJoin.prove E k a b ai bi) (FinalJoin.prove E a.table b.table ai bi)) ∧
    ∀ (inp : TableRef) (i : GroupInstr TPoly) (range : BagRef), inp.Of k → range.poly.tracker = k →
      ActsOn k (TableRef.ofTable k) (Mem.GroupBy.proveWithAdvice E k inp (i.map (PolyRef.ofPoly k)) range)
        (GroupBy.proveWithAdvice E inp.table i range.bag) := by
  refine ⟨fun a b ha hb => ?_, fun a b ha hb => ?_, fun a b ai bi ha hb => ?_, fun inp i range hi hr => ?_⟩
  · have := psim_crossProduct (k := k) E a.table b.table
    rw [ofTable_table ha, ofTable_table hb] at this; exact this
  · have := psim_indexTransform (k := k) E a.table b.table
    rw [ofTable_table ha, ofTable_table hb] at this; exact this
  · have := psim_finalJoin (k := k) E a.table b.table ai bi
    rw [ofTable_table ha, ofTable_table hb] at this; exact this
  · have := psim_groupBy (k := k) E inp.table i hr
    rw [ofTable_table hi] at this; exact this

/-- C93 (own tables, verifier). -/
theorem C93_own_tables_verifier (E : Env F C) (k : Nat) :
    (∀ a b : TableCommRef, a.Of k → b.Of k →
      VActsOn (F := F) (C := C) (B := B) k (TableCommRef.ofTable k) (Mem.CrossProduct.verifier a b) (CrossProduct.verifier a.table b.table)) ∧
    (∀ a b : TableCommRef, a.Of k → b.Of k →
      VActsOn (B := B) k id (Mem.IndexTransform.verify E k a b) (IndexTransform.verify E a.table b.table)) ∧
    (∀ (a b : TableCommRef) (ai bi : Nat), a.Of k → b.Of k →
      VActsOn (B := B) k (TableCommRef.ofTable k) (Mem.FinalJoin.verify E k a b ai bi) (FinalJoin.verify E a.table b.table ai bi)) ∧
    ∀ (inp : TableCommRef) (i : GroupInstr Nat) (range : BagCommRef), inp.Of k → range.poly.tracker = k →
      VActsOn (B := B) k (TableCommRef.ofTable k) (Mem.GroupBy.verifyWithAdvice E k inp (i.map (CommRef.ofId k)) range)
        (GroupBy.verifyWithAdvice E inp.table i range.bag) := by
  refine ⟨fun a b ha hb => ?_, fun a b ha hb => ?_, fun a b ai bi ha hb => ?_, fun inp i range hi hr => ?_⟩
  · have := vsim_crossProduct (F := F) (C := C) (B := B) (k := k) a.table b.table
    rw [ofTableC_table ha, ofTableC_table hb] at this; exact this
  · have := vsim_indexTransform (B := B) (k := k) E a.table b.table
    rw [ofTableC_table ha, ofTableC_table hb] at this; exact this
  · have := vsim_finalJoin (B := B) (k := k) E a.table b.table ai bi
    rw [ofTableC_table ha, ofTableC_table hb] at this; exact this
  · have := vsim_groupBy (B := B) (k := k) E inp.table i hr
    rw [ofTableC_table hi] at this; exact this

/-! ### Foreign handles -/

/-- C93 (refusal, prover): if a protocol with tracker `k` succeeds, every handle whose values it uses is a handle of tracker `k`. -/
theorem C93_refuses (E : Env F C) (k : Nat) (heap heap' : PHeap F C) :
    (∀ inc sup, Mem.Inclusion.prove E k inc sup heap = (.ok (), heap') → inc.Of k ∧ sup.Of k) ∧
    (∀ fx gx perm, Mem.PrescPerm.prove E k fx gx perm heap = (.ok (), heap') → fx.poly.tracker = k ∧ gx.poly.tracker = k ∧ perm.tracker = k) ∧
    (∀ sorted range, Mem.StrictSort.prove E k sorted range heap = (.ok (), heap') → sorted.Of k ∧ range.poly.tracker = k) ∧
    (∀ bag supp range, Mem.Supp.prove E k bag supp range heap = (.ok (), heap') → bag.Of k ∧ supp.Of k ∧ range.poly.tracker = k) ∧
    (∀ a b range, Mem.Disjoint.prove E k a b range heap = (.ok (), heap') → a.Of k ∧ b.Of k ∧ range.poly.tracker = k) ∧
    (∀ a b range, Mem.SetDisjoint.prove E k a b range heap = (.ok (), heap') → a.Of k ∧ b.Of k ∧ range.poly.tracker = k) ∧
    (∀ a b l m bm range, Mem.SetDiff.prove E k a b l m bm range heap = (.ok (), heap') →
      a.Of k ∧ b.Of k ∧ l.Of k ∧ m.Of k ∧ bm.tracker = k ∧ range.poly.tracker = k) ∧
    (∀ a b union range, Mem.SetUnion.prove E k a b union range heap = (.ok (), heap') → a.Of k ∧ b.Of k ∧ union.Of k ∧ range.poly.tracker = k) ∧
    (∀ a b l m r range, Mem.SetIntersect.prove E k a b l m r range heap = (.ok (), heap') →
      a.Of k ∧ b.Of k ∧ l.Of k ∧ m.Of k ∧ r.Of k ∧ range.poly.tracker = k) ∧
    ∀ a b lSel rSel range, Mem.JoinReduction.prove E k a b lSel rSel range heap = (.ok (), heap') →
      a.Of k ∧ b.Of k ∧ lSel.tracker = k ∧ rSel.tracker = k ∧ range.poly.tracker = k :=
  ⟨fun _ _ h => inclusion_own h, fun _ _ _ h => prescPerm_own h, fun _ _ h => strictSort_own h, fun _ _ _ h => supp_own h, fun _ _ _ h => disjoint_own h,
    fun _ _ _ h => setDisjoint_own h, fun _ _ _ _ _ _ h => setDiff_own h, fun _ _ _ _ h => setUnion_own h, fun _ _ _ _ _ _ h => setIntersect_own h,
    fun _ _ _ _ _ h => joinReduction_own h⟩

/-- C93 (refusal, verifier). -/
theorem C93_refuses_verifier (E : Env F C) (k : Nat) (mem mem' : VMem F C B) :
    (∀ inc sup, Mem.Inclusion.verify E k inc sup mem = (.ok (), mem') → inc.Of k ∧ sup.Of k) ∧
    (∀ fx gx perm, Mem.PrescPerm.verify E k fx gx perm mem = (.ok (), mem') → fx.poly.tracker = k ∧ gx.poly.tracker = k ∧ perm.tracker = k) ∧
    (∀ sorted range, Mem.StrictSort.verify E k sorted range mem = (.ok (), mem') → sorted.Of k ∧ range.poly.tracker = k) ∧
    (∀ bag supp range, Mem.Supp.verify E k bag supp range mem = (.ok (), mem') → bag.Of k ∧ supp.Of k ∧ range.poly.tracker = k) ∧
    (∀ a b range, Mem.Disjoint.verify E k a b range mem = (.ok (), mem') → a.Of k ∧ b.Of k ∧ range.poly.tracker = k) ∧
    (∀ a b range, Mem.SetDisjoint.verify E k a b range mem = (.ok (), mem') → a.Of k ∧ b.Of k ∧ range.poly.tracker = k) ∧
    (∀ a b l m bm range, Mem.SetDiff.verify E k a b l m bm range mem = (.ok (), mem') →
      a.Of k ∧ b.Of k ∧ l.Of k ∧ m.Of k ∧ bm.tracker = k ∧ range.poly.tracker = k) ∧
    (∀ a b union range, Mem.SetUnion.verify E k a b union range mem = (.ok (), mem') → a.Of k ∧ b.Of k ∧ union.Of k ∧ range.poly.tracker = k) ∧
    (∀ a b l m r range, Mem.SetIntersect.verify E k a b l m r range mem = (.ok (), mem') →
      a.Of k ∧ b.Of k ∧ l.Of k ∧ m.Of k ∧ r.Of k ∧ range.poly.tracker = k) ∧
    ∀ a b lSel rSel range, Mem.JoinReduction.verify E k a b lSel rSel range mem = (.ok (), mem') →
      a.Of k ∧ b.Of k ∧ lSel.tracker = k ∧ rSel.tracker = k ∧ range.poly.tracker = k :=
  ⟨fun _ _ h => vinclusion_own h, fun _ _ _ h => vprescPerm_own h, fun _ _ h => vstrictSort_own h, fun _ _ _ h => vsupp_own h,
    fun _ _ _ h => vdisjoint_own h, fun _ _ _ h => vsetDisjoint_own h, fun _ _ _ _ _ _ h => vsetDiff_own h, fun _ _ _ _ h => vsetUnion_own h,
    fun _ _ _ _ _ _ h => vsetIntersect_own h, fun _ _ _ _ _ h => vjoinReduction_own h⟩

/-- C93 (refusal, tables, prover): both tables of an index transform, the first table of a join, the selector and the key column of the second, and
in debug builds all of it; for group-by the grouping column, the selector, the columns that are summed, the support with its selector and
multiplicities, the sums and the range. -/
theorem C93_refuses_tables (E : Env F C) (k : Nat) (heap heap' : PHeap F C) :
    (∀ a b, Mem.IndexTransform.prove E k a b heap = (.ok (), heap') → a.Of k ∧ b.Of k) ∧
    (∀ a b ai bi t, Mem.FinalJoin.prove E k a b ai bi heap = (.ok t, heap') →
      a.Of k ∧ b.selector.tracker = k ∧ (∃ c, b.colVals[bi]? = some c ∧ c.tracker = k) ∧ (E.debug = true → b.Of k)) ∧
    ∀ inp i range t, Mem.GroupBy.proveWithAdvice E k inp i range heap = (.ok t, heap') →
      (∃ g c, i.groupingCols = [g] ∧ inp.colVals[g]? = some c ∧ c.tracker = k) ∧ inp.selector.tracker = k ∧
      (∃ s, i.supportCols[0]? = some s ∧ s.tracker = k) ∧ i.supportSel.tracker = k ∧ i.supportMult.tracker = k ∧ range.poly.tracker = k ∧
      ∀ c p, (c, AggType.sum, p) ∈ i.aggs → p.tracker = k ∧ ∃ x, inp.colVals[c]? = some x ∧ x.tracker = k :=
  ⟨fun _ _ h => indexTransform_own h, fun _ _ _ _ _ h => finalJoin_own h, fun _ _ _ _ h => groupBy_own h⟩

/-- C93 (refusal, tables, verifier): the same; the other columns of the second table of a join are never checked. -/
theorem C93_refuses_tables_verifier (E : Env F C) (k : Nat) (mem mem' : VMem F C B) :
    (∀ a b, Mem.IndexTransform.verify E k a b mem = (.ok (), mem') → a.Of k ∧ b.Of k) ∧
    (∀ a b ai bi t, Mem.FinalJoin.verify E k a b ai bi mem = (.ok t, mem') →
      a.Of k ∧ b.selector.tracker = k ∧ ∃ c, b.colVals[bi]? = some c ∧ c.tracker = k) ∧
    ∀ inp i range t, Mem.GroupBy.verifyWithAdvice E k inp i range mem = (.ok t, mem') →
      (∃ g c, i.groupingCols = [g] ∧ inp.colVals[g]? = some c ∧ c.tracker = k) ∧ inp.selector.tracker = k ∧
      (∃ s, i.supportCols[0]? = some s ∧ s.tracker = k) ∧ i.supportSel.tracker = k ∧ i.supportMult.tracker = k ∧ range.poly.tracker = k ∧
      ∀ c p, (c, AggType.sum, p) ∈ i.aggs → p.tracker = k ∧ ∃ x, inp.colVals[c]? = some x ∧ x.tracker = k :=
  ⟨fun _ _ h => vindexTransform_own h, fun _ _ _ _ _ h => vfinalJoin_own h, fun _ _ _ _ h => vgroupBy_own h⟩

/-- C93: the handles the protocols do not use make no difference: another selector of the range, and other selectors of the bags of the permutation
check, of any tracker, give the same run. -/
theorem C93_unused_handles (E : Env F C) (k : Nat) :
    (∀ (sorted range : BagRef) (q : PolyRef) (heap : PHeap F C),
      Mem.StrictSort.prove E k sorted ⟨range.poly, q⟩ heap = Mem.StrictSort.prove E k sorted range heap) ∧
    (∀ (fx gx : BagRef) (perm q q' : PolyRef) (heap : PHeap F C),
      Mem.PrescPerm.prove E k ⟨fx.poly, q⟩ ⟨gx.poly, q'⟩ perm heap = Mem.PrescPerm.prove E k fx gx perm heap) ∧
    (∀ (sorted range : BagCommRef) (q : CommRef) (mem : VMem F C B),
      Mem.StrictSort.verify E k sorted { range with selector := q } mem = Mem.StrictSort.verify E k sorted range mem) ∧
    ∀ (fx gx : BagCommRef) (perm q q' : CommRef) (mem : VMem F C B),
      Mem.PrescPerm.verify E k { fx with selector := q } { gx with selector := q' } perm mem = Mem.PrescPerm.verify E k fx gx perm mem :=
  ⟨fun _ _ _ _ => rfl, fun _ _ _ _ _ _ => rfl, fun _ _ _ _ => rfl, fun _ _ _ _ _ _ => rfl⟩

/-! ### Tables that are returned -/

/-- C93 in full for the tables returned: all handles of a table returned by a cross product or a join are of one tracker. -/
def C93_statement : Prop :=
  ∀ (F C B : Type) [Field F] [DecidableEq F] (E : Env F C) (k : Nat),
    (∀ a b t (heap heap' : PHeap F C), Mem.CrossProduct.prover E a b heap = (.ok t, heap') → ∃ j, t.Of j) ∧
    (∀ a b t (mem mem' : VMem F C B), Mem.CrossProduct.verifier a b mem = (.ok t, mem') → ∃ j, t.Of j) ∧
    (∀ a b ai bi t (heap heap' : PHeap F C), Mem.FinalJoin.prove E k a b ai bi heap = (.ok t, heap') → ∃ j, t.Of j) ∧
    ∀ a b ai bi t (mem mem' : VMem F C B), Mem.FinalJoin.verify E k a b ai bi mem = (.ok t, mem') → ∃ j, t.Of j

/-- C93, partial: a cross product is made only of tables whose selectors are of one tracker, and the columns returned have the trackers of the columns
given; in debug builds the prover only makes tables of one tracker, by cross product and by join. -/
theorem C93_returned_partial (E : Env F C) (k : Nat) :
    (∀ a b t (heap heap' : PHeap F C), Mem.CrossProduct.prover E a b heap = (.ok t, heap') →
      a.selector.tracker = b.selector.tracker ∧ t.selector.tracker = a.selector.tracker ∧
      t.colVals.map (·.tracker) = a.colVals.map (·.tracker) ++ b.colVals.map (·.tracker) ∧
      (E.debug = true → a.Of a.selector.tracker ∧ b.Of a.selector.tracker ∧ t.Of a.selector.tracker)) ∧
    (∀ a b t (mem mem' : VMem F C B), Mem.CrossProduct.verifier a b mem = (.ok t, mem') →
      a.selector.tracker = b.selector.tracker ∧ t.selector.tracker = a.selector.tracker ∧
      t.colVals.map (·.tracker) = a.colVals.map (·.tracker) ++ b.colVals.map (·.tracker)) ∧
    ∀ a b ai bi t (heap heap' : PHeap F C), E.debug = true → Mem.FinalJoin.prove E k a b ai bi heap = (.ok t, heap') → t.Of k := by
  refine ⟨fun _ _ _ _ _ h => crossProduct_own h, fun _ _ _ _ _ h => vcrossProduct_own h, fun a b ai bi t heap heap' hd h => ?_⟩
  unfold Mem.FinalJoin.prove at h
  obtain ⟨_, _, _, h⟩ := Act.bind_eq_ok.1 h
  obtain ⟨_, _, h1, h⟩ := Act.bind_eq_ok.1 h
  obtain ⟨ta, _, h2, h⟩ := Act.bind_eq_ok.1 h
  have e := finalJoinWith_own h
  rw [e.1]
  exact ⟨e.2.2.2.2 hd, e.2.2.1⟩

namespace MemEx

/-- Two verifier trackers with one commitment each. -/
def twoVerifiers : List (MVOp (ZMod 7) (List (ZMod 7)) Unit) := [.new, .new, .trackComm 0 [1, 1], .trackComm 1 [2, 3]]

/-- The state after it. -/
def twoState : MVState (ZMod 7) (List (ZMod 7)) Unit := match MVState.init.runAll true PEx.orc twoVerifiers with | .ok w => w | .error _ => MVState.init

/-- A table with a selector of tracker 0 and a column of tracker 1. -/
def mixedTable : TableCommRef := ⟨[⟨0, 1⟩], ⟨0, 0⟩, 1⟩

/-- A table of tracker 0 without columns. -/
def emptyTable : TableCommRef := ⟨[], ⟨0, 0⟩, 1⟩

/-- The table the verifier returns. -/
def mixedResult : TableCommRef := ⟨[⟨1, 1⟩], ⟨3, 0⟩, 2⟩

end MemEx

/-- C93: the verifier's cross product returns a table with a selector of one tracker and a column of another. -/
theorem C93_mixed_table :
    MVState.init.runAll true PEx.orc MemEx.twoVerifiers = .ok MemEx.twoState ∧
    (Mem.CrossProduct.verifier MemEx.mixedTable MemEx.emptyTable MemEx.twoState.mem).1 = .ok MemEx.mixedResult := by
  refine ⟨rfl, rfl⟩

/-- C93 fails for the tables returned. -/
theorem C93_violated : ¬ C93_statement := by
  intro h
  obtain ⟨j, h1, h2⟩ := (h (ZMod 7) (List (ZMod 7)) Unit ⟨PEx.com, PEx.orc, true, fun x => x.val⟩ 0).2.1 _ _ _ _ _
    (Prod.ext C93_mixed_table.2 rfl : Mem.CrossProduct.verifier MemEx.mixedTable MemEx.emptyTable MemEx.twoState.mem = (_, _))
  have e1 : (1 : Nat) = j := h1 _ List.mem_cons_self
  have e2 : (0 : Nat) = j := h2
  omega
namespace MemEx
open IEx

/-- Two provers: tracker 0 has columns 2, 3 and 1, 1 and 0, 1 and 3, 2; tracker 1 has columns 0, 1 and 1, 1. -/
def twoProvers : List (MOp F7 Cm) :=
  [.new, .new, .commit 0 ⟨1, [2, 3]⟩ rfl, .commit 0 ⟨1, [1, 1]⟩ rfl, .commit 0 ⟨1, [0, 1]⟩ rfl, .commit 1 ⟨1, [0, 1]⟩ rfl, .commit 1 ⟨1, [1, 1]⟩ rfl,
    .commit 0 ⟨1, [3, 2]⟩ rfl]

/-- Memory after it. -/
def twoHeap : PHeap F7 Cm := match MState.init.runAll (env 5).commit (env 5).H twoProvers with | .ok w => w.heap | .error _ => []

/-- The handles: the `i`-th column of tracker `k`. -/
def col (i k : Nat) : PolyRef := ⟨i, 1, k⟩

/-- A release build. -/
def rel : Env F7 Cm := { env 5 with debug := false }

/-- How a call ended. -/
def ended {α : Type} (r : Res α × PHeap F7 Cm) : String := match r.1 with | .ok _ => "ok" | .error .panic => "panic" | .error _ => "error"

end MemEx

open MemEx IEx in
/-- Sorting tracker 0's bag with its own range succeeds, also if the selector of the range is of tracker 1; with the range of tracker 1, or as a call
with tracker 1, it panics. -/
example : ended (Mem.StrictSort.prove (env 5) 0 ⟨col 0 0, col 1 0⟩ ⟨col 2 0, col 1 0⟩ twoHeap) = "ok" ∧
    ended (Mem.StrictSort.prove (env 5) 0 ⟨col 0 0, col 1 0⟩ ⟨col 2 0, col 1 1⟩ twoHeap) = "ok" ∧
    ended (Mem.StrictSort.prove (env 5) 0 ⟨col 0 0, col 1 0⟩ ⟨col 0 1, col 1 0⟩ twoHeap) = "panic" ∧
    ended (Mem.StrictSort.prove (env 5) 1 ⟨col 0 0, col 1 0⟩ ⟨col 2 0, col 1 0⟩ twoHeap) = "panic" := by decide +kernel

open MemEx IEx in
/-- A join of tracker 0's tables succeeds; with a further column of tracker 1 in the second table it panics in debug builds and returns a table of both
trackers in release builds. -/
theorem C93_mixed_join :
    ended (Mem.FinalJoin.prove (env 5) 0 ⟨[col 0 0], col 1 0⟩ ⟨[col 3 0], col 1 0⟩ 0 0 twoHeap) = "ok" ∧
    ended (Mem.FinalJoin.prove (env 5) 0 ⟨[col 0 0], col 1 0⟩ ⟨[col 3 0, col 0 1], col 1 0⟩ 0 0 twoHeap) = "panic" ∧
    (Mem.FinalJoin.prove rel 0 ⟨[col 0 0], col 1 0⟩ ⟨[col 3 0, col 0 1], col 1 0⟩ 0 0 twoHeap).1.toOption.map
      (fun t : TableRef => (t.colVals.map (·.tracker), t.selector.tracker)) = some ([0, 0, 1], 0) := by decide +kernel

end Zksql
