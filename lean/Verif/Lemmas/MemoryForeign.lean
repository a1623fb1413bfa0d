import Verif.Lemmas.MemoryProtocols
/-!
Protocols in programs with several trackers and handles of a tracker other than the one they receive.
-/
set_option linter.unusedSectionVars false
namespace Zksql
open Spec
variable {F C B : Type} [Field F] [DecidableEq F] {k : Nat}

theorem add_ok {a b c : PolyRef} {heap heap' : PHeap F C} (h : a.add b heap = (.ok c, heap')) : a.tracker = b.tracker ∧ c.tracker = a.tracker := by
  by_cases e : a.tracker = b.tracker
  · refine ⟨e, ?_⟩
    unfold PolyRef.add PolyRef.assertSameTracker at h
    rw [assert_bind (same_iff.2 e)] at h; exact of_ok h
  · rw [add_mixed e] at h; cases h
theorem vadd_ok {a b c : CommRef} {mem mem' : VMem F C B} (h : a.add b mem = (.ok c, mem')) : a.tracker = b.tracker ∧ c.tracker = a.tracker := by
  by_cases e : a.tracker = b.tracker
  · refine ⟨e, ?_⟩
    unfold CommRef.add CommRef.assertSameTracker at h
    rw [assert_bind (vsame_iff.2 e)] at h; exact vof_ok h
  · rw [vadd_mixed e] at h; cases h
theorem mulScalar_ok {a c : PolyRef} {x : F} {heap heap' : PHeap F C} (h : a.mulScalar x heap = (.ok c, heap')) : c.tracker = a.tracker := of_ok h
theorem addScalar_ok {a c : PolyRef} {x : F} {heap heap' : PHeap F C} (h : a.addScalar x heap = (.ok c, heap')) : c.tracker = a.tracker := of_ok h
theorem trackMat_ok {p : Mle F} {c : PolyRef} {heap heap' : PHeap F C} (h : PHeap.trackMat k p heap = (.ok c, heap')) : c.tracker = k := of_ok h
theorem vmulScalar_ok {a c : CommRef} {x : F} {mem mem' : VMem F C B} (h : a.mulScalar x mem = (.ok c, mem')) : c.tracker = a.tracker := vof_ok h
theorem vaddScalar_ok {a c : CommRef} {x : F} {mem mem' : VMem F C B} (h : a.addScalar x mem = (.ok c, mem')) : c.tracker = a.tracker := vof_ok h
theorem vtrackVirtual_ok {f : VComm F} {c : CommRef} {mem mem' : VMem F C B} (h : VMem.trackVirtual k f mem = (.ok c, mem')) : c.tracker = k := vof_ok h

theorem bagNew_ok {S : Type} {debug : Bool} {p q : PolyRef} {b : BagRef} {s s' : S} (h : BagRef.new debug p q s = (.ok b, s')) : b = ⟨p, q⟩ := by
  unfold BagRef.new at h
  obtain ⟨_, _, _, h⟩ := Act.bind_eq_ok.1 h
  obtain ⟨_, _, _, h⟩ := Act.bind_eq_ok.1 h
  injection h with h; injection h with h; exact h.symm

theorem incWith_own {E : Env F C} {inc sup : BagRef} {m : PolyRef} {heap heap' : PHeap F C}
    (h : Mem.Inclusion.proveWithAdvice E k inc sup m heap = (.ok (), heap')) : inc.Of k ∧ sup.Of k ∧ m.tracker = k := by
  obtain ⟨_, _, _, h⟩ := Act.bind_eq_ok.1 h
  have := multitool_own h
  exact ⟨this.1.1 _ List.mem_cons_self, this.2.1 _ List.mem_cons_self, this.2.2 _ List.mem_cons_self⟩

theorem inclusion_own {E : Env F C} {inc sup : BagRef} {heap heap' : PHeap F C} (h : Mem.Inclusion.prove E k inc sup heap = (.ok (), heap')) :
    inc.Of k ∧ sup.Of k := by
  obtain ⟨_, _, _, h⟩ := Act.bind_eq_ok.1 h
  obtain ⟨_, _, _, h⟩ := Act.bind_eq_ok.1 h
  have := incWith_own h
  exact ⟨this.1, this.2.1⟩

theorem vincWith_own {E : Env F C} {inc sup : BagCommRef} {m : CommRef} {mem mem' : VMem F C B}
    (h : Mem.Inclusion.verifyWithAdvice E k inc sup m mem = (.ok (), mem')) : inc.Of k ∧ sup.Of k ∧ m.tracker = k := by
  obtain ⟨_, _, _, h⟩ := Act.bind_eq_ok.1 h
  have := vmultitool_own h
  exact ⟨this.1.1 _ List.mem_cons_self, this.2.1 _ List.mem_cons_self, this.2.2 _ List.mem_cons_self⟩

theorem vinclusion_own {E : Env F C} {inc sup : BagCommRef} {mem mem' : VMem F C B} (h : Mem.Inclusion.verify E k inc sup mem = (.ok (), mem')) :
    inc.Of k ∧ sup.Of k := by
  obtain ⟨_, _, _, h⟩ := Act.bind_eq_ok.1 h
  obtain ⟨_, _, _, h⟩ := Act.bind_eq_ok.1 h
  have := vincWith_own h
  exact ⟨this.1, this.2.1⟩

theorem prescPerm_own {E : Env F C} {fx gx : BagRef} {perm : PolyRef} {heap heap' : PHeap F C}
    (h : Mem.PrescPerm.prove E k fx gx perm heap = (.ok (), heap')) : fx.poly.tracker = k ∧ gx.poly.tracker = k ∧ perm.tracker = k := by
  unfold Mem.PrescPerm.prove at h
  split_ifs at h
  · cases h
  · cases h
  · obtain ⟨_, _, _, h⟩ := Act.bind_eq_ok.1 h
    obtain ⟨_, _, _, h⟩ := Act.bind_eq_ok.1 h
    obtain ⟨_, _, _, h⟩ := Act.bind_eq_ok.1 h
    obtain ⟨_, _, _, h⟩ := Act.bind_eq_ok.1 h
    obtain ⟨_, _, _, h⟩ := Act.bind_eq_ok.1 h
    obtain ⟨_, _, _, h⟩ := Act.bind_eq_ok.1 h
    obtain ⟨_, _, _, h⟩ := Act.bind_eq_ok.1 h
    obtain ⟨_, _, _, h⟩ := Act.bind_eq_ok.1 h
    obtain ⟨_, _, _, h⟩ := Act.bind_eq_ok.1 h
    obtain ⟨_, _, ho, h⟩ := Act.bind_eq_ok.1 h
    obtain ⟨_, _, hf, h⟩ := Act.bind_eq_ok.1 h
    obtain ⟨_, _, hg, h⟩ := Act.bind_eq_ok.1 h
    obtain ⟨_, _, hb, h⟩ := Act.bind_eq_ok.1 h
    obtain ⟨_, _, hb', h⟩ := Act.bind_eq_ok.1 h
    obtain ⟨_, _, h1, h⟩ := Act.bind_eq_ok.1 h
    obtain ⟨_, _, h2, h⟩ := Act.bind_eq_ok.1 h
    obtain ⟨_, _, h3, h⟩ := Act.bind_eq_ok.1 h
    obtain ⟨_, _, h4, h⟩ := Act.bind_eq_ok.1 h
    obtain ⟨_, _, h5, h⟩ := Act.bind_eq_ok.1 h
    obtain ⟨_, _, h6, h⟩ := Act.bind_eq_ok.1 h
    rw [bagNew_ok hb'] at h6
    have e1 := mulScalar_ok h1
    have e2 := add_ok h2
    have e4 := mulScalar_ok h4
    have e5 := add_ok h5
    have e6 := sub_ok h6
    have eg := trackAndCommit_ok hg
    have eo := trackMat_ok ho
    have hp : perm.tracker = k := by rw [← e5.2, e6.1]; exact eg
    exact ⟨by rw [← e1, ← e2.1, eo], by rw [← e4, ← e5.1, hp], hp⟩

theorem vprescPerm_own {E : Env F C} {fx gx : BagCommRef} {perm : CommRef} {mem mem' : VMem F C B}
    (h : Mem.PrescPerm.verify E k fx gx perm mem = (.ok (), mem')) : fx.poly.tracker = k ∧ gx.poly.tracker = k ∧ perm.tracker = k := by
  unfold Mem.PrescPerm.verify at h
  obtain ⟨_, _, _, h⟩ := Act.bind_eq_ok.1 h
  obtain ⟨_, _, _, h⟩ := Act.bind_eq_ok.1 h
  obtain ⟨_, _, ho, h⟩ := Act.bind_eq_ok.1 h
  obtain ⟨_, _, _, h⟩ := Act.bind_eq_ok.1 h
  obtain ⟨_, _, hf, h⟩ := Act.bind_eq_ok.1 h
  obtain ⟨_, _, _, h⟩ := Act.bind_eq_ok.1 h
  obtain ⟨_, _, hg, h⟩ := Act.bind_eq_ok.1 h
  obtain ⟨_, _, h1, h⟩ := Act.bind_eq_ok.1 h
  obtain ⟨_, _, h2, h⟩ := Act.bind_eq_ok.1 h
  obtain ⟨_, _, h3, h⟩ := Act.bind_eq_ok.1 h
  obtain ⟨_, _, h4, h⟩ := Act.bind_eq_ok.1 h
  obtain ⟨_, _, h5, h⟩ := Act.bind_eq_ok.1 h
  obtain ⟨_, _, h6, h⟩ := Act.bind_eq_ok.1 h
  have e1 := vmulScalar_ok h1
  have e2 := vadd_ok h2
  have e4 := vmulScalar_ok h4
  have e5 := vadd_ok h5
  have e6 := vsub_ok h6
  have eg := vtransfer_ok hg
  have eo := vtrackVirtual_ok ho
  have hp : perm.tracker = k := by rw [← e5.2, e6.1, eg]
  exact ⟨by rw [← e1, ← e2.1, eo], by rw [← e4, ← e5.1, hp], hp⟩

theorem strictSort_own {E : Env F C} {sorted range : BagRef} {heap heap' : PHeap F C}
    (h : Mem.StrictSort.prove E k sorted range heap = (.ok (), heap')) : sorted.Of k ∧ range.poly.tracker = k := by
  unfold Mem.StrictSort.prove at h
  iterate 10 obtain ⟨_, _, _, h⟩ := Act.bind_eq_ok.1 h
  obtain ⟨_, _, hp, h⟩ := Act.bind_eq_ok.1 h
  iterate 6 obtain ⟨_, _, _, h⟩ := Act.bind_eq_ok.1 h
  obtain ⟨_, _, _, h⟩ := Act.bind_eq_ok.1 h
  obtain ⟨_, _, _, h⟩ := Act.bind_eq_ok.1 h
  obtain ⟨_, _, hr, h⟩ := Act.bind_eq_ok.1 h
  obtain ⟨_, _, hi, h⟩ := Act.bind_eq_ok.1 h
  obtain ⟨_, _, hd, h⟩ := Act.bind_eq_ok.1 h
  have e1 := inclusion_own hi
  have e2 := noZeros_own h
  rw [bagNew_ok hr] at e1
  rw [bagNew_ok hd] at e2
  exact ⟨⟨(prescPerm_own hp).1, e2.2⟩, e1.2.1⟩

theorem vstrictSort_own {E : Env F C} {sorted range : BagCommRef} {mem mem' : VMem F C B}
    (h : Mem.StrictSort.verify E k sorted range mem = (.ok (), mem')) : sorted.Of k ∧ range.poly.tracker = k := by
  unfold Mem.StrictSort.verify at h
  iterate 4 obtain ⟨_, _, _, h⟩ := Act.bind_eq_ok.1 h
  obtain ⟨_, _, hp, h⟩ := Act.bind_eq_ok.1 h
  iterate 6 obtain ⟨_, _, _, h⟩ := Act.bind_eq_ok.1 h
  obtain ⟨_, _, hi, h⟩ := Act.bind_eq_ok.1 h
  exact ⟨⟨(vprescPerm_own hp).1, (vnoZeros_own h).2⟩, (vinclusion_own hi).2.1⟩

theorem suppWith_own {E : Env F C} {bag supp range : BagRef} {m : PolyRef} {heap heap' : PHeap F C}
    (h : Mem.Supp.proveWithAdvice E k bag supp m range heap = (.ok (), heap')) : bag.Of k ∧ supp.Of k ∧ m.tracker = k ∧ range.poly.tracker = k := by
  unfold Mem.Supp.proveWithAdvice at h
  obtain ⟨_, _, h1, h⟩ := Act.bind_eq_ok.1 h
  obtain ⟨_, _, _, h⟩ := Act.bind_eq_ok.1 h
  obtain ⟨_, _, _, h⟩ := Act.bind_eq_ok.1 h
  have := incWith_own h1
  exact ⟨this.1, this.2.1, this.2.2, (strictSort_own h).2⟩

theorem vsuppWith_own {E : Env F C} {bag supp range : BagCommRef} {m : CommRef} {mem mem' : VMem F C B}
    (h : Mem.Supp.verifyWithAdvice E k bag supp m range mem = (.ok (), mem')) : bag.Of k ∧ supp.Of k ∧ m.tracker = k ∧ range.poly.tracker = k := by
  unfold Mem.Supp.verifyWithAdvice at h
  obtain ⟨_, _, h1, h⟩ := Act.bind_eq_ok.1 h
  obtain ⟨_, _, _, h⟩ := Act.bind_eq_ok.1 h
  have := vincWith_own h1
  exact ⟨this.1, this.2.1, this.2.2, (vstrictSort_own h).2⟩

theorem supp_own {E : Env F C} {bag supp range : BagRef} {heap heap' : PHeap F C}
    (h : Mem.Supp.prove E k bag supp range heap = (.ok (), heap')) : bag.Of k ∧ supp.Of k ∧ range.poly.tracker = k := by
  obtain ⟨_, _, _, h⟩ := Act.bind_eq_ok.1 h
  obtain ⟨_, _, _, h⟩ := Act.bind_eq_ok.1 h
  have := suppWith_own h
  exact ⟨this.1, this.2.1, this.2.2.2⟩

theorem vsupp_own {E : Env F C} {bag supp range : BagCommRef} {mem mem' : VMem F C B}
    (h : Mem.Supp.verify E k bag supp range mem = (.ok (), mem')) : bag.Of k ∧ supp.Of k ∧ range.poly.tracker = k := by
  obtain ⟨_, _, _, h⟩ := Act.bind_eq_ok.1 h
  obtain ⟨_, _, _, h⟩ := Act.bind_eq_ok.1 h
  have := vsuppWith_own h
  exact ⟨this.1, this.2.1, this.2.2.2⟩

theorem disWith_own {E : Env F C} {a b c range : BagRef} {mA mB : PolyRef} {heap heap' : PHeap F C}
    (h : Mem.Disjoint.proveWithAdvice E k a b c mA mB range heap = (.ok (), heap')) :
    a.Of k ∧ b.Of k ∧ c.Of k ∧ mA.tracker = k ∧ mB.tracker = k ∧ range.poly.tracker = k := by
  unfold Mem.Disjoint.proveWithAdvice at h
  obtain ⟨_, _, hs, h⟩ := Act.bind_eq_ok.1 h
  obtain ⟨_, _, _, h⟩ := Act.bind_eq_ok.1 h
  obtain ⟨_, _, _, h⟩ := Act.bind_eq_ok.1 h
  obtain ⟨_, _, h1, h⟩ := Act.bind_eq_ok.1 h
  have e1 := incWith_own h1
  have e2 := incWith_own h
  exact ⟨e1.1, e2.1, e1.2.1, e1.2.2, e2.2.2, (strictSort_own hs).2⟩

theorem vdisWith_own {E : Env F C} {a b c range : BagCommRef} {mA mB : CommRef} {mem mem' : VMem F C B}
    (h : Mem.Disjoint.verifyWithAdvice E k a b c mA mB range mem = (.ok (), mem')) :
    a.Of k ∧ b.Of k ∧ c.Of k ∧ mA.tracker = k ∧ mB.tracker = k ∧ range.poly.tracker = k := by
  unfold Mem.Disjoint.verifyWithAdvice at h
  obtain ⟨_, _, hs, h⟩ := Act.bind_eq_ok.1 h
  obtain ⟨_, _, _, h⟩ := Act.bind_eq_ok.1 h
  obtain ⟨_, _, _, h⟩ := Act.bind_eq_ok.1 h
  obtain ⟨_, _, h1, h⟩ := Act.bind_eq_ok.1 h
  have e1 := vincWith_own h1
  have e2 := vincWith_own h
  exact ⟨e1.1, e2.1, e1.2.1, e1.2.2, e2.2.2, (vstrictSort_own hs).2⟩

theorem disjoint_own {E : Env F C} {a b range : BagRef} {heap heap' : PHeap F C} (h : Mem.Disjoint.prove E k a b range heap = (.ok (), heap')) :
    a.Of k ∧ b.Of k ∧ range.poly.tracker = k := by
  unfold Mem.Disjoint.prove at h
  iterate 6 obtain ⟨_, _, _, h⟩ := Act.bind_eq_ok.1 h
  have := disWith_own h
  exact ⟨this.1, this.2.1, this.2.2.2.2.2⟩

theorem vdisjoint_own {E : Env F C} {a b range : BagCommRef} {mem mem' : VMem F C B} (h : Mem.Disjoint.verify E k a b range mem = (.ok (), mem')) :
    a.Of k ∧ b.Of k ∧ range.poly.tracker = k := by
  unfold Mem.Disjoint.verify at h
  iterate 8 obtain ⟨_, _, _, h⟩ := Act.bind_eq_ok.1 h
  have := vdisWith_own h
  exact ⟨this.1, this.2.1, this.2.2.2.2.2⟩

theorem setDisjoint_own {E : Env F C} {a b range : BagRef} {heap heap' : PHeap F C} (h : Mem.SetDisjoint.prove E k a b range heap = (.ok (), heap')) :
    a.Of k ∧ b.Of k ∧ range.poly.tracker = k := by
  unfold Mem.SetDisjoint.prove at h
  iterate 11 obtain ⟨_, _, _, h⟩ := Act.bind_eq_ok.1 h
  obtain ⟨_, _, h1, h⟩ := Act.bind_eq_ok.1 h
  have := bagSum_own h1
  exact ⟨this.1, this.2.1, (strictSort_own h).2⟩

theorem vsetDisjoint_own {E : Env F C} {a b range : BagCommRef} {mem mem' : VMem F C B}
    (h : Mem.SetDisjoint.verify E k a b range mem = (.ok (), mem')) : a.Of k ∧ b.Of k ∧ range.poly.tracker = k := by
  unfold Mem.SetDisjoint.verify at h
  iterate 4 obtain ⟨_, _, _, h⟩ := Act.bind_eq_ok.1 h
  obtain ⟨_, _, h1, h⟩ := Act.bind_eq_ok.1 h
  have := vbagSum_own h1
  exact ⟨this.1, this.2.1, (vstrictSort_own h).2⟩

theorem setDiff_own {E : Env F C} {a b l m range : BagRef} {bm : PolyRef} {heap heap' : PHeap F C}
    (h : Mem.SetDiff.prove E k a b l m bm range heap = (.ok (), heap')) :
    a.Of k ∧ b.Of k ∧ l.Of k ∧ m.Of k ∧ bm.tracker = k ∧ range.poly.tracker = k := by
  obtain ⟨_, _, h1, h⟩ := Act.bind_eq_ok.1 h
  obtain ⟨_, _, h2, h⟩ := Act.bind_eq_ok.1 h
  have e1 := setDisjoint_own h1
  have e2 := bagSum_own h2
  have e3 := incWith_own h
  exact ⟨e2.2.2, e1.2.1, e1.1, e2.2.1, e3.2.2, e1.2.2⟩

theorem vsetDiff_own {E : Env F C} {a b l m range : BagCommRef} {bm : CommRef} {mem mem' : VMem F C B}
    (h : Mem.SetDiff.verify E k a b l m bm range mem = (.ok (), mem')) :
    a.Of k ∧ b.Of k ∧ l.Of k ∧ m.Of k ∧ bm.tracker = k ∧ range.poly.tracker = k := by
  obtain ⟨_, _, h1, h⟩ := Act.bind_eq_ok.1 h
  obtain ⟨_, _, h2, h⟩ := Act.bind_eq_ok.1 h
  have e1 := vsetDisjoint_own h1
  have e2 := vbagSum_own h2
  have e3 := vincWith_own h
  exact ⟨e2.2.2, e1.2.1, e1.1, e2.2.1, e3.2.2, e1.2.2⟩

theorem setUnion_own {E : Env F C} {a b union range : BagRef} {heap heap' : PHeap F C}
    (h : Mem.SetUnion.prove E k a b union range heap = (.ok (), heap')) : a.Of k ∧ b.Of k ∧ union.Of k ∧ range.poly.tracker = k := by
  unfold Mem.SetUnion.prove at h
  iterate 11 obtain ⟨_, _, _, h⟩ := Act.bind_eq_ok.1 h
  obtain ⟨_, _, h1, h⟩ := Act.bind_eq_ok.1 h
  have e := bagSum_own h1
  have e' := supp_own h
  exact ⟨e.1, e.2.1, e'.2.1, e'.2.2⟩

theorem vsetUnion_own {E : Env F C} {a b union range : BagCommRef} {mem mem' : VMem F C B}
    (h : Mem.SetUnion.verify E k a b union range mem = (.ok (), mem')) : a.Of k ∧ b.Of k ∧ union.Of k ∧ range.poly.tracker = k := by
  unfold Mem.SetUnion.verify at h
  iterate 4 obtain ⟨_, _, _, h⟩ := Act.bind_eq_ok.1 h
  obtain ⟨_, _, h1, h⟩ := Act.bind_eq_ok.1 h
  have e := vbagSum_own h1
  have e' := vsupp_own h
  exact ⟨e.1, e.2.1, e'.2.1, e'.2.2⟩

theorem setIntersect_own {E : Env F C} {a b l m r range : BagRef} {heap heap' : PHeap F C}
    (h : Mem.SetIntersect.prove E k a b l m r range heap = (.ok (), heap')) :
    a.Of k ∧ b.Of k ∧ l.Of k ∧ m.Of k ∧ r.Of k ∧ range.poly.tracker = k := by
  obtain ⟨_, _, h1, h⟩ := Act.bind_eq_ok.1 h
  obtain ⟨_, _, h2, h⟩ := Act.bind_eq_ok.1 h
  have e1 := bagSum_own h1
  have e2 := bagSum_own h2
  exact ⟨e1.2.2, e2.2.2, e1.1, e1.2.1, e2.2.1, (setDisjoint_own h).2.2⟩

theorem vsetIntersect_own {E : Env F C} {a b l m r range : BagCommRef} {mem mem' : VMem F C B}
    (h : Mem.SetIntersect.verify E k a b l m r range mem = (.ok (), mem')) :
    a.Of k ∧ b.Of k ∧ l.Of k ∧ m.Of k ∧ r.Of k ∧ range.poly.tracker = k := by
  obtain ⟨_, _, h1, h⟩ := Act.bind_eq_ok.1 h
  obtain ⟨_, _, h2, h⟩ := Act.bind_eq_ok.1 h
  have e1 := vbagSum_own h1
  have e2 := vbagSum_own h2
  exact ⟨e1.2.2, e2.2.2, e1.1, e1.2.1, e2.2.1, (vsetDisjoint_own h).2.2⟩

theorem joinReduction_own {E : Env F C} {a b range : BagRef} {lSel rSel : PolyRef} {heap heap' : PHeap F C}
    (h : Mem.JoinReduction.prove E k a b lSel rSel range heap = (.ok (), heap')) :
    a.Of k ∧ b.Of k ∧ lSel.tracker = k ∧ rSel.tracker = k ∧ range.poly.tracker = k := by
  unfold Mem.JoinReduction.prove at h
  iterate 4 obtain ⟨_, _, _, h⟩ := Act.bind_eq_ok.1 h
  obtain ⟨_, _, h1, h⟩ := Act.bind_eq_ok.1 h
  obtain ⟨_, _, hb1, h⟩ := Act.bind_eq_ok.1 h
  obtain ⟨_, _, h2, h⟩ := Act.bind_eq_ok.1 h
  obtain ⟨_, _, hb2, h⟩ := Act.bind_eq_ok.1 h
  iterate 6 obtain ⟨_, _, _, h⟩ := Act.bind_eq_ok.1 h
  obtain ⟨_, _, hd, h⟩ := Act.bind_eq_ok.1 h
  have e := disjoint_own hd
  rw [bagNew_ok hb1, bagNew_ok hb2] at e
  have e1 := mul_ok h1
  have e2 := mul_ok h2
  have s1 : a.selector.tracker = k := e1.2.symm.trans e.1.2
  have s2 : b.selector.tracker = k := e2.2.symm.trans e.2.1.2
  exact ⟨⟨e.1.1, s1⟩, ⟨e.2.1.1, s2⟩, e1.1.symm.trans s1, e2.1.symm.trans s2, e.2.2⟩

theorem vjoinReduction_own {E : Env F C} {a b range : BagCommRef} {lSel rSel : CommRef} {mem mem' : VMem F C B}
    (h : Mem.JoinReduction.verify E k a b lSel rSel range mem = (.ok (), mem')) :
    a.Of k ∧ b.Of k ∧ lSel.tracker = k ∧ rSel.tracker = k ∧ range.poly.tracker = k := by
  unfold Mem.JoinReduction.verify at h
  iterate 4 obtain ⟨_, _, _, h⟩ := Act.bind_eq_ok.1 h
  obtain ⟨_, _, h1, h⟩ := Act.bind_eq_ok.1 h
  obtain ⟨_, _, h2, h⟩ := Act.bind_eq_ok.1 h
  iterate 4 obtain ⟨_, _, _, h⟩ := Act.bind_eq_ok.1 h
  obtain ⟨_, _, hd, h⟩ := Act.bind_eq_ok.1 h
  have e := vdisjoint_own hd
  have e1 := vmul_ok h1
  have e2 := vmul_ok h2
  have s1 : a.selector.tracker = k := e1.2.symm.trans e.1.2
  have s2 : b.selector.tracker = k := e2.2.symm.trans e.2.1.2
  exact ⟨⟨e.1.1, s1⟩, ⟨e.2.1.1, s2⟩, e1.1.symm.trans s1, e2.1.symm.trans s2, e.2.2⟩

/-! ### Tables -/

theorem tableRefNew_ok {S : Type} {debug : Bool} {cols : List PolyRef} {q : PolyRef} {t : TableRef} {s s' : S}
    (h : TableRef.new debug cols q s = (.ok t, s')) : t = ⟨cols, q⟩ := by
  unfold TableRef.new at h
  cases debug
  · injection h with h; injection h with h; exact h.symm
  · obtain ⟨_, _, _, h⟩ := Act.bind_eq_ok.1 h
    injection h with h; injection h with h; exact h.symm

theorem checks_ok {S : Type} {q : PolyRef} {s : S} : ∀ {cols : List PolyRef} {s' : S}, TableRef.checks q cols s = (.ok (), s') →
    ∀ c ∈ cols, c.tracker = q.tracker
  | [], _, _, c, hc => (List.not_mem_nil hc).elim
  | p :: r, s', h, c, hc => by
    unfold TableRef.checks at h
    obtain ⟨_, s1, h1, h'⟩ := Act.bind_eq_ok.1 h
    obtain ⟨_, s2, h2, h''⟩ := Act.bind_eq_ok.1 h'
    have : p.numVars = q.numVars ∧ s1 = s := by
      by_cases e : p.numVars = q.numVars
      · rw [Act.assert_true e] at h1; injection h1 with _ h1; exact ⟨e, h1.symm⟩
      · rw [assert_false e] at h1; cases h1
    obtain ⟨_, rfl⟩ := this
    have : p.tracker = q.tracker ∧ s2 = s1 := by
      by_cases e : p.sameTracker q = true
      · rw [Act.assert_true e] at h2; injection h2 with _ h2; exact ⟨same_iff.1 e, h2.symm⟩
      · rw [assert_false e] at h2; cases h2
    obtain ⟨e, rfl⟩ := this
    rcases List.mem_cons.1 hc with rfl | hc
    · exact e
    · exact checks_ok h'' c hc

theorem tableNew_debug {S : Type} {cols : List PolyRef} {q : PolyRef} {t : TableRef} {s s' : S}
    (h : TableRef.new true cols q s = (.ok t, s')) : ∀ c ∈ cols, c.tracker = q.tracker := by
  unfold TableRef.new at h
  rw [if_pos rfl] at h
  obtain ⟨_, _, h1, h⟩ := Act.bind_eq_ok.1 h
  exact checks_ok h1

theorem aggLoop_ok : ∀ {cols : List PolyRef} {acc c : PolyRef} {rs : List F} {heap heap' : PHeap F C},
    Mem.IndexTransform.proverAggLoop acc cols rs heap = (.ok c, heap') → c.tracker = acc.tracker ∧ ∀ x ∈ cols, x.tracker = acc.tracker
  | [], _, _, _, _, _, h => by
    injection h with h; injection h with h; subst h
    exact ⟨rfl, fun x hx => (List.not_mem_nil hx).elim⟩
  | _ :: _, _, _, [], _, _, h => by cases h
  | x :: xs, acc, c, r :: rs, _, _, h => by
    unfold Mem.IndexTransform.proverAggLoop at h
    obtain ⟨_, _, h1, h⟩ := Act.bind_eq_ok.1 h
    obtain ⟨_, _, h2, h⟩ := Act.bind_eq_ok.1 h
    have e1 := mulScalar_ok h1
    have e2 := mul_ok h2
    have e3 := aggLoop_ok h
    refine ⟨e3.1.trans e2.2, fun y hy => ?_⟩
    rcases List.mem_cons.1 hy with rfl | hy
    · rw [← e1, ← e2.1]
    · exact (e3.2 y hy).trans e2.2

theorem vaggLoop_ok : ∀ {cols : List CommRef} {acc c : CommRef} {rs : List F} {mem mem' : VMem F C B},
    Mem.IndexTransform.verifierAggLoop acc cols rs mem = (.ok c, mem') → c.tracker = acc.tracker ∧ ∀ x ∈ cols, x.tracker = acc.tracker
  | [], _, _, _, _, _, h => by
    injection h with h; injection h with h; subst h
    exact ⟨rfl, fun x hx => (List.not_mem_nil hx).elim⟩
  | _ :: _, _, _, [], _, _, h => by cases h
  | x :: xs, acc, c, r :: rs, _, _, h => by
    unfold Mem.IndexTransform.verifierAggLoop at h
    obtain ⟨_, _, h1, h⟩ := Act.bind_eq_ok.1 h
    obtain ⟨_, _, h2, h⟩ := Act.bind_eq_ok.1 h
    have e1 := vmulScalar_ok h1
    have e2 := vmul_ok h2
    have e3 := vaggLoop_ok h
    refine ⟨e3.1.trans e2.2, fun y hy => ?_⟩
    rcases List.mem_cons.1 hy with rfl | hy
    · rw [← e1, ← e2.1]
    · exact (e3.2 y hy).trans e2.2

theorem agg_own {E : Env F C} {t : TableRef} {rs : List F} {b : BagRef} {heap heap' : PHeap F C}
    (h : Mem.IndexTransform.proverAgg E t rs heap = (.ok b, heap')) (hb : b.Of k) : t.Of k := by
  obtain ⟨_, _, h1, h⟩ := Act.bind_eq_ok.1 h
  rw [bagNew_ok h] at hb
  have := aggLoop_ok h1
  exact ⟨fun c hc => (this.2 c hc).trans hb.2, hb.2⟩

theorem vagg_own {t : TableCommRef} {rs : List F} {b : BagCommRef} {mem mem' : VMem F C B}
    (h : Mem.IndexTransform.verifierAgg t rs mem = (.ok b, mem')) (hb : b.Of k) : t.Of k := by
  obtain ⟨_, _, h1, h⟩ := Act.bind_eq_ok.1 h
  injection h with h; injection h with h; subst h
  have := vaggLoop_ok h1
  exact ⟨fun c hc => (this.2 c hc).trans hb.2, hb.2⟩

theorem indexTransform_own {E : Env F C} {tin tout : TableRef} {heap heap' : PHeap F C}
    (h : Mem.IndexTransform.prove E k tin tout heap = (.ok (), heap')) : tin.Of k ∧ tout.Of k := by
  obtain ⟨_, _, _, h⟩ := Act.bind_eq_ok.1 h
  obtain ⟨_, _, h1, h⟩ := Act.bind_eq_ok.1 h
  obtain ⟨_, _, h2, h⟩ := Act.bind_eq_ok.1 h
  have := inclusion_own h
  exact ⟨agg_own h1 this.2, agg_own h2 this.1⟩

theorem vindexTransform_own {E : Env F C} {tin tout : TableCommRef} {mem mem' : VMem F C B}
    (h : Mem.IndexTransform.verify E k tin tout mem = (.ok (), mem')) : tin.Of k ∧ tout.Of k := by
  obtain ⟨_, _, _, h⟩ := Act.bind_eq_ok.1 h
  obtain ⟨_, _, h1, h⟩ := Act.bind_eq_ok.1 h
  obtain ⟨_, _, h2, h⟩ := Act.bind_eq_ok.1 h
  have := vinclusion_own h
  exact ⟨vagg_own h1 this.2, vagg_own h2 this.1⟩

/-! ### Joins, group-by and cross product -/

theorem lift_ok {S α : Type} {r : Res α} {x : α} {s s' : S} (h : Act.lift r s = (.ok x, s')) : r = .ok x ∧ s' = s := by
  injection h with h1 h2; exact ⟨h1, h2.symm⟩
theorem idx_get {α : Type} {l : List α} {i : Nat} {a : α} (h : idx l i = .ok a) : l[i]? = some a := by
  unfold idx at h
  revert h
  rcases l[i]? with _ | b
  · intro h; cases h
  · intro h; injection h with h; rw [h]

theorem finalJoinWith_own {E : Env F C} {a b : TableRef} {ai bi : Nat} {ta : List PolyRef} {t : TableRef} {heap heap' : PHeap F C}
    (h : Mem.FinalJoin.proveWithAdvice E k a b ai bi ta heap = (.ok t, heap')) :
    t = ⟨ta ++ b.colVals, b.selector⟩ ∧ a.Of k ∧ b.selector.tracker = k ∧ (∃ c, (ta ++ b.colVals)[a.colVals.length + bi]? = some c ∧ c.tracker = k) ∧
    (E.debug = true → ∀ c ∈ ta ++ b.colVals, c.tracker = k) := by
  unfold Mem.FinalJoin.proveWithAdvice at h
  obtain ⟨_, _, _, h⟩ := Act.bind_eq_ok.1 h
  obtain ⟨res, _, hr, h⟩ := Act.bind_eq_ok.1 h
  obtain ⟨_, _, _, h⟩ := Act.bind_eq_ok.1 h
  obtain ⟨_, _, ht, h⟩ := Act.bind_eq_ok.1 h
  obtain ⟨_, _, hi, h⟩ := Act.bind_eq_ok.1 h
  obtain ⟨_, _, _, h⟩ := Act.bind_eq_ok.1 h
  obtain ⟨jb, _, hb, h⟩ := Act.bind_eq_ok.1 h
  obtain ⟨_, _, hs, h⟩ := Act.bind_eq_ok.1 h
  obtain ⟨_, _, hm, h⟩ := Act.bind_eq_ok.1 h
  obtain ⟨_, _, _, h⟩ := Act.bind_eq_ok.1 h
  injection h with h; injection h with h
  have e := tableRefNew_ok hr
  have e1 := indexTransform_own hi
  rw [tableRefNew_ok ht] at e1
  subst h; subst e
  have hk : b.selector.tracker = k := e1.2.2
  have e2 := sub_ok hs
  have e3 := mul_ok hm
  refine ⟨rfl, e1.1, hk, ⟨jb, idx_get (lift_ok hb).1, ?_⟩, fun hd c hc => ?_⟩
  · rw [← e2.1, ← e2.2, e3.1]; exact hk
  · rw [hd] at hr
    exact (tableNew_debug hr c hc).trans hk

theorem vfinalJoinWith_own {E : Env F C} {a b : TableCommRef} {ai bi : Nat} {ta : List CommRef} {t : TableCommRef} {mem mem' : VMem F C B}
    (h : Mem.FinalJoin.verifyWithAdvice E k a b ai bi ta mem = (.ok t, mem')) :
    t = ⟨ta ++ b.colVals, b.selector, b.numVars⟩ ∧ a.Of k ∧ b.selector.tracker = k ∧
    ∃ c, (ta ++ b.colVals)[a.colVals.length + bi]? = some c ∧ c.tracker = k := by
  unfold Mem.FinalJoin.verifyWithAdvice at h
  obtain ⟨_, _, _, h⟩ := Act.bind_eq_ok.1 h
  obtain ⟨_, _, hi, h⟩ := Act.bind_eq_ok.1 h
  obtain ⟨_, _, _, h⟩ := Act.bind_eq_ok.1 h
  obtain ⟨jb, _, hb, h⟩ := Act.bind_eq_ok.1 h
  obtain ⟨_, _, hs, h⟩ := Act.bind_eq_ok.1 h
  obtain ⟨_, _, hm, h⟩ := Act.bind_eq_ok.1 h
  obtain ⟨_, _, _, h⟩ := Act.bind_eq_ok.1 h
  injection h with h; injection h with h
  have e1 := vindexTransform_own hi
  subst h
  have hk : b.selector.tracker = k := e1.2.2
  have e2 := vsub_ok hs
  have e3 := vmul_ok hm
  refine ⟨rfl, e1.1, hk, ⟨jb, idx_get (lift_ok hb).1, ?_⟩⟩
  rw [← e2.1, ← e2.2, e3.1]; exact hk

theorem applyAll_length {E : Env F C} {ks : List Nat} {act : PolyRef} : ∀ {cols : List PolyRef} {ms : List (Mle F)} {heap heap' : PHeap F C},
    Mem.FinalJoin.applyAll E ks act cols heap = (.ok ms, heap') → ms.length = cols.length
  | [], _, _, _, h => by injection h with h; injection h with h; subst h; rfl
  | _ :: _, _, _, _, h => by
    unfold Mem.FinalJoin.applyAll at h
    obtain ⟨_, _, _, h⟩ := Act.bind_eq_ok.1 h
    obtain ⟨_, _, h1, h⟩ := Act.bind_eq_ok.1 h
    injection h with h; injection h with h; subst h
    simp [applyAll_length h1]

theorem commitAll_ok {E : Env F C} : ∀ {ms : List (Mle F)} {cs : List PolyRef} {heap heap' : PHeap F C},
    Mem.FinalJoin.commitAll E k ms heap = (.ok cs, heap') → cs.length = ms.length ∧ ∀ c ∈ cs, c.tracker = k
  | [], _, _, _, h => by injection h with h; injection h with h; subst h; exact ⟨rfl, fun _ h => (List.not_mem_nil h).elim⟩
  | _ :: _, _, _, _, h => by
    unfold Mem.FinalJoin.commitAll at h
    obtain ⟨_, _, h0, h⟩ := Act.bind_eq_ok.1 h
    obtain ⟨_, _, h1, h⟩ := Act.bind_eq_ok.1 h
    injection h with h; injection h with h; subst h
    have := commitAll_ok h1
    refine ⟨by simp [this.1], fun c hc => ?_⟩
    rcases List.mem_cons.1 hc with rfl | hc
    · exact trackAndCommit_ok h0
    · exact this.2 c hc

theorem transferAll_ok {E : Env F C} : ∀ {n : Nat} {cs : List CommRef} {mem mem' : VMem F C B},
    Mem.FinalJoin.transferAll E k n mem = (.ok cs, mem') → cs.length = n ∧ ∀ c ∈ cs, c.tracker = k
  | 0, _, _, _, h => by injection h with h; injection h with h; subst h; exact ⟨rfl, fun _ h => (List.not_mem_nil h).elim⟩
  | _ + 1, _, _, _, h => by
    unfold Mem.FinalJoin.transferAll at h
    obtain ⟨_, _, _, h⟩ := Act.bind_eq_ok.1 h
    obtain ⟨_, _, h0, h⟩ := Act.bind_eq_ok.1 h
    obtain ⟨_, _, h1, h⟩ := Act.bind_eq_ok.1 h
    injection h with h; injection h with h; subst h
    have := transferAll_ok h1
    refine ⟨by simp [this.1], fun c hc => ?_⟩
    rcases List.mem_cons.1 hc with rfl | hc
    · exact vtransfer_ok h0
    · exact this.2 c hc

theorem finalJoin_own {E : Env F C} {a b : TableRef} {ai bi : Nat} {t : TableRef} {heap heap' : PHeap F C}
    (h : Mem.FinalJoin.prove E k a b ai bi heap = (.ok t, heap')) :
    a.Of k ∧ b.selector.tracker = k ∧ (∃ c, b.colVals[bi]? = some c ∧ c.tracker = k) ∧ (E.debug = true → b.Of k) := by
  unfold Mem.FinalJoin.prove at h
  obtain ⟨_, _, _, h⟩ := Act.bind_eq_ok.1 h
  obtain ⟨_, _, h1, h⟩ := Act.bind_eq_ok.1 h
  obtain ⟨ta, _, h2, h⟩ := Act.bind_eq_ok.1 h
  have e := finalJoinWith_own h
  have hl := (commitAll_ok h2).1.trans (applyAll_length h1)
  refine ⟨e.2.1, e.2.2.1, ?_, fun hd => ⟨fun c hc => e.2.2.2.2 hd c (List.mem_append_right _ hc), e.2.2.1⟩⟩
  obtain ⟨c, hc, hk⟩ := e.2.2.2.1
  rw [← hl, List.getElem?_append_right (by omega), Nat.add_sub_cancel_left] at hc
  exact ⟨c, hc, hk⟩

theorem vfinalJoin_own {E : Env F C} {a b : TableCommRef} {ai bi : Nat} {t : TableCommRef} {mem mem' : VMem F C B}
    (h : Mem.FinalJoin.verify E k a b ai bi mem = (.ok t, mem')) :
    a.Of k ∧ b.selector.tracker = k ∧ ∃ c, b.colVals[bi]? = some c ∧ c.tracker = k := by
  unfold Mem.FinalJoin.verify at h
  obtain ⟨ta, _, h2, h⟩ := Act.bind_eq_ok.1 h
  have e := vfinalJoinWith_own h
  refine ⟨e.2.1, e.2.2.1, ?_⟩
  obtain ⟨c, hc, hk⟩ := e.2.2.2
  rw [← (transferAll_ok h2).1, List.getElem?_append_right (by omega), Nat.add_sub_cancel_left] at hc
  exact ⟨c, hc, hk⟩

theorem aggs_own {E : Env F C} {inp : TableRef} {pre grp : BagRef} {mult : PolyRef} : ∀ {ags : List (Nat × AggType × PolyRef)} {cols res : List PolyRef}
    {heap heap' : PHeap F C}, Mem.GroupBy.proveAggs E k inp pre grp mult ags cols heap = (.ok res, heap') →
    ∀ c p, (c, AggType.sum, p) ∈ ags → p.tracker = k ∧ ∃ x, inp.colVals[c]? = some x ∧ x.tracker = k
  | [], _, _, _, _, _, _, _, hm => (List.not_mem_nil hm).elim
  | (_, .count, _) :: r, _, _, _, _, h, c, p, hm => by
    unfold Mem.GroupBy.proveAggs at h
    rcases List.mem_cons.1 hm with hm | hm
    · cases hm
    · exact aggs_own h c p hm
  | (c', .sum, p') :: r, _, _, _, _, h, c, p, hm => by
    unfold Mem.GroupBy.proveAggs at h
    obtain ⟨x, _, h0, h⟩ := Act.bind_eq_ok.1 h
    obtain ⟨_, _, h1, h⟩ := Act.bind_eq_ok.1 h
    rcases List.mem_cons.1 hm with hm | hm
    · cases hm
      have := multitool_own h1
      exact ⟨this.2.2 _ List.mem_cons_self, x, idx_get (lift_ok h0).1, this.1.2 _ List.mem_cons_self⟩
    · exact aggs_own h c p hm
  | (_, .avg, _) :: _, _, _, _, _, h, _, _, _ => by cases h
  | (_, .min, _) :: _, _, _, _, _, h, _, _, _ => by cases h
  | (_, .max, _) :: _, _, _, _, _, h, _, _, _ => by cases h

theorem vaggs_own {E : Env F C} {inp : TableCommRef} {pre grp : BagCommRef} {mult : CommRef} : ∀ {ags : List (Nat × AggType × CommRef)}
    {cols res : List CommRef} {mem mem' : VMem F C B}, Mem.GroupBy.verifyAggs E k inp pre grp mult ags cols mem = (.ok res, mem') →
    ∀ c p, (c, AggType.sum, p) ∈ ags → p.tracker = k ∧ ∃ x, inp.colVals[c]? = some x ∧ x.tracker = k
  | [], _, _, _, _, _, _, _, hm => (List.not_mem_nil hm).elim
  | (_, .count, _) :: r, _, _, _, _, h, c, p, hm => by
    unfold Mem.GroupBy.verifyAggs at h
    rcases List.mem_cons.1 hm with hm | hm
    · cases hm
    · exact vaggs_own h c p hm
  | (c', .sum, p') :: r, _, _, _, _, h, c, p, hm => by
    unfold Mem.GroupBy.verifyAggs at h
    obtain ⟨x, _, h0, h⟩ := Act.bind_eq_ok.1 h
    obtain ⟨_, _, h1, h⟩ := Act.bind_eq_ok.1 h
    rcases List.mem_cons.1 hm with hm | hm
    · cases hm
      have := vmultitool_own h1
      exact ⟨this.2.2 _ List.mem_cons_self, x, idx_get (lift_ok h0).1, this.1.2 _ List.mem_cons_self⟩
    · exact vaggs_own h c p hm
  | (_, .avg, _) :: _, _, _, _, _, h, _, _, _ => by cases h
  | (_, .min, _) :: _, _, _, _, _, h, _, _, _ => by cases h
  | (_, .max, _) :: _, _, _, _, _, h, _, _, _ => by cases h

theorem res_bind_inv {α β : Type} {r : Res α} {f : α → Res β} {b : β} (h : (r >>= f) = .ok b) : ∃ a, r = .ok a ∧ f a = .ok b := by
  cases r with
  | error e => cases h
  | ok a => exact ⟨a, rfl, h⟩

theorem validate_first {H : Type} {n g : Nat} {s : H} {i : GroupInstr H} (h : GroupBy.validate n i = .ok (g, s)) :
    i.groupingCols = [g] ∧ i.supportCols[0]? = some s := by
  unfold GroupBy.validate at h
  by_cases h1 : 1 < i.groupingCols.length
  · rw [if_pos h1] at h; cases h
  rw [if_neg h1] at h
  obtain ⟨g', hg, h⟩ := res_bind_inv h
  by_cases h2 : n ≤ g'
  · rw [if_pos h2] at h; cases h
  rw [if_neg h2] at h
  by_cases h3 : (i.aggs.any fun e => decide (n ≤ e.1)) = true
  · rw [if_pos h3] at h; cases h
  rw [if_neg h3] at h
  obtain ⟨s', hs, h⟩ := res_bind_inv h
  injection h with h
  injection h with e1 e2
  subst e1; subst e2
  have hg' := idx_get hg
  refine ⟨?_, idx_get hs⟩
  rcases hc : i.groupingCols with _ | ⟨x, _ | ⟨y, r⟩⟩
  · rw [hc] at hg'; cases hg'
  · rw [hc] at hg'; injection hg' with e; rw [e]
  · rw [hc] at h1; simp at h1

theorem groupBy_own {E : Env F C} {inp : TableRef} {i : GroupInstr PolyRef} {range : BagRef} {t : TableRef} {heap heap' : PHeap F C}
    (h : Mem.GroupBy.proveWithAdvice E k inp i range heap = (.ok t, heap')) :
    (∃ g c, i.groupingCols = [g] ∧ inp.colVals[g]? = some c ∧ c.tracker = k) ∧ inp.selector.tracker = k ∧ (∃ s, i.supportCols[0]? = some s ∧ s.tracker = k) ∧
    i.supportSel.tracker = k ∧ i.supportMult.tracker = k ∧ range.poly.tracker = k ∧
    ∀ c p, (c, AggType.sum, p) ∈ i.aggs → p.tracker = k ∧ ∃ x, inp.colVals[c]? = some x ∧ x.tracker = k := by
  unfold Mem.GroupBy.proveWithAdvice at h
  obtain ⟨⟨g, s⟩, _, hv, h⟩ := Act.bind_eq_ok.1 h
  obtain ⟨c, _, hc, h⟩ := Act.bind_eq_ok.1 h
  obtain ⟨_, _, hp, h⟩ := Act.bind_eq_ok.1 h
  obtain ⟨_, _, hg, h⟩ := Act.bind_eq_ok.1 h
  obtain ⟨_, _, hs, h⟩ := Act.bind_eq_ok.1 h
  obtain ⟨_, _, _, h⟩ := Act.bind_eq_ok.1 h
  obtain ⟨_, _, ha, h⟩ := Act.bind_eq_ok.1 h
  have e := suppWith_own hs
  rw [bagNew_ok hp, bagNew_ok hg] at e
  have ev := validate_first (lift_ok hv).1
  refine ⟨⟨g, c, ev.1, idx_get (lift_ok hc).1, e.1.1⟩, e.1.2, ⟨s, ev.2, e.2.1.1⟩, e.2.1.2, e.2.2.1, e.2.2.2, aggs_own ha⟩

theorem vgroupBy_own {E : Env F C} {inp : TableCommRef} {i : GroupInstr CommRef} {range : BagCommRef} {t : TableCommRef} {mem mem' : VMem F C B}
    (h : Mem.GroupBy.verifyWithAdvice E k inp i range mem = (.ok t, mem')) :
    (∃ g c, i.groupingCols = [g] ∧ inp.colVals[g]? = some c ∧ c.tracker = k) ∧ inp.selector.tracker = k ∧ (∃ s, i.supportCols[0]? = some s ∧ s.tracker = k) ∧
    i.supportSel.tracker = k ∧ i.supportMult.tracker = k ∧ range.poly.tracker = k ∧
    ∀ c p, (c, AggType.sum, p) ∈ i.aggs → p.tracker = k ∧ ∃ x, inp.colVals[c]? = some x ∧ x.tracker = k := by
  unfold Mem.GroupBy.verifyWithAdvice at h
  obtain ⟨⟨g, s⟩, _, hv, h⟩ := Act.bind_eq_ok.1 h
  obtain ⟨c, _, hc, h⟩ := Act.bind_eq_ok.1 h
  obtain ⟨_, _, hs, h⟩ := Act.bind_eq_ok.1 h
  obtain ⟨_, _, ha, h⟩ := Act.bind_eq_ok.1 h
  have e := vsuppWith_own hs
  have ev := validate_first (lift_ok hv).1
  refine ⟨⟨g, c, ev.1, idx_get (lift_ok hc).1, e.1.1⟩, e.1.2, ⟨s, ev.2, e.2.1.1⟩, e.2.1.2, e.2.2.1, e.2.2.2, vaggs_own ha⟩

theorem incFronts_ok {n : Nat} : ∀ {cols res : List PolyRef} {heap heap' : PHeap F C},
    Mem.CrossProduct.incFronts n cols heap = (.ok res, heap') → res.map (·.tracker) = cols.map (·.tracker)
  | [], _, _, _, h => by injection h with h; injection h with h; subst h; rfl
  | _ :: _, _, _, _, h => by
    unfold Mem.CrossProduct.incFronts at h
    obtain ⟨_, _, h0, h⟩ := Act.bind_eq_ok.1 h
    obtain ⟨_, _, h1, h⟩ := Act.bind_eq_ok.1 h
    injection h with h; injection h with h; subst h
    rw [List.map_cons, List.map_cons, incFronts_ok h1, of_ok h0]

theorem incBacks_ok {n : Nat} : ∀ {cols res : List PolyRef} {heap heap' : PHeap F C},
    Mem.CrossProduct.incBacks n cols heap = (.ok res, heap') → res.map (·.tracker) = cols.map (·.tracker)
  | [], _, _, _, h => by injection h with h; injection h with h; subst h; rfl
  | _ :: _, _, _, _, h => by
    unfold Mem.CrossProduct.incBacks at h
    obtain ⟨_, _, h0, h⟩ := Act.bind_eq_ok.1 h
    obtain ⟨_, _, h1, h⟩ := Act.bind_eq_ok.1 h
    injection h with h; injection h with h; subst h
    rw [List.map_cons, List.map_cons, incBacks_ok h1, of_ok h0]

theorem vincFronts_ok {n : Nat} : ∀ {cols res : List CommRef} {mem mem' : VMem F C B},
    Mem.CrossProduct.vIncFronts n cols mem = (.ok res, mem') → res.map (·.tracker) = cols.map (·.tracker)
  | [], _, _, _, h => by injection h with h; injection h with h; subst h; rfl
  | _ :: _, _, _, _, h => by
    unfold Mem.CrossProduct.vIncFronts at h
    obtain ⟨_, _, h0, h⟩ := Act.bind_eq_ok.1 h
    obtain ⟨_, _, h1, h⟩ := Act.bind_eq_ok.1 h
    injection h with h; injection h with h; subst h
    rw [List.map_cons, List.map_cons, vincFronts_ok h1, vof_ok h0]

theorem vincBacks_ok {n : Nat} : ∀ {cols res : List CommRef} {mem mem' : VMem F C B},
    Mem.CrossProduct.vIncBacks n cols mem = (.ok res, mem') → res.map (·.tracker) = cols.map (·.tracker)
  | [], _, _, _, h => by injection h with h; injection h with h; subst h; rfl
  | _ :: _, _, _, _, h => by
    unfold Mem.CrossProduct.vIncBacks at h
    obtain ⟨_, _, h0, h⟩ := Act.bind_eq_ok.1 h
    obtain ⟨_, _, h1, h⟩ := Act.bind_eq_ok.1 h
    injection h with h; injection h with h; subst h
    rw [List.map_cons, List.map_cons, vincBacks_ok h1, vof_ok h0]

theorem crossProduct_own {E : Env F C} {a b t : TableRef} {heap heap' : PHeap F C} (h : Mem.CrossProduct.prover E a b heap = (.ok t, heap')) :
    a.selector.tracker = b.selector.tracker ∧ t.selector.tracker = a.selector.tracker ∧
    t.colVals.map (·.tracker) = a.colVals.map (·.tracker) ++ b.colVals.map (·.tracker) ∧
    (E.debug = true → a.Of a.selector.tracker ∧ b.Of a.selector.tracker ∧ t.Of a.selector.tracker) := by
  unfold Mem.CrossProduct.prover at h
  obtain ⟨as, _, h1, h⟩ := Act.bind_eq_ok.1 h
  obtain ⟨bs, _, h2, h⟩ := Act.bind_eq_ok.1 h
  obtain ⟨_, _, h3, h⟩ := Act.bind_eq_ok.1 h
  obtain ⟨_, _, h4, h⟩ := Act.bind_eq_ok.1 h
  obtain ⟨_, _, h5, h⟩ := Act.bind_eq_ok.1 h
  have e3 := of_ok h3
  have e4 := of_ok h4
  have e5 := mul_ok h5
  have e := tableRefNew_ok h
  have hs : a.selector.tracker = b.selector.tracker := by rw [← e3, e5.1, e4]
  have m1 := incFronts_ok h1
  have m2 := incBacks_ok h2
  subst e
  refine ⟨hs, e5.2.trans e3, by rw [List.map_append, m1, m2], fun hd => ?_⟩
  rw [hd] at h
  have hc : ∀ c ∈ as ++ bs, c.tracker = a.selector.tracker := fun c hc => (tableNew_debug h c hc).trans (e5.2.trans e3)
  refine ⟨⟨fun c hc' => ?_, rfl⟩, ⟨fun c hc' => ?_, hs.symm⟩, hc, e5.2.trans e3⟩
  · have : c.tracker ∈ as.map (·.tracker) := by rw [m1]; exact List.mem_map_of_mem hc'
    obtain ⟨x, hx, e⟩ := List.mem_map.1 this
    rw [← e]; exact hc x (List.mem_append_left _ hx)
  · have : c.tracker ∈ bs.map (·.tracker) := by rw [m2]; exact List.mem_map_of_mem hc'
    obtain ⟨x, hx, e⟩ := List.mem_map.1 this
    rw [← e]; exact hc x (List.mem_append_right _ hx)

theorem vcrossProduct_own {a b t : TableCommRef} {mem mem' : VMem F C B} (h : Mem.CrossProduct.verifier a b mem = (.ok t, mem')) :
    a.selector.tracker = b.selector.tracker ∧ t.selector.tracker = a.selector.tracker ∧
    t.colVals.map (·.tracker) = a.colVals.map (·.tracker) ++ b.colVals.map (·.tracker) := by
  unfold Mem.CrossProduct.verifier at h
  obtain ⟨as, _, h1, h⟩ := Act.bind_eq_ok.1 h
  obtain ⟨bs, _, h2, h⟩ := Act.bind_eq_ok.1 h
  obtain ⟨_, _, h3, h⟩ := Act.bind_eq_ok.1 h
  obtain ⟨_, _, h4, h⟩ := Act.bind_eq_ok.1 h
  obtain ⟨_, _, h5, h⟩ := Act.bind_eq_ok.1 h
  injection h with h; injection h with h; subst h
  have e3 := vof_ok h3
  have e4 := vof_ok h4
  have e5 := vmul_ok h5
  exact ⟨by rw [← e3, e5.1, e4], e5.2.trans e3, by rw [List.map_append, vincFronts_ok h1, vincBacks_ok h2]⟩

end Zksql
