import Verif.Lemmas.BuildsProtocols
/-! The prover's side of the set operations and of the checks on tables in the two builds. -/
set_option linter.unusedSectionVars false
set_option maxHeartbeats 1000000
namespace Zksql
open Spec PTracker
variable {F C : Type} [Field F] [DecidableEq F] {g : Nat → Nat} (E : Env F C)

theorem built_suppWith {a b r : Bag} {m : TPoly} (ha : FitB g a) (hb : FitB g b) (hm : FitP g m) (hr : FitB g r) :
    Built g (commR E.commit) (fun _ => True) (Supp.proveWithAdvice (built true E) a b m r) (Supp.proveWithAdvice (built false E) a b m r) := by
  unfold Supp.proveWithAdvice; built
macro_rules | `(tactic| built_call) => `(tactic| with_reducible (refine built_suppWith _ ?_ ?_ ?_ ?_ <;> fit))
theorem built_supp {a b r : Bag} (ha : FitB g a) (hb : FitB g b) (hr : FitB g r) :
    Built g (commR E.commit) (fun _ => True) (Supp.prove (built true E) a b r) (Supp.prove (built false E) a b r) := by
  unfold Supp.prove; built
theorem built_bagCount {R : Mle F → C → Prop} {a : Bag} (ha : FitB g a) :
    Built g R (fun _ => True) (Disjoint.bagCount (C := C) a) (Disjoint.bagCount a) := by
  unfold Disjoint.bagCount
  built
  exact (Built.lift _).mono fun _ _ => trivial
macro_rules | `(tactic| built_call) => `(tactic| with_reducible first | (refine built_supp _ ?_ ?_ ?_ <;> fit) | (refine built_bagCount ?_; fit))

theorem disjointVecs_built (d : Bool) (n : Nat) (a b : List (F × Nat)) : Disjoint.adviceVecs (built d E) n a b = Disjoint.adviceVecs E n a b := rfl
theorem sortedPairs_built (d : Bool) (a b : List F) : SetDisjoint.sortedPairs (built d E) a b = SetDisjoint.sortedPairs E a b := rfl

theorem built_disjointAdvice {R : Mle F → C → Prop} {a b : Bag} (ha : FitB g a) (hb : FitB g b) :
    Built g R (fun v => v.1.WF ∧ v.2.1.WF ∧ v.2.2.1.WF ∧ v.2.2.2.WF) (Disjoint.advice (built true E) a b) (Disjoint.advice (built false E) a b) := by
  unfold Disjoint.advice
  simp only [disjointVecs_built]
  built
  rename_i h1 _ h2 _ h3 _ h4
  exact .pure ⟨wf_fromEvals h1, wf_fromEvals h2, wf_fromEvals h3, wf_fromEvals h4⟩
theorem built_disjointWith {a b c r : Bag} {m n : TPoly} (ha : FitB g a) (hb : FitB g b) (hc : FitB g c) (hm : FitP g m) (hn : FitP g n) (hr : FitB g r) :
    Built g (commR E.commit) (fun _ => True) (Disjoint.proveWithAdvice (built true E) a b c m n r) (Disjoint.proveWithAdvice (built false E) a b c m n r) := by
  unfold Disjoint.proveWithAdvice; built
theorem and_l {p q : Prop} (h : p ∧ q) : p := h.1
theorem and_rl {p q r : Prop} (h : p ∧ q ∧ r) : q := h.2.1
theorem and_rrl {p q r s : Prop} (h : p ∧ q ∧ r ∧ s) : r := h.2.2.1
theorem and_rrr {p q r s : Prop} (h : p ∧ q ∧ r ∧ s) : s := h.2.2.2
theorem built_disjoint {a b r : Bag} (ha : FitB g a) (hb : FitB g b) (hr : FitB g r) :
    Built g (commR E.commit) (fun _ => True) (Disjoint.prove (built true E) a b r) (Disjoint.prove (built false E) a b r) := by
  unfold Disjoint.prove
  refine Built.bind (built_disjointAdvice E ha hb) (fun _ => by fast_goes) fun v hv => ?_
  obtain ⟨h1, h2, h3, h4⟩ := hv
  refine Built.bind (built_trackAndCommit h1) (fun _ => by fast_goes) fun p hp => ?_
  refine Built.bind (built_trackAndCommit h2) (fun _ => by fast_goes) fun s hs => ?_
  refine Built.bind (built_bagNew hp hs) (fun _ => by fast_goes) fun c hc => ?_
  refine Built.bind (built_trackAndCommit h3) (fun _ => by fast_goes) fun p hp => ?_
  refine Built.bind (built_trackAndCommit h4) (fun _ => by fast_goes) fun s hs => ?_
  exact built_disjointWith E ha hb hc hp hs hr
theorem built_setDisjoint {a b r : Bag} (ha : FitB g a) (hb : FitB g b) (hr : FitB g r) :
    Built g (commR E.commit) (fun _ => True) (SetDisjoint.prove (built true E) a b r) (SetDisjoint.prove (built false E) a b r) := by
  unfold SetDisjoint.prove
  simp only [sortedPairs_built]
  built
macro_rules | `(tactic| built_call) => `(tactic| with_reducible first | (refine built_disjoint _ ?_ ?_ ?_ <;> fit) | (refine built_setDisjoint _ ?_ ?_ ?_ <;> fit))
theorem built_setDiff {a b l m r : Bag} {bm : TPoly} (ha : FitB g a) (hb : FitB g b) (hl : FitB g l) (hm : FitB g m) (hbm : FitP g bm) (hr : FitB g r) :
    Built g (commR E.commit) (fun _ => True) (SetDiff.prove (built true E) a b l m bm r) (SetDiff.prove (built false E) a b l m bm r) := by
  unfold SetDiff.prove; built
theorem built_setUnion {a b u r : Bag} (ha : FitB g a) (hb : FitB g b) (hu : FitB g u) (hr : FitB g r) :
    Built g (commR E.commit) (fun _ => True) (SetUnion.prove (built true E) a b u r) (SetUnion.prove (built false E) a b u r) := by
  unfold SetUnion.prove; dsimp only; built
theorem built_setIntersect {a b l m r x : Bag} (ha : FitB g a) (hb : FitB g b) (hl : FitB g l) (hm : FitB g m) (hr : FitB g r) (hx : FitB g x) :
    Built g (commR E.commit) (fun _ => True) (SetIntersect.prove (built true E) a b l m r x) (SetIntersect.prove (built false E) a b l m r x) := by
  unfold SetIntersect.prove; built
theorem built_joinReduction {a b x : Bag} {l r : TPoly} (ha : FitB g a) (hb : FitB g b) (hl : FitP g l) (hr : FitP g r) (hx : FitB g x) :
    Built g (commR E.commit) (fun _ => True) (JoinReduction.prove (built true E) a b l r x) (JoinReduction.prove (built false E) a b l r x) := by
  unfold JoinReduction.prove; built

theorem built_powers {R : Mle F → C → Prop} (n : Nat) :
    Built g R (fun _ => True) (IndexTransform.proverPowers (built true E) n) (IndexTransform.proverPowers (built false E) n) := by
  unfold IndexTransform.proverPowers; built
theorem built_aggLoop {R : Mle F → C → Prop} : ∀ (acc : TPoly) (cs : List TPoly) (rs : List F), FitP g acc → FitL g cs →
    Built g R (FitP g) (IndexTransform.proverAggLoop (C := C) acc cs rs) (IndexTransform.proverAggLoop acc cs rs)
  | _, [], _, h, _ => .pure h
  | _, _ :: _, [], _, _ => .fails _ _
  | _, _ :: cs, _ :: rs, h, hc => Built.bind (built_mulScalar (hc _ List.mem_cons_self)) (fun _ => by fast_goes) fun _ hx =>
      Built.bind (built_mul h hx) (fun _ => by fast_goes) fun _ hy => built_aggLoop _ cs rs hy fun a ha => hc a (List.mem_cons_of_mem _ ha)
theorem built_agg {R : Mle F → C → Prop} {t : Table} {l : List F} (ht : FitT g t) :
    Built g R (FitB g) (IndexTransform.proverAgg (built true E) t l) (IndexTransform.proverAgg (built false E) t l) := by
  unfold IndexTransform.proverAgg
  exact Built.bind (built_aggLoop _ _ _ ht.2 ht.1) (fun _ => by fast_goes) fun _ h => built_bagNew h ht.2
macro_rules | `(tactic| built_call) => `(tactic| with_reducible first | exact built_powers _ _ | (refine built_agg _ ?_; fit))
theorem built_indexTransform {a b : Table} (ha : FitT g a) (hb : FitT g b) :
    Built g (commR E.commit) (fun _ => True) (IndexTransform.prove (built true E) a b) (IndexTransform.prove (built false E) a b) := by
  unfold IndexTransform.prove; built
theorem built_transform {R : Mle F → C → Prop} {a b : Table} {i j : Nat} (ha : FitT g a) (hb : FitT g b) :
    Built g R (fun _ => True) (FinalJoin.transform (C := C) a b i j) (FinalJoin.transform a b i j) := by
  unfold FinalJoin.transform
  refine Built.bind (Built.lift _) (fun _ => by fast_goes) fun ca hca => ?_
  refine Built.bind (built_evaluations (fit_idx hca ha.1)) (fun _ => by fast_goes) fun _ _ => ?_
  refine Built.bind (built_evaluations ha.2) (fun _ => by fast_goes) fun _ _ => ?_
  refine Built.bind (Built.lift _) (fun _ => by fast_goes) fun _ _ => ?_
  refine Built.bind (Built.lift _) (fun _ => by fast_goes) fun cb hcb => ?_
  refine Built.bind (built_evaluations (fit_idx hcb hb.1)) (fun _ => by fast_goes) fun _ _ => ?_
  refine Built.bind (built_evaluations hb.2) (fun _ => by fast_goes) fun _ _ => ?_
  exact (Built.lift _).mono fun _ _ => trivial
theorem built_applyTransform {R : Mle F → C → Prop} {ks : List Nat} {o a : TPoly} (ho : FitP g o) (ha : FitP g a) :
    Built g R Mle.WF (FinalJoin.applyTransform (built true E) ks o a) (FinalJoin.applyTransform (built false E) ks o a) := by
  unfold FinalJoin.applyTransform
  refine Built.bind (built_evaluations ho) (fun _ => by fast_goes) fun _ _ => Built.bind (built_evaluations ha) (fun _ => by fast_goes) fun _ _ =>
    Built.bind (Built.assert fun _ h => by cases h) (fun _ => by fast_goes) fun _ _ => Built.bind (Built.lift _) (fun _ => by fast_goes) fun _ _ => (Built.lift _).mono fun _ => wf_fromEvals
theorem built_applyAll {R : Mle F → C → Prop} {ks : List Nat} {a : TPoly} (ha : FitP g a) : ∀ l : List TPoly, FitL g l →
    Built g R (fun r => (∀ p ∈ r, p.WF) ∧ r.length = l.length) (FinalJoin.applyAll (built true E) ks a l) (FinalJoin.applyAll (built false E) ks a l)
  | [], _ => .pure ⟨fun _ h => absurd h List.not_mem_nil, rfl⟩
  | c :: r, h => Built.bind (built_applyTransform E (h c List.mem_cons_self) ha) (fun _ => Goes.bind (applyAll_goes _ _ _ _) fun _ => .pure _) fun m hm =>
      Built.bind (built_applyAll ha r fun a ha => h a (List.mem_cons_of_mem _ ha)) (fun _ => .pure _) fun ms hms =>
        .pure ⟨fun p hp => (List.mem_cons.1 hp).elim (fun e => e ▸ hm) fun hp => hms.1 p hp, congrArg (· + 1) hms.2⟩
theorem built_commitAll : ∀ l : List (Mle F), (∀ p ∈ l, p.WF) →
    Built g (commR E.commit) (fun r => FitL g r ∧ r.length = l.length) (FinalJoin.commitAll (built true E) l) (FinalJoin.commitAll (built false E) l)
  | [], _ => .pure ⟨fit_nil, rfl⟩
  | c :: r, h => Built.bind (built_trackAndCommit (h c List.mem_cons_self)) (fun _ => Goes.bind (commitAll_goes _ _) fun _ => .pure _) fun m hm =>
      Built.bind (built_commitAll r fun a ha => h a (List.mem_cons_of_mem _ ha)) (fun _ => .pure _) fun ms hms =>
        .pure ⟨fit_cons hm hms.1, congrArg (· + 1) hms.2⟩
theorem built_debugKeys {R : Mle F → C → Prop} {a : Table} {i : Nat} (ha : FitT g a) :
    Built g R (fun _ => True) (FinalJoin.debugKeys (built true E) a i) (FinalJoin.debugKeys (built false E) a i) := by
  unfold FinalJoin.debugKeys
  rw [if_pos rfl, if_neg Bool.false_ne_true]
  rcases e : idx a.colVals i with er | c
  · exact ⟨by fast_goes, fun t t' x u he h => by cases h⟩
  · refine built_read (fit_idx e ha.1) fun l => ?_
    by_cases h : l.Nodup
    · exact .inl (if_pos h)
    · exact .inr ⟨_, if_neg h⟩
theorem built_joinWith {a b : Table} {i j : Nat} {l : List TPoly} (ha : FitT g a) (hb : FitT g b) (hl : FitL g l) :
    Built g (commR E.commit) (fun x => FitL g x.colVals ∧ a.colVals.length ≤ x.colVals.length)
      (FinalJoin.proveWithAdvice (built true E) a b i j l) (FinalJoin.proveWithAdvice (built false E) a b i j l) := by
  unfold FinalJoin.proveWithAdvice
  refine Built.bind (built_debugKeys E ha) (fun _ => by fast_goes) fun _ _ => ?_
  refine Built.bind (built_tableNew (fit_append hl hb.1) hb.2) (fun _ => by fast_goes) fun x hx => ?_
  refine Built.bind (Built.lift _) (fun _ => by fast_goes) fun cols hc => ?_
  refine Built.bind (built_tableNew (fit_prefix hc hx.1.1) hx.1.2) (fun _ => by fast_goes) fun y hy => ?_
  refine Built.bind (built_indexTransform E ha hy.1) (fun _ => by fast_goes) fun _ _ => ?_
  refine Built.bind (Built.lift _) (fun _ => by fast_goes) fun ja hja => ?_
  refine Built.bind (Built.lift _) (fun _ => by fast_goes) fun jb hjb => ?_
  refine Built.bind (built_sub (fit_idx hja hx.1.1) (fit_idx hjb hx.1.1)) (fun _ => by fast_goes) fun d hd => ?_
  refine Built.bind (built_mul hd hx.1.2) (fun _ => by fast_goes) fun c hc' => ?_
  refine Built.bind built_addZeroClaim (fun _ => by fast_goes) fun _ _ => ?_
  refine .pure ⟨hx.1.1, ?_⟩
  unfold FinalJoin.prefixOf at hc
  split at hc
  · cases hc
  · rename_i h; omega
theorem built_join {a b : Table} {i j : Nat} (ha : FitT g a) (hb : FitT g b) :
    Built g (commR E.commit) (fun x => FitL g x.colVals ∧ a.colVals.length ≤ x.colVals.length)
      (FinalJoin.prove (built true E) a b i j) (FinalJoin.prove (built false E) a b i j) := by
  unfold FinalJoin.prove
  refine Built.bind (built_transform ha hb) (fun _ => by fast_goes) fun _ _ => ?_
  refine Built.bind (built_applyAll E hb.2 _ ha.1) (fun _ => by fast_goes) fun _ h1 => ?_
  refine Built.bind (built_commitAll E _ h1.1) (fun _ => by fast_goes) fun _ h2 => ?_
  exact built_joinWith E ha hb h2.1

theorem built_aggs {inp : Table} {pre grp : Bag} {m : TPoly} (hi : FitT g inp) (hp : FitB g pre) (hg : FitB g grp) : ∀ (l : List (Nat × AggType × TPoly)) (cols : List TPoly),
    (∀ e ∈ l, FitP g e.2.2) →
    Built g (commR E.commit) (fun _ => True) (GroupBy.proveAggs (built true E) inp pre grp m l cols) (GroupBy.proveAggs (built false E) inp pre grp m l cols)
  | [], _, _ => .pure trivial
  | (_, .count, _) :: r, cols, h => by unfold GroupBy.proveAggs; exact built_aggs hi hp hg r _ fun e he => h e (List.mem_cons_of_mem _ he)
  | (_, .sum, _) :: r, cols, h => by
    unfold GroupBy.proveAggs
    have hx := h _ List.mem_cons_self
    refine Built.bind (Built.lift _) (fun _ => by fast_goes) fun _ h1 => Built.bind (built_multitool E ?_ ?_ ?_ ?_) (fun _ => by fast_goes) fun _ _ =>
      built_aggs hi hp hg r _ fun e he => h e (List.mem_cons_of_mem _ he)
    · fit
    · fit
    · exact fit_cons (fit_idx h1 hi.1) fit_nil
    · exact fit_cons hx fit_nil
  | (_, .avg, _) :: _, _, _ => .fails _ _
  | (_, .min, _) :: _, _, _ => .fails _ _
  | (_, .max, _) :: _, _, _ => .fails _ _
theorem validate_mem {H : Type} {n : Nat} {i : GroupInstr H} {k : Nat} {s : H} (h : GroupBy.validate n i = .ok (k, s)) : s ∈ i.supportCols := by
  unfold GroupBy.validate at h
  split at h
  · cases h
  rcases e1 : idx i.groupingCols 0 with _ | x
  · rw [e1] at h; cases h
  rw [e1] at h
  change (if n ≤ x then _ else if _ then _ else _) = _ at h
  split at h
  · cases h
  split at h
  · cases h
  rcases e2 : idx i.supportCols 0 with _ | y
  · rw [e2] at h; cases h
  rw [e2] at h
  have := Except.ok.inj h
  cases this
  exact List.mem_of_getElem? (idx_inv e2)
theorem built_groupBy {inp : Table} {i : GroupInstr TPoly} {r : Bag} (hi : FitT g inp) (h1 : FitL g i.supportCols) (h2 : FitP g i.supportSel)
    (h3 : FitP g i.supportMult) (h4 : ∀ e ∈ i.aggs, FitP g e.2.2) (hr : FitB g r) :
    Built g (commR E.commit) (fun _ => True) (GroupBy.proveWithAdvice (built true E) inp i r) (GroupBy.proveWithAdvice (built false E) inp i r) := by
  unfold GroupBy.proveWithAdvice
  refine Built.bind (Built.lift _) (fun q => ?_) fun q hq => ?_
  · obtain ⟨k, s⟩ := q
    dsimp only
    fast_goes
  obtain ⟨k, s⟩ := q
  dsimp only
  have hs := h1 _ (validate_mem hq)
  refine Built.bind (Built.lift _) (fun _ => by fast_goes) fun c hc => ?_
  refine Built.bind (built_bagNew (fit_idx hc hi.1) hi.2) (fun _ => by fast_goes) fun pre hpre => ?_
  refine Built.bind (built_bagNew hs h2) (fun _ => by fast_goes) fun grp hgrp => ?_
  refine Built.bind (built_suppWith E hpre hgrp h3 hr) (fun _ => by fast_goes) fun _ _ => ?_
  refine Built.bind (built_tableNew (fit_cons hs fit_nil) h2) (fun _ => by fast_goes) fun res hres => ?_
  exact Built.bind (built_aggs E hi hpre hgrp _ _ h4) (fun _ => .pure _) fun _ _ => .pure trivial

end Zksql
