import Verif.Lemmas.Builds
/-! The prover's side of the protocols in the two builds. -/
set_option linter.unusedSectionVars false
namespace Zksql
open Spec PTracker
variable {F C : Type} [Field F] {g : Nat → Nat}

/-- A bag of handles whose sizes are those of their identifiers. -/
def FitB (g : Nat → Nat) (b : Bag) : Prop := FitP g b.poly ∧ FitP g b.selector
/-- A list of such handles. -/
def FitL (g : Nat → Nat) (l : List TPoly) : Prop := ∀ a ∈ l, FitP g a
/-- A table of such handles. -/
def FitT (g : Nat → Nat) (t : Table) : Prop := FitL g t.colVals ∧ FitP g t.selector
/-- A list of bags of such handles. -/
def FitBs (g : Nat → Nat) (l : List Bag) : Prop := ∀ b ∈ l, FitB g b

theorem fit_poly {b : Bag} (h : FitB g b) : FitP g b.poly := h.1
theorem fit_sel {b : Bag} (h : FitB g b) : FitP g b.selector := h.2
theorem fit_bag {p s : TPoly} (h : FitP g p) (h' : FitP g s) : FitB g ⟨p, s⟩ := ⟨h, h'⟩
theorem fit_cols {t : Table} (h : FitT g t) : FitL g t.colVals := h.1
theorem fit_tsel {t : Table} (h : FitT g t) : FitP g t.selector := h.2
theorem fit_table {l : List TPoly} {s : TPoly} (h : FitL g l) (h' : FitP g s) : FitT g ⟨l, s⟩ := ⟨h, h'⟩
theorem fit_nil : FitL g [] := fun _ h => absurd h List.not_mem_nil
theorem fit_cons {a : TPoly} {l : List TPoly} (h : FitP g a) (h' : FitL g l) : FitL g (a :: l) := fun _ hb =>
  (List.mem_cons.1 hb).elim (fun e => e ▸ h) fun hb => h' _ hb
theorem fit_append {l l' : List TPoly} (h : FitL g l) (h' : FitL g l') : FitL g (l ++ l') := fun _ hb => (List.mem_append.1 hb).elim (h _) (h' _)
theorem fit_idx {l : List TPoly} {i : Nat} {a : TPoly} (h : idx l i = .ok a) (hl : FitL g l) : FitP g a := hl _ (List.mem_of_getElem? (idx_inv h))
theorem fit_prefix {n : Nat} {l l' : List TPoly} (h : FinalJoin.prefixOf n l = .ok l') (hl : FitL g l) : FitL g l' := by
  unfold FinalJoin.prefixOf at h
  split at h
  · cases h
  · obtain rfl := Except.ok.inj h
    exact fun a ha => hl a (List.mem_of_mem_take ha)
theorem fit_bnil : FitBs g [] := fun _ h => absurd h List.not_mem_nil
theorem fit_bcons {a : Bag} {l : List Bag} (h : FitB g a) (h' : FitBs g l) : FitBs g (a :: l) := fun _ hb =>
  (List.mem_cons.1 hb).elim (fun e => e ▸ h) fun hb => h' _ hb
theorem fit_table1 {a : TPoly} {s : TPoly} {t : Table} (h : FitT g t) : FitT g t := h
theorem wf_fromEvals {n : Nat} {l : List F} {p : Mle F} (h : Mle.fromEvals n l = .ok p) : p.WF := by
  unfold Mle.fromEvals at h
  split at h
  · rename_i e
    obtain rfl := Except.ok.inj h
    simpa [Mle.WF] using e
  · cases h
theorem wf_ones (n : Nat) : (onesMle F n).WF := by simp [onesMle, Mle.WF]
theorem wf_ordered (n : Nat) : (PrescPerm.orderedMle F n).WF := by simp [PrescPerm.orderedMle, Mle.WF]

/-- Sizes of handles and tables. -/
macro "fit" : tactic => `(tactic| first
  | trivial
  | solve_by_elim (maxDepth := 8) [fit_poly, fit_sel, fit_bag, fit_cols, fit_tsel, fit_table, fit_nil, fit_cons, fit_append, fit_idx, fit_prefix,
      fit_bnil, fit_bcons, wf_fromEvals, wf_ones, wf_ordered])

syntax "built_call" : tactic
macro_rules | `(tactic| built_call) => `(tactic| fail "no rule")

/-- `goes`, trying to split the call first. -/
macro "fast_goes" : tactic => `(tactic| repeat (first
  | with_reducible refine Goes.bind ?_ fun _ => ?_
  | with_reducible exact Goes.pure _ | with_reducible exact Goes.lift _ | with_reducible exact Goes.assert _
  | goes_call
  | with_reducible refine Goes.ite ?_ ?_))

/-- All steps of a call. -/
macro "built" : tactic => `(tactic| repeat (first
  | ((with_reducible apply Built.bind); (on_goal 1 => (first | with_reducible exact Built.lift _ | built_call)); (on_goal 1 => exact fun _ => by fast_goes); intro _ _)
  | with_reducible exact Built.fails _ _
  | with_reducible exact Built.lift _
  | (with_reducible refine Built.pure ?_; fit)
  | (with_reducible refine Built.ite (fun _ => ?_) (fun _ => ?_))
  | built_call))

macro_rules | `(tactic| built_call) => `(tactic| with_reducible first
  | (refine built_trackMat ?_; fit) | (refine built_trackAndCommit ?_; fit) | (refine built_add ?_ ?_ <;> fit) | (refine built_sub ?_ ?_ <;> fit)
  | (refine built_mul ?_ ?_ <;> fit) | (refine built_addScalar ?_; fit) | (refine built_mulScalar ?_; fit) | (refine built_incFront ?_; fit)
  | (refine built_incBack ?_; fit) | (refine built_evaluations ?_; fit) | exact built_challenge | exact built_addSumClaim | exact built_addZeroClaim)

section
variable {R : Mle F → C → Prop}
theorem built_bagNew {p s : TPoly} (hp : FitP g p) (hs : FitP g s) : Built g R (FitB g) (Bag.new true p s) (Bag.new false p s) := by
  unfold Bag.new
  exact Built.bind (Built.assert fun _ h => by cases h) (fun _ => .pure _) fun _ _ => .pure ⟨hp, hs⟩
theorem built_tableNew {l : List TPoly} {s : TPoly} (hp : FitL g l) (hs : FitP g s) :
    Built g R (fun t => FitT g t ∧ t.colVals = l) (Table.new true l s) (Table.new false l s) := by
  unfold Table.new
  exact Built.bind (Built.assert fun _ h => by cases h) (fun _ => .pure _) fun _ _ => .pure ⟨⟨hp, hs⟩, rfl⟩
end
theorem fit_and {p q : Prop} (h : p ∧ q) : p := h.1
macro_rules | `(tactic| built_call) => `(tactic| with_reducible first | (refine built_bagNew ?_ ?_ <;> fit) | (refine Built.mono (built_tableNew ?_ ?_) (fun _ => fit_and) <;> fit))

variable (E : Env F C)

theorem built_proveSub {b : Bag} {m : TPoly} {γ : F} (hb : FitB g b) (hm : FitP g m) :
    Built g (commR E.commit) (fun _ => True) (Multitool.proveSub (built true E) b m γ) (Multitool.proveSub (built false E) b m γ) := by
  unfold Multitool.proveSub
  dsimp only
  built
theorem built_proveSubs {γ : F} : ∀ l : List (Bag × TPoly), (∀ e ∈ l, FitB g e.1 ∧ FitP g e.2) →
    Built g (commR E.commit) (fun _ => True) (Multitool.proveSubs (built true E) γ l) (Multitool.proveSubs (built false E) γ l)
  | [], _ => .pure trivial
  | (b, m) :: r, h => Built.bind (built_proveSub E (h _ List.mem_cons_self).1 (h _ List.mem_cons_self).2) (fun _ => proveSubs_goes _ _ _) fun _ _ =>
      built_proveSubs r fun e he => h e (List.mem_cons_of_mem _ he)

theorem fit_zip {l : List Bag} {l' : List TPoly} (h : FitBs g l) (h' : FitL g l') : ∀ e ∈ l.zip l', FitB g e.1 ∧ FitP g e.2 := fun e he =>
  ⟨h _ (List.of_mem_zip he).1, h' _ (List.of_mem_zip he).2⟩

theorem built_multitool {fxs gxs : List Bag} {mf mg : List TPoly} (h1 : FitBs g fxs) (h2 : FitBs g gxs) (h3 : FitL g mf) (h4 : FitL g mg) :
    Built g (commR E.commit) (fun _ => True) (Multitool.prove (built true E) fxs gxs mf mg) (Multitool.prove (built false E) fxs gxs mf mg) := by
  unfold Multitool.prove
  refine Built.ite (fun _ => .fails _ _) fun _ => Built.ite (fun _ => .fails _ _) fun _ => ?_
  exact Built.bind built_challenge (fun _ => by goes) fun _ _ => Built.bind (built_proveSubs E _ (fit_zip h1 h3)) (fun _ => by goes) fun _ _ =>
    built_proveSubs E _ (fit_zip h2 h4)
macro_rules | `(tactic| built_call) => `(tactic| with_reducible (refine built_multitool _ ?_ ?_ ?_ ?_ <;> fit))

theorem built_bagEq {a b : Bag} (ha : FitB g a) (hb : FitB g b) :
    Built g (commR E.commit) (fun _ => True) (BagEq.prove (built true E) a b) (BagEq.prove (built false E) a b) := by
  unfold BagEq.prove; built
theorem built_bagSum {a b c : Bag} (ha : FitB g a) (hb : FitB g b) (hc : FitB g c) :
    Built g (commR E.commit) (fun _ => True) (BagSum.prove (built true E) a b c) (BagSum.prove (built false E) a b c) := by
  unfold BagSum.prove; built
theorem built_noZeros {a : Bag} (ha : FitB g a) :
    Built g (commR E.commit) (fun _ => True) (NoZeros.prove (built true E) a) (NoZeros.prove (built false E) a) := by
  unfold NoZeros.prove; built
theorem built_selector {R : Mle F → C → Prop} {a : TPoly} (ha : FitP g a) :
    Built g R (fun _ => True) (SelectorValid.prove a) (SelectorValid.prove a) := by
  unfold SelectorValid.prove; built
macro_rules | `(tactic| built_call) => `(tactic| with_reducible first
  | (refine built_bagEq _ ?_ ?_ <;> fit) | (refine built_bagSum _ ?_ ?_ ?_ <;> fit) | (refine built_noZeros _ ?_ <;> fit) | (refine built_selector ?_ <;> fit))

variable [DecidableEq F]

theorem wf_adviceMle {a b c d p : Mle F} (h : Inclusion.adviceMle a b c d = .ok p) : p.WF := by
  unfold Inclusion.adviceMle at h
  rcases e1 : multCount a.evals b.evals [] with _ | m
  · rw [e1] at h; cases h
  rw [e1] at h
  change (Inclusion.adviceLoop c.evals d.evals m >>= fun l => Mle.fromEvals c.numVars l) = .ok p at h
  rcases e2 : Inclusion.adviceLoop c.evals d.evals m with _ | l
  · rw [e2] at h; cases h
  rw [e2] at h
  exact wf_fromEvals h
theorem built_incAdvice {R : Mle F → C → Prop} {a b : Bag} (ha : FitB g a) (hb : FitB g b) :
    Built g R Mle.WF (Inclusion.advice (C := C) a b) (Inclusion.advice a b) := by
  unfold Inclusion.advice
  built
  exact (Built.lift _).mono fun _ => wf_adviceMle
theorem built_inclusionWith {a b : Bag} {m : TPoly} (ha : FitB g a) (hb : FitB g b) (hm : FitP g m) :
    Built g (commR E.commit) (fun _ => True) (Inclusion.proveWithAdvice (built true E) a b m) (Inclusion.proveWithAdvice (built false E) a b m) := by
  unfold Inclusion.proveWithAdvice; built
macro_rules | `(tactic| built_call) => `(tactic| with_reducible first
  | (refine built_incAdvice ?_ ?_ <;> fit) | (refine built_inclusionWith _ ?_ ?_ ?_ <;> fit))
theorem built_inclusion {a b : Bag} (ha : FitB g a) (hb : FitB g b) :
    Built g (commR E.commit) (fun _ => True) (Inclusion.prove (built true E) a b) (Inclusion.prove (built false E) a b) := by
  unfold Inclusion.prove; built
set_option maxHeartbeats 2000000 in
theorem built_permutation {a b : Bag} {p : TPoly} (ha : FitB g a) (hb : FitB g b) (hp : FitP g p) :
    Built g (commR E.commit) (fun _ => True) (PrescPerm.prove (built true E) a b p) (PrescPerm.prove (built false E) a b p) := by
  unfold PrescPerm.prove; dsimp only; built
theorem built_debugDiff {R : Mle F → C → Prop} {a : TPoly} {l l' : List F} (ha : FitP g a) :
    Built g R (fun _ => True) (StrictSort.debugDiff true a l) (StrictSort.debugDiff false a l') := by
  unfold StrictSort.debugDiff
  rw [if_pos rfl, if_neg (by decide)]
  refine built_read ha fun e => ?_
  by_cases h : e = l
  · exact .inl (funext fun _ => if_pos h)
  · exact .inr ⟨.panic, funext fun _ => if_neg h⟩
macro_rules | `(tactic| built_call) => `(tactic| with_reducible first
  | (refine built_inclusion _ ?_ ?_ <;> fit) | (refine built_permutation _ ?_ ?_ ?_ <;> fit) | (refine built_debugDiff ?_; fit))
set_option maxHeartbeats 2000000 in
theorem built_sort {a r : Bag} (ha : FitB g a) (hr : FitB g r) :
    Built g (commR E.commit) (fun _ => True) (StrictSort.prove (built true E) a r) (StrictSort.prove (built false E) a r) := by
  unfold StrictSort.prove; dsimp only; built
macro_rules | `(tactic| built_call) => `(tactic| with_reducible (refine built_sort _ ?_ ?_ <;> fit))

end Zksql
