import Verif.Lemmas.Cross
import Verif.Props.TableAdvice
/-!
The cross product of two tables.
-/
set_option linter.unusedSectionVars false
namespace Zksql
open Spec CrossProduct
variable {F C B : Type} [Field F] [DecidableEq F]
variable {E : Env F C} {t : PTracker F C}

/-- What `crossed` says about rows: row `i * 2^nb + j` is row `i` of the first table followed by row `j` of the second, and is active iff both are. -/
theorem C68_rows (A T : TabData F) {i j : Nat} (hi : i < 2 ^ A.nv) (hj : j < 2 ^ T.nv) :
    (crossed A T).row (i * 2 ^ T.nv + j) = A.row i ++ T.row j ∧ ((crossed A T).On (i * 2 ^ T.nv + j) ↔ A.On i ∧ T.On j) ∧
      ∀ r < 2 ^ (crossed A T).nv, ∃ i' < 2 ^ A.nv, ∃ j' < 2 ^ T.nv, r = i' * 2 ^ T.nv + j' := by
  have e1 : (i * 2 ^ T.nv + j) / 2 ^ T.nv = i := by
    rw [Nat.mul_comm, Nat.mul_add_div (by positivity), Nat.div_eq_of_lt hj, Nat.add_zero]
  have e2 : (i * 2 ^ T.nv + j) % 2 ^ T.nv = j := by rw [Nat.mul_comm, Nat.mul_add_mod, Nat.mod_eq_of_lt hj]
  refine ⟨?_, ?_, fun r hr => ⟨r / 2 ^ T.nv, ?_, r % 2 ^ T.nv, Nat.mod_lt _ (by positivity), (Nat.div_add_mod' _ _).symm⟩⟩
  · simp [TabData.row, crossed, Function.comp_def, e1, e2]
  · unfold TabData.On
    have hlt : i * 2 ^ T.nv + j < 2 ^ (crossed A T).nv := by
      show _ < 2 ^ (A.nv + T.nv)
      rw [pow_add]
      calc i * 2 ^ T.nv + j < i * 2 ^ T.nv + 2 ^ T.nv := by omega
        _ = (i + 1) * 2 ^ T.nv := by ring
        _ ≤ _ := Nat.mul_le_mul_right _ hi
    simp only [hlt, hi, hj, true_and]
    show A.sel ((i * 2 ^ T.nv + j) / 2 ^ T.nv) * T.sel ((i * 2 ^ T.nv + j) % 2 ^ T.nv) ≠ 0 ↔ _
    rw [e1, e2, mul_ne_zero_iff]
  · rw [Nat.div_lt_iff_lt_mul (by positivity), ← pow_add]
    exact hr

/-- C68, the prover's part: for tables of any sizes the call succeeds, keeps what the prover has, and returns the cross product. -/
theorem C68_prover {a b : Table} {A T : TabData F} (hr : Ready E.commit t) (ha : HoldsTabP t a A) (hb : HoldsTabP t b T) :
    ∃ r t', CrossProduct.prover E a b t = (.ok r, t') ∧ Ready E.commit t' ∧ (∀ x U, HoldsP t x U → HoldsP t' x U) ∧ HoldsTabP t' r (crossed A T) := by
  obtain ⟨r, t', h1, h2, h3, -, h5, -⟩ := prover_ok hr ha hb
  exact ⟨r, t', h1, h2, h3, h5⟩

/-- C68, prover and verifier in step: from corresponding states the verifier's call succeeds too, returns the same handles, and the states correspond
again. -/
theorem C68_in_step {s : VSt F C B} {a b : Table} {A T : TabData F} (hr : Ready E.commit t) (ha : HoldsTabP t a A) (hb : HoldsTabP t b T) (hw : s.Wf)
    (hts : Together t s) (ka : KnownTab s (sameTab a)) (kb : KnownTab s (sameTab b)) :
    ∃ r t' s', CrossProduct.prover E a b t = (.ok r, t') ∧ CrossProduct.verifier (sameTab a) (sameTab b) s = (.ok (sameTab r), s') ∧ Together t' s' := by
  obtain ⟨r, t', h1, h2, h3, h4, h5, h6, h7⟩ := prover_ok hr ha hb
  obtain ⟨s', g1, g2, -, -⟩ := verifier_run hw ka kb
  refine ⟨r, t', s', h1, ?_, ?_⟩
  · rw [g1]
    simp only [sameTab, List.length_map, h6, h7, hts.counter, Table.numVars, h5.nvSel, ha.nvSel, hb.nvSel, crossed]
  · rw [sameTab, sameTab] at g2
    simp only [List.length_map] at g2
    exact ⟨by rw [g2.cnt, h4.cnt, hts.counter], by rw [g2.own, h4.transcript]; exact hts.transcript, by rw [g2.own, h4.comms]; exact hts.comms,
      by rw [g2.own, h4.sums]; exact hts.sums, by rw [g2.own, h4.zeros]; exact hts.zeros, by rw [g2.own]; exact hts.read⟩

/-- C68 in full for the verifier: the returned table evaluates as the cross product. -/
def C68_statement : Prop :=
  ∀ (F C B : Type) [Field F] [DecidableEq F] (s : VSt F C B) (ans : Nat → List F → Res F) (a b : TableComm) (A T : TabData F), s.Wf →
    EvalsTab s ans a A → EvalsTab s ans b T → ∃ r s', CrossProduct.verifier a b s = (.ok r, s') ∧ EvalsTab s' ans r (crossed A T)

theorem known_of_evals {s : VSt F C B} {ans : Nat → List F → Res F} {nv : Nat} : ∀ {cs : List Nat} {fs : List (Nat → F)}, EvalsCols s ans nv cs fs → ∀ c ∈ cs, Known s c
  | [], [], _, _, hc => by simp at hc
  | _ :: _, _ :: _, h, c, hc => by
    rcases List.mem_cons.1 hc with rfl | hc
    · exact h.1.1
    · exact known_of_evals h.2 c hc

/-- C68 for the verifier when both tables have the same number of variables.  Missing: tables of different sizes (`C68_violated`, `C68_unequal_fails`). -/
theorem C68_verifier_partial {s : VSt F C B} {ans : Nat → List F → Res F} {a b : TableComm} {A T : TabData F} (hw : s.Wf) (ha : EvalsTab s ans a A)
    (hb : EvalsTab s ans b T) (hn : A.nv = T.nv) :
    ∃ r s', CrossProduct.verifier a b s = (.ok r, s') ∧ EvalsTab s' ans r (crossed A T) := by
  obtain ⟨s', h1, -, -, h4⟩ := verifier_run hw ⟨known_of_evals ha.cols, ha.sel.1⟩ ⟨known_of_evals hb.cols, hb.sel.1⟩
  exact ⟨_, s', h1, h4 ans A T hn ha hb⟩

/-- C68 fails whenever the sizes differ: if the second table's selector cannot be evaluated at points with the wrong number of coordinates, the selector of
the verifier's cross product cannot be evaluated anywhere. -/
theorem C68_unequal_fails {s : VSt F C B} {ans : Nat → List F → Res F} {a b : TableComm} {A T : TabData F} (hw : s.Wf) (ha : EvalsTab s ans a A)
    (hb : EvalsTab s ans b T) (hn : A.nv ≠ T.nv)
    (hl : ∀ x : List F, x.length ≠ T.nv → ∃ e, VSt.evalC s.sh.comms ans (b.selector + 1) b.selector x = .error e) :
    ∃ r s', CrossProduct.verifier a b s = (.ok r, s') ∧
      ∀ x : List F, x.length = A.nv + T.nv → ∃ e, VSt.evalC s'.sh.comms ans (r.selector + 1) r.selector x = .error e := by
  obtain ⟨s', h1, -, h3, -⟩ := verifier_run hw ⟨known_of_evals ha.cols, ha.sel.1⟩ ⟨known_of_evals hb.cols, hb.sel.1⟩
  refine ⟨_, s', h1, fun x hx => h3 ans x (by rw [ha.nv]; omega) (hl _ ?_)⟩
  rw [List.length_take, ha.nv]
  omega

/-- C68, the helper that repeats every value: the same table as `increase_nv_front`. -/
theorem C68_front_alias {p : TPoly} {f : Nat → F} (hr : Ready E.commit t) (h : HoldsP t p f) (k : Nat) :
    ∃ t', CrossProduct.frontAlias p k t = (.ok ⟨t.idCounter, p.numVars + k⟩, t') ∧ Ready E.commit t' ∧ (∀ a T, HoldsP t a T → HoldsP t' a T) ∧
      HoldsP t' ⟨t.idCounter, p.numVars + k⟩ fun r => f (r / 2 ^ k) := by
  obtain ⟨t', h1, h2, h3, -, h5⟩ := alias_ok hr h k (fun evals => evals.flatMap fun x => List.replicate (2 ^ k) x) (g := fun r => f (r / 2 ^ k))
    (by rw [flatMap_replicate _ _ (by positivity), pow_add])
  exact ⟨t', h1, h2, h3, h5⟩

/-- C68, the helper that repeats the whole column: the same table as `increase_nv_back`. -/
theorem C68_back_alias {p : TPoly} {f : Nat → F} (hr : Ready E.commit t) (h : HoldsP t p f) (k : Nat) :
    ∃ t', CrossProduct.backAlias p k t = (.ok ⟨t.idCounter, p.numVars + k⟩, t') ∧ Ready E.commit t' ∧ (∀ a T, HoldsP t a T → HoldsP t' a T) ∧
      HoldsP t' ⟨t.idCounter, p.numVars + k⟩ fun r => f (r % 2 ^ p.numVars) := by
  obtain ⟨t', h1, h2, h3, -, h5⟩ := alias_ok hr h k (fun evals => (List.replicate (2 ^ k) evals).flatten) (g := fun r => f (r % 2 ^ p.numVars))
    (by rw [flatten_replicate, pow_add, Nat.mul_comm])
  exact ⟨t', h1, h2, h3, h5⟩

namespace CrossEx
open REx AdvEx

/-- A table with rows (5), (7), (5, inactive), (9), and one with rows (1), (2). -/
def cols : List (Mle G) := [⟨2, [5, 7, 5, 9]⟩, ⟨2, [1, 1, 0, 1]⟩, ⟨1, [1, 2]⟩, ⟨1, [0, 1]⟩]

/-- The prover's cross product of the tables, and its columns. -/
example : ((prover env ⟨[⟨0, 2⟩], ⟨1, 2⟩⟩ ⟨[⟨2, 1⟩], ⟨3, 1⟩⟩ >>= fun r => r.selector.evaluations) (startP env.commit cols PTracker.new)).1 = .ok [0, 1, 0, 1, 0, 0, 0, 1] ∧
    HoldsTabP (startP env.commit cols PTracker.new) ⟨[⟨0, 2⟩], ⟨1, 2⟩⟩ ⟨2, [(⟨2, [5, 7, 5, 9]⟩ : Mle G).tbl], (⟨2, [1, 1, 0, 1]⟩ : Mle G).tbl⟩ ∧
    HoldsTabP (startP env.commit cols PTracker.new) ⟨[⟨2, 1⟩], ⟨3, 1⟩⟩ ⟨1, [(⟨1, [1, 2]⟩ : Mle G).tbl], (⟨1, [0, 1]⟩ : Mle G).tbl⟩ := by
  obtain ⟨-, h2⟩ := st_facts (cols := cols) (N := 2) (by decide) (by decide)
  exact ⟨by decide +kernel, ⟨rfl, h2 1 _ rfl, rfl, h2 0 _ rfl, trivial⟩, ⟨rfl, h2 3 _ rfl, rfl, h2 2 _ rfl, trivial⟩⟩

/-- A verifier that received these four columns. -/
def vst : VSt G (Mle G) Unit := startV env.commit cols VSt.new

theorem vst_wf : vst.Wf := by
  unfold vst
  simp only [startV, cols, env]
  exact VSt.wf_pushMat (VSt.wf_pushMat (VSt.wf_pushMat (VSt.wf_pushMat ⟨fun _ _ h => by simp [VSt.new] at h, fun _ _ h => by simp [VSt.new] at h⟩ _) _) _) _

theorem vst_evals (i : Nat) (p : Mle G) (h : cols[i]? = some p) : EvalsTo vst (answers cols) p.numVars i p.tbl ∧
    ∀ x, VSt.evalC vst.sh.comms (answers cols) (i + 1) i x = answers cols i x := by
  have hi : i < 4 := by
    have := List.getElem?_eq_some_iff.1 h
    exact this.1
  have hl : vst.sh.comms.lookup i = some (.query i) := by
    interval_cases i <;> rfl
  have he : ∀ x, VSt.evalC vst.sh.comms (answers cols) (i + 1) i x = answers cols i x := by
    intro x
    rw [VSt.evalC_unfold vst_wf.refs hl]; rfl
  refine ⟨⟨by unfold Known; rw [hl]; rfl, fun x hx => ?_⟩, he⟩
  rw [he, answers, h]
  simp [hx]

/-- The same tables on the verifier's side. -/
def A : TabData G := ⟨2, [(⟨2, [5, 7, 5, 9]⟩ : Mle G).tbl], (⟨2, [1, 1, 0, 1]⟩ : Mle G).tbl⟩
def T : TabData G := ⟨1, [(⟨1, [1, 2]⟩ : Mle G).tbl], (⟨1, [0, 1]⟩ : Mle G).tbl⟩

theorem evA : EvalsTab vst (answers cols) ⟨[0], 1, 2⟩ A := ⟨rfl, (vst_evals 1 _ rfl).1, (vst_evals 0 _ rfl).1, trivial⟩
theorem evT : EvalsTab vst (answers cols) ⟨[2], 3, 1⟩ T := ⟨rfl, (vst_evals 3 _ rfl).1, (vst_evals 2 _ rfl).1, trivial⟩

theorem short (x : List G) (hx : x.length ≠ 1) : ∃ e, VSt.evalC vst.sh.comms (answers cols) 4 3 x = .error e := by
  refine ⟨.panic, ?_⟩
  rw [(vst_evals 3 _ rfl).2]
  simp [answers, cols, hx]

/-- Two tables of the same size: the hypotheses of the verifier's part are met. -/
example : vst.Wf ∧ EvalsTab vst (answers cols) ⟨[0], 1, 2⟩ A ∧ EvalsTab vst (answers cols) ⟨[0, 0], 1, 2⟩ ⟨2, A.cols ++ A.cols, A.sel⟩ :=
  ⟨vst_wf, evA, ⟨rfl, evA.sel, evA.cols.1, evA.cols.1, trivial⟩⟩

end CrossEx

open CrossEx in
/-- C68 fails for tables of different sizes. -/
theorem C68_violated : ¬ C68_statement := by
  intro h
  obtain ⟨r, s', h1, h2⟩ := h REx.G (Mle REx.G) Unit vst (answers cols) ⟨[0], 1, 2⟩ ⟨[2], 3, 1⟩ A T vst_wf evA evT
  obtain ⟨r', s'', g1, g2⟩ := C68_unequal_fails vst_wf evA evT (by decide) short
  rw [h1] at g1
  obtain ⟨rfl, rfl⟩ : r = r' ∧ s' = s'' := by
    have := Prod.mk.inj g1
    exact ⟨Except.ok.inj this.1, this.2⟩
  obtain ⟨e, he⟩ := g2 [0, 0, 0] rfl
  rw [h2.sel.2 [0, 0, 0] rfl] at he
  cases he

end Zksql
