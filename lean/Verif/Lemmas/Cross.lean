import Verif.Lemmas.TabAdvice
/-!
The cross product, prover and verifier.
-/
set_option linter.unusedSectionVars false
namespace Zksql
open Spec PTracker VSt
variable {F C B : Type} [Field F] [DecidableEq F]
variable {E : Env F C} {t t1 : PTracker F C}

namespace CrossProduct

/-- `k` handles are issued; nothing is claimed or sent. -/
structure Quiet (k : Nat) (t t' : PTracker F C) : Prop where
  cnt : t'.idCounter = t.idCounter + k
  transcript : t'.transcript = t.transcript
  comms : t'.comms = t.comms
  sums : t'.sumClaims = t.sumClaims
  zeros : t'.zeroClaims = t.zeroClaims

theorem Quiet.trans {k l : Nat} {t t' t'' : PTracker F C} (h : Quiet k t t') (h' : Quiet l t' t'') : Quiet (k + l) t t'' :=
  ⟨by rw [h'.cnt, h.cnt, Nat.add_assoc], h'.transcript.trans h.transcript, h'.comms.trans h.comms, h'.sums.trans h.sums, h'.zeros.trans h.zeros⟩

theorem quiet_of {α : Type} {k : Nat} {m : Act (PTracker F C) α} (h : Eff k m) {t t' : PTracker F C} {a : α} (e : m t = (.ok a, t')) : Quiet k t t' := by
  obtain ⟨a1, a2, a3, a4, a5⟩ := h t a t' e
  exact ⟨a1, a2, a3, a4, a5⟩

theorem incFront_ok (hr : Ready E.commit t) {c : TPoly} {f : Nat → F} (h : HoldsP t c f) (k : Nat) :
    ∃ t', c.incFront k t = (.ok ⟨t.idCounter, c.numVars + k⟩, t') ∧ Ready E.commit t' ∧ (∀ a T, HoldsP t a T → HoldsP t' a T) ∧ Quiet 1 t t' ∧
      HoldsP t' ⟨t.idCounter, c.numVars + k⟩ fun r => f (r / 2 ^ k) := by
  have ph := h.ph hr
  obtain ⟨t', e, hn, hv⟩ := PTracker.newOk_incFront hr.inv ph.nv k
  have q := quiet_of (TPoly.eff_incFront c k) e
  have hr' : Ready E.commit t' := ⟨hn.inv, by rw [q.transcript]; exact hr.started⟩
  refine ⟨t', e, hr', fun a T => holdsP_pres hr hr' hn.pres, q, PH.holdsP (E := E) hr' ⟨hn.nv, fun b hb => ?_⟩⟩
  have h1 : b / 2 ^ k < 2 ^ c.numVars := by
    rw [Nat.div_lt_iff_lt_mul (by positivity), ← pow_add]
    exact hb
  have := hv (b / 2 ^ k) (b % 2 ^ k) h1 (Nat.mod_lt _ (by positivity))
  rw [Nat.div_add_mod'] at this
  rw [this, ph.val _ h1]

theorem incBack_ok (hr : Ready E.commit t) {c : TPoly} {f : Nat → F} (h : HoldsP t c f) (k : Nat) :
    ∃ t', c.incBack k t = (.ok ⟨t.idCounter, c.numVars + k⟩, t') ∧ Ready E.commit t' ∧ (∀ a T, HoldsP t a T → HoldsP t' a T) ∧ Quiet 1 t t' ∧
      HoldsP t' ⟨t.idCounter, c.numVars + k⟩ fun r => f (r % 2 ^ c.numVars) := by
  have ph := h.ph hr
  obtain ⟨t', e, hn, hv⟩ := PTracker.newOk_incBack hr.inv ph.nv k
  have q := quiet_of (TPoly.eff_incBack c k) e
  have hr' : Ready E.commit t' := ⟨hn.inv, by rw [q.transcript]; exact hr.started⟩
  refine ⟨t', e, hr', fun a T => holdsP_pres hr hr' hn.pres, q, PH.holdsP (E := E) hr' ⟨hn.nv, fun b hb => ?_⟩⟩
  rw [hv b hb, ph.val _ (Nat.mod_lt _ (by positivity))]

theorem mul_ok (hr : Ready E.commit t) {a b : TPoly} {f g : Nat → F} (ha : HoldsP t a f) (hb : HoldsP t b g) (hab : a.numVars = b.numVars) :
    ∃ t', a.mul b t = (.ok ⟨t.idCounter, a.numVars⟩, t') ∧ Ready E.commit t' ∧ (∀ a T, HoldsP t a T → HoldsP t' a T) ∧ Quiet 1 t t' ∧
      HoldsP t' ⟨t.idCounter, a.numVars⟩ fun r => f r * g r := by
  have pa := ha.ph hr
  have pb := hb.ph hr
  obtain ⟨t', e, hn, _, hv⟩ := PTracker.newOk_mul hr.inv pa.nv pb.nv hab
  have q := quiet_of (TPoly.eff_mul a b) e
  have hr' : Ready E.commit t' := ⟨hn.inv, by rw [q.transcript]; exact hr.started⟩
  refine ⟨t', e, hr', fun a T => holdsP_pres hr hr' hn.pres, q, PH.holdsP (E := E) hr' ⟨hn.nv, fun r hr => ?_⟩⟩
  rw [hv, pa.val r hr, pb.val r (hab ▸ hr)]

theorem incFronts_ok (k nv : Nat) : ∀ {cs : List TPoly} {fs : List (Nat → F)} {t : PTracker F C}, Ready E.commit t → HoldsColsP t nv cs fs →
    ∃ cs' t', incFronts k cs t = (.ok cs', t') ∧ Ready E.commit t' ∧ (∀ a T, HoldsP t a T → HoldsP t' a T) ∧ Quiet cs.length t t' ∧
      HoldsColsP t' (nv + k) cs' (fs.map fun f r => f (r / 2 ^ k)) ∧ cs'.map (·.id) = List.range' t.idCounter cs.length
  | [], [], t, hr, _ => ⟨[], t, rfl, hr, fun _ _ h => h, ⟨rfl, rfl, rfl, rfl, rfl⟩, trivial, rfl⟩
  | c :: cs, f :: fs, t, hr, h => by
    obtain ⟨t1, a1, a2, a3, a4, a5⟩ := incFront_ok hr h.2.1 k
    obtain ⟨cs', t2, b1, b2, b3, b4, b5, b6⟩ := incFronts_ok k nv a2 (h.2.2.mono a3)
    refine ⟨⟨t.idCounter, c.numVars + k⟩ :: cs', t2, ?_, b2, fun a T x => b3 _ _ (a3 _ _ x), ?_, ⟨by rw [h.1], b3 _ _ a5, b5⟩, ?_⟩
    · unfold incFronts
      rw [Act.bind_ok a1, Act.bind_ok b1]; rfl
    · simpa [Nat.add_comm] using a4.trans b4
    · simp [b6, a4.cnt, List.range'_succ]

theorem incBacks_ok (k nv : Nat) : ∀ {cs : List TPoly} {fs : List (Nat → F)} {t : PTracker F C}, Ready E.commit t → HoldsColsP t nv cs fs →
    ∃ cs' t', incBacks k cs t = (.ok cs', t') ∧ Ready E.commit t' ∧ (∀ a T, HoldsP t a T → HoldsP t' a T) ∧ Quiet cs.length t t' ∧
      HoldsColsP t' (nv + k) cs' (fs.map fun f r => f (r % 2 ^ nv)) ∧ cs'.map (·.id) = List.range' t.idCounter cs.length
  | [], [], t, hr, _ => ⟨[], t, rfl, hr, fun _ _ h => h, ⟨rfl, rfl, rfl, rfl, rfl⟩, trivial, rfl⟩
  | c :: cs, f :: fs, t, hr, h => by
    obtain ⟨t1, a1, a2, a3, a4, a5⟩ := incBack_ok hr h.2.1 k
    obtain ⟨cs', t2, b1, b2, b3, b4, b5, b6⟩ := incBacks_ok k nv a2 (h.2.2.mono a3)
    refine ⟨⟨t.idCounter, c.numVars + k⟩ :: cs', t2, ?_, b2, fun a T x => b3 _ _ (a3 _ _ x), ?_, ⟨by rw [h.1], ?_, b5⟩, ?_⟩
    · unfold incBacks
      rw [Act.bind_ok a1, Act.bind_ok b1]; rfl
    · simpa [Nat.add_comm] using a4.trans b4
    · have := b3 _ _ a5
      rw [h.1] at this
      rw [h.1]
      exact this
    · simp [b6, a4.cnt, List.range'_succ]

theorem colsP_append {nv : Nat} : ∀ {cs ds : List TPoly} {fs gs : List (Nat → F)}, HoldsColsP t nv cs fs → HoldsColsP t nv ds gs →
    HoldsColsP t nv (cs ++ ds) (fs ++ gs)
  | [], _, [], _, _, h => h
  | _ :: _, _, _ :: _, _, h, h' => ⟨h.1, h.2.1, colsP_append h.2.2 h'⟩

theorem colsP_nv {nv : Nat} : ∀ {cs : List TPoly} {fs : List (Nat → F)}, HoldsColsP t nv cs fs → ∀ p ∈ cs, p.numVars = nv
  | [], [], _, _, hp => by simp at hp
  | _ :: _, _ :: _, h, p, hp => by
    rcases List.mem_cons.1 hp with rfl | hp
    · exact h.1
    · exact colsP_nv h.2.2 p hp

theorem prover_ok {a b : Table} {A T : TabData F} (hr : Ready E.commit t) (ha : HoldsTabP t a A) (hb : HoldsTabP t b T) :
    ∃ r t', prover E a b t = (.ok r, t') ∧ Ready E.commit t' ∧ (∀ x U, HoldsP t x U → HoldsP t' x U) ∧
      Quiet (a.colVals.length + b.colVals.length + 3) t t' ∧ HoldsTabP t' r (crossed A T) ∧
      r.colVals.map (·.id) = List.range' t.idCounter (a.colVals.length + b.colVals.length) ∧
      r.selector.id = t.idCounter + (a.colVals.length + b.colVals.length + 2) := by
  have na : a.numVars = A.nv := ha.nvSel
  have nb : b.numVars = T.nv := hb.nvSel
  obtain ⟨as, t1, a1, a2, a3, a4, a5, a6⟩ := incFronts_ok T.nv A.nv hr ha.cols
  obtain ⟨bs, t2, b1, b2, b3, b4, b5, b6⟩ := incBacks_ok A.nv T.nv a2 (hb.cols.mono a3)
  obtain ⟨t3, c1, c2, c3, c4, c5⟩ := incFront_ok b2 (b3 _ _ (a3 _ _ ha.sel)) T.nv
  obtain ⟨t4, d1, d2, d3, d4, d5⟩ := incBack_ok c2 (c3 _ _ (b3 _ _ (a3 _ _ hb.sel))) A.nv
  obtain ⟨t5, e1, e2, e3, e4, e5⟩ := mul_ok d2 (d3 _ _ c5) d5 (by simp [ha.nvSel, hb.nvSel, Nat.add_comm])
  have hc : HoldsColsP t5 (A.nv + T.nv) (as ++ bs) (crossed A T).cols :=
    colsP_append ((a5.mono fun _ _ x => e3 _ _ (d3 _ _ (c3 _ _ (b3 _ _ x))))) (by
      rw [Nat.add_comm]
      exact b5.mono fun _ _ x => e3 _ _ (d3 _ _ (c3 _ _ x)))
  refine ⟨⟨as ++ bs, ⟨t4.idCounter, a.selector.numVars + T.nv⟩⟩, t5, ?_, e2, fun _ _ x => e3 _ _ (d3 _ _ (c3 _ _ (b3 _ _ (a3 _ _ x)))), ?_, ⟨?_, ?_, hc⟩, ?_, ?_⟩
  · unfold prover
    rw [na, nb, Act.bind_ok a1, Act.bind_ok b1, Act.bind_ok c1, Act.bind_ok d1, Act.bind_ok e1]
    unfold Table.new
    rw [Act.bind_ok (Act.assert_true (fun _ p hp => by rw [colsP_nv hc p hp]; simp [ha.nvSel]) _)]
    rfl
  · exact ((((a4.trans b4).trans c4).trans d4).trans e4)
  · show a.selector.numVars + T.nv = A.nv + T.nv
    rw [ha.nvSel]
  · rw [hb.nvSel] at e5
    exact e5
  · simp [a6, b6, a4.cnt, List.range'_append_1]
  · show t4.idCounter = _
    rw [d4.cnt, c4.cnt, b4.cnt, a4.cnt]; omega

/-! ### Verifier -/

theorem mle_product (f g : Nat → F) (x : List F) (m n : Nat) (h : x.length = n + m) :
    mle (fun r => f (r / 2 ^ m) * g (r % 2 ^ m)) x = mle f (x.drop m) * mle g (x.take m) := by
  have hl : (x.take m).length = m := by simp; omega
  conv_lhs => rw [← List.take_append_drop m x, mle_append, hl]
  have : ∀ i, mle (fun j => f ((i * 2 ^ m + j) / 2 ^ m) * g ((i * 2 ^ m + j) % 2 ^ m)) (x.take m) = mle g (x.take m) * f i := by
    intro i
    rw [mul_comm (mle g _), ← mle_smul]
    apply mle_congr
    intro j hj
    rw [hl] at hj
    rw [Nat.mul_comm i, Nat.mul_add_div (by positivity), Nat.div_eq_of_lt hj, Nat.mul_add_mod, Nat.mod_eq_of_lt hj]
    simp
  simp only [this]
  rw [mle_smul, mul_comm]

theorem mle_front (f : Nat → F) (x : List F) (m n : Nat) (h : x.length = n + m) : mle (fun r => f (r / 2 ^ m)) x = mle f (x.drop m) := by
  have := mle_product f (fun _ => 1) x m n h
  simpa [mle_const] using this

theorem mle_back (g : Nat → F) (x : List F) (m n : Nat) (h : x.length = n + m) : mle (fun r => g (r % 2 ^ m)) x = mle g (x.take m) := by
  have := mle_product (fun _ => 1) g x m n h
  simpa [mle_const] using this

variable {s : VSt F C B} {ans : Nat → List F → Res F}

theorem evalsTo_keep {s' : VSt F C B} (hw : VSt.Wf s) (hk : VKeep s s') {nv h : Nat} {f : Nat → F} (hh : EvalsTo s ans nv h f) : EvalsTo s' ans nv h f :=
  ⟨hk.known hh.1, fun x hx => by rw [VSt.evalC_keep hw hk hh.1]; exact hh.2 x hx⟩

theorem evalsCols_keep {s' : VSt F C B} (hw : VSt.Wf s) (hk : VKeep s s') {nv : Nat} : ∀ {cs : List Nat} {fs : List (Nat → F)},
    EvalsCols s ans nv cs fs → EvalsCols s' ans nv cs fs
  | [], [], _ => trivial
  | _ :: _, _ :: _, h => ⟨evalsTo_keep hw hk h.1, evalsCols_keep hw hk h.2⟩

theorem known_push (s : VSt F C B) (c : VComm F) : Known (s.push c) s.own.idCounter := by
  unfold Known
  rw [VSt.push_lookup, if_pos rfl]; rfl

theorem vIncFront_ok (hw : VSt.Wf s) {h nv : Nat} {f : Nat → F} (hh : EvalsTo s ans nv h f) (k : Nat) :
    EvalsTo (s.push (.incFront h k)) ans (nv + k) s.own.idCounter fun r => f (r / 2 ^ k) := by
  refine ⟨known_push s _, fun x hx => ?_⟩
  rw [VSt.evalC_push hw (c := .incFront h k) (refs1 (P := fun r => (s.sh.comms.lookup r).isSome = true) hh.1)]
  simp only [VSt.evalStep]
  rw [if_neg (by omega), hh.2 _ (by rw [List.length_drop]; omega), mle_front f x k nv hx]

theorem vIncBack_ok (hw : VSt.Wf s) {h nv : Nat} {f : Nat → F} (hh : EvalsTo s ans nv h f) :
    EvalsTo (s.push (.incBack h nv)) ans (nv + nv) s.own.idCounter fun r => f (r % 2 ^ nv) := by
  refine ⟨known_push s _, fun x hx => ?_⟩
  rw [VSt.evalC_push hw (c := .incBack h nv) (refs1 (P := fun r => (s.sh.comms.lookup r).isSome = true) hh.1)]
  simp only [VSt.evalStep]
  rw [if_neg (by omega), hh.2 _ (by rw [List.length_take]; omega), mle_back f x nv nv hx]

/-- Handles are added one after another; nothing else changes. -/
structure VQuiet (k : Nat) (s s' : VSt F C B) : Prop where
  wf : VSt.Wf s'
  keep : VKeep s s'
  cnt : s'.own.idCounter = s.own.idCounter + k
  own : s'.own = { s.own with idCounter := s'.own.idCounter }

theorem VQuiet.trans {k l : Nat} {s s' s'' : VSt F C B} (h : VQuiet k s s') (h' : VQuiet l s' s'') : VQuiet (k + l) s s'' :=
  ⟨h'.wf, ⟨h.keep.cnt.trans h'.keep.cnt, fun i c hi => h'.keep.comms i c (h.keep.comms i c hi)⟩, by rw [h'.cnt, h.cnt, Nat.add_assoc], by rw [h'.own, h.own]⟩

theorem vquiet_push (hw : VSt.Wf s) {c : VComm F} (hc : ∀ r ∈ c.refs, (s.sh.comms.lookup r).isSome) : VQuiet 1 s (s.push c) :=
  ⟨VSt.wf_push hw hc, VSt.keep_push hw c, rfl, rfl⟩

theorem vIncFronts_run (k : Nat) : ∀ (cs : List Nat) (s : VSt F C B), VSt.Wf s → (∀ c ∈ cs, Known s c) →
    ∃ s', vIncFronts k cs s = (.ok (List.range' s.own.idCounter cs.length), s') ∧ VQuiet cs.length s s' ∧
      ∀ ans nv fs, EvalsCols s ans nv cs fs → EvalsCols s' ans (nv + k) (List.range' s.own.idCounter cs.length) (fs.map fun f r => f (r / 2 ^ k))
  | [], s, hw, _ => ⟨s, rfl, ⟨hw, ⟨le_rfl, fun _ _ h => h⟩, rfl, rfl⟩, fun _ _ fs h => by cases fs <;> simp_all [EvalsCols]⟩
  | c :: cs, s, hw, hk => by
    have q := vquiet_push hw (c := .incFront c k) (refs1 (P := fun r => (s.sh.comms.lookup r).isSome = true) (hk c (by simp)))
    obtain ⟨s', h1, h2, h3⟩ := vIncFronts_run k cs (s.push (.incFront c k)) q.wf fun d hd => q.keep.known (hk d (by simp [hd]))
    refine ⟨s', ?_, by simpa [Nat.add_comm] using q.trans h2, fun ans nv fs hf => ?_⟩
    · unfold vIncFronts
      rw [Act.bind_ok (show VSt.incFront c k s = _ from VSt.trackVirtual_run _ s), Act.bind_ok h1]
      simp [List.range'_succ, VSt.push]
    · cases fs with
      | nil => exact hf.elim
      | cons f fs => exact ⟨evalsTo_keep q.wf h2.keep (vIncFront_ok hw hf.1 k), h3 _ _ _ (evalsCols_keep hw q.keep hf.2)⟩

theorem vIncBacks_run (k : Nat) : ∀ (cs : List Nat) (s : VSt F C B), VSt.Wf s → (∀ c ∈ cs, Known s c) →
    ∃ s', vIncBacks k cs s = (.ok (List.range' s.own.idCounter cs.length), s') ∧ VQuiet cs.length s s' ∧
      ∀ ans fs, EvalsCols s ans k cs fs → EvalsCols s' ans (k + k) (List.range' s.own.idCounter cs.length) (fs.map fun f r => f (r % 2 ^ k))
  | [], s, hw, _ => ⟨s, rfl, ⟨hw, ⟨le_rfl, fun _ _ h => h⟩, rfl, rfl⟩, fun _ fs h => by cases fs <;> simp_all [EvalsCols]⟩
  | c :: cs, s, hw, hk => by
    have q := vquiet_push hw (c := .incBack c k) (refs1 (P := fun r => (s.sh.comms.lookup r).isSome = true) (hk c (by simp)))
    obtain ⟨s', h1, h2, h3⟩ := vIncBacks_run k cs (s.push (.incBack c k)) q.wf fun d hd => q.keep.known (hk d (by simp [hd]))
    refine ⟨s', ?_, by simpa [Nat.add_comm] using q.trans h2, fun ans fs hf => ?_⟩
    · unfold vIncBacks
      rw [Act.bind_ok (show VSt.incBack c k s = _ from VSt.trackVirtual_run _ s), Act.bind_ok h1]
      simp [List.range'_succ, VSt.push]
    · cases fs with
      | nil => exact hf.elim
      | cons f fs => exact ⟨evalsTo_keep q.wf h2.keep (vIncBack_ok hw hf.1), h3 _ _ (evalsCols_keep hw q.keep hf.2)⟩

theorem evalsCols_append {nv : Nat} : ∀ {cs ds : List Nat} {fs gs : List (Nat → F)}, EvalsCols s ans nv cs fs → EvalsCols s ans nv ds gs →
    EvalsCols s ans nv (cs ++ ds) (fs ++ gs)
  | [], _, [], _, _, h => h
  | _ :: _, _, _ :: _, _, h, h' => ⟨h.1, evalsCols_append h.2 h'⟩

theorem verifier_run (hw : VSt.Wf s) {a b : TableComm} (ha : KnownTab s a) (hb : KnownTab s b) :
    ∃ s', verifier a b s = (.ok ⟨List.range' s.own.idCounter (a.colVals.length + b.colVals.length),
        s.own.idCounter + (a.colVals.length + b.colVals.length + 2), a.numVars + b.numVars⟩, s') ∧
      VQuiet (a.colVals.length + b.colVals.length + 3) s s' ∧
      (∀ ans x, a.numVars ≤ x.length → (∃ e, evalC s.sh.comms ans (b.selector + 1) b.selector (x.take a.numVars) = .error e) →
        ∃ e, evalC s'.sh.comms ans (s.own.idCounter + (a.colVals.length + b.colVals.length + 2) + 1)
          (s.own.idCounter + (a.colVals.length + b.colVals.length + 2)) x = .error e) ∧
      ∀ ans A T, A.nv = T.nv → EvalsTab s ans a A → EvalsTab s ans b T → EvalsTab s' ans ⟨List.range' s.own.idCounter (a.colVals.length + b.colVals.length),
        s.own.idCounter + (a.colVals.length + b.colVals.length + 2), a.numVars + b.numVars⟩ (crossed A T) := by
  obtain ⟨s1, a1, a2, a3⟩ := vIncFronts_run b.numVars a.colVals s hw ha.1
  obtain ⟨s2, b1, b2, b3⟩ := vIncBacks_run a.numVars b.colVals s1 a2.wf fun c hc => a2.keep.known (hb.1 c hc)
  have kA : Known s2 a.selector := b2.keep.known (a2.keep.known ha.2)
  have q3 := vquiet_push b2.wf (c := .incFront a.selector b.numVars) (refs1 (P := fun r => (s2.sh.comms.lookup r).isSome = true) kA)
  set s3 := s2.push (.incFront a.selector b.numVars)
  have kB : Known s3 b.selector := q3.keep.known (b2.keep.known (a2.keep.known hb.2))
  have q4 := vquiet_push q3.wf (c := .incBack b.selector a.numVars) (refs1 (P := fun r => (s3.sh.comms.lookup r).isSome = true) kB)
  set s4 := s3.push (.incBack b.selector a.numVars)
  have k3 : Known s4 s2.own.idCounter := q4.keep.known (known_push s2 _)
  have k4 : Known s4 s3.own.idCounter := known_push s3 _
  have hr : ∀ r ∈ (VComm.mul s2.own.idCounter s3.own.idCounter : VComm F).refs, (s4.sh.comms.lookup r).isSome := by
    intro r hr
    simp only [VComm.refs, List.mem_cons, List.not_mem_nil, or_false] at hr
    rcases hr with rfl | rfl
    · exact k3
    · exact k4
  have q5 := vquiet_push q4.wf (c := .mul s2.own.idCounter s3.own.idCounter) hr
  have hq := (((a2.trans b2).trans q3).trans q4).trans q5
  have e4 : s4.own.idCounter = s.own.idCounter + (a.colVals.length + b.colVals.length + 2) := by
    rw [q4.cnt, q3.cnt, b2.cnt, a2.cnt]; omega
  have er : List.range' s.own.idCounter a.colVals.length ++ List.range' s1.own.idCounter b.colVals.length =
      List.range' s.own.idCounter (a.colVals.length + b.colVals.length) := by
    rw [a2.cnt, List.range'_append_1]
  refine ⟨s4.push (.mul s2.own.idCounter s3.own.idCounter), ?_, hq, fun ans x hx ⟨e, he⟩ => ?_, fun ans A T hAT hA hT => ?_⟩
  · unfold verifier
    rw [Act.bind_ok a1, Act.bind_ok b1, Act.bind_ok (show VSt.incFront a.selector b.numVars s2 = _ from VSt.trackVirtual_run _ s2),
      Act.bind_ok (show VSt.incBack b.selector a.numVars s3 = _ from VSt.trackVirtual_run _ s3),
      Act.bind_ok (show VSt.mulComms s2.own.idCounter s3.own.idCounter s4 = _ from VSt.trackVirtual_run _ s4), er, e4]
    rfl
  · rw [← e4, VSt.evalC_push q4.wf hr]
    simp only [VSt.evalStep]
    have h2 : evalC s4.sh.comms ans (s3.own.idCounter + 1) s3.own.idCounter x = .error e := by
      rw [VSt.evalC_push q3.wf (c := .incBack b.selector a.numVars) (refs1 (P := fun r => (s3.sh.comms.lookup r).isSome = true) kB)]
      simp only [VSt.evalStep]
      rw [if_neg (by omega), VSt.evalC_keep hw ((a2.trans b2).trans q3).keep hb.2, he]
    rw [h2]
    cases evalC s4.sh.comms ans (s2.own.idCounter + 1) s2.own.idCounter x with
    | error e' => exact ⟨e', rfl⟩
    | ok y => exact ⟨e, rfl⟩
  · have hn : a.numVars = T.nv := hA.nv.trans hAT
    rw [hA.nv, hT.nv, ← er, ← e4]
    refine ⟨rfl, ?_, ?_⟩
    · have hf := vIncFront_ok b2.wf (evalsTo_keep a2.wf b2.keep (evalsTo_keep hw a2.keep hA.sel)) b.numVars
      have hb' := vIncBack_ok q3.wf (evalsTo_keep b2.wf q3.keep (evalsTo_keep a2.wf b2.keep (evalsTo_keep hw a2.keep hT.sel)))
      refine ⟨known_push s4 _, fun x hx => ?_⟩
      have hx' : x.length = A.nv + T.nv := hx
      rw [VSt.evalC_push q4.wf hr]
      simp only [VSt.evalStep]
      rw [VSt.evalC_keep q3.wf q4.keep (known_push s2 _), hf.2 x (by rw [hx', hT.nv]), ok_bind]
      rw [show s4 = s3.push (.incBack b.selector T.nv) by rw [← hn], hb'.2 x (by rw [hx', hAT]), ok_bind]
      rw [hT.nv, mle_front A.sel x T.nv A.nv hx', mle_back T.sel x T.nv A.nv hx', ← mle_product A.sel T.sel x T.nv A.nv hx']
      rfl
    · have c1 := a3 ans A.nv A.cols hA.cols
      have c2 := b3 ans T.cols (by rw [hn]; exact evalsCols_keep hw a2.keep hT.cols)
      rw [hT.nv] at c1
      rw [hn] at c2
      refine evalsCols_append ?_ ?_
      · exact evalsCols_keep q4.wf q5.keep (evalsCols_keep q3.wf q4.keep (evalsCols_keep b2.wf q3.keep (evalsCols_keep a2.wf b2.keep c1)))
      · rw [show (crossed A T).nv = T.nv + T.nv by rw [← hAT]; simp [crossed, hAT]]
        exact evalsCols_keep q4.wf q5.keep (evalsCols_keep q3.wf q4.keep (evalsCols_keep b2.wf q3.keep c2))

/-! ### Aliased columns -/

theorem flatMap_replicate (f : Nat → F) (m : Nat) (hm : 0 < m) (n : Nat) :
    ((List.range n).map f).flatMap (fun x => List.replicate m x) = (List.range (n * m)).map fun i => f (i / m) := by
  induction n with
  | zero => simp
  | succ n ih =>
    rw [List.range_succ, List.map_append, List.flatMap_append, ih, Nat.succ_mul, List.range_add, List.map_append]
    congr 1
    simp only [List.map_cons, List.map_nil, List.flatMap_cons, List.flatMap_nil, List.append_nil, List.map_map]
    symm
    rw [List.eq_replicate_iff]
    refine ⟨by simp, fun b hb => ?_⟩
    obtain ⟨j, hj, rfl⟩ := List.mem_map.1 hb
    rw [List.mem_range] at hj
    simp only [Function.comp]
    rw [Nat.mul_comm, Nat.mul_add_div hm, Nat.div_eq_of_lt hj, Nat.add_zero]

theorem flatten_replicate (f : Nat → F) (m : Nat) (n : Nat) :
    (List.replicate n ((List.range m).map f)).flatten = (List.range (n * m)).map fun i => f (i % m) := by
  induction n with
  | zero => simp
  | succ n ih =>
    rw [List.replicate_succ', List.flatten_append, ih, Nat.succ_mul, List.range_add, List.map_append]
    congr 1
    simp only [List.flatten_cons, List.flatten_nil, List.append_nil, List.map_map]
    refine List.map_congr_left fun j hj => ?_
    rw [List.mem_range] at hj
    simp only [Function.comp]
    rw [Nat.mul_comm, Nat.mul_add_mod, Nat.mod_eq_of_lt hj]

theorem alias_ok (hr : Ready E.commit t) {p : TPoly} {f g : Nat → F} (h : HoldsP t p f) (k : Nat) (l : List F → List F)
    (hl : l ((List.range (2 ^ p.numVars)).map f) = (List.range (2 ^ (p.numVars + k))).map g) :
    ∃ t', (p.evaluations >>= fun evals => Act.lift (Mle.fromEvals (p.numVars + k) (l evals)) >>= fun mle => TPoly.trackMat mle) t =
        (.ok ⟨t.idCounter, p.numVars + k⟩, t') ∧ Ready E.commit t' ∧ (∀ a T, HoldsP t a T → HoldsP t' a T) ∧ t'.idCounter = t.idCounter + 1 ∧
      HoldsP t' ⟨t.idCounter, p.numVars + k⟩ g := by
  obtain ⟨t1, a1, a2, a3, a4, a5, a6, a7, a8⟩ := returns_eval hr h
  obtain ⟨q, q1, q2, q3, q4⟩ : ∃ q : Mle F, Mle.fromEvals (p.numVars + k) (l ((List.range (2 ^ p.numVars)).map f)) = .ok q ∧ q.WF ∧ q.numVars = p.numVars + k ∧
      ∀ b < 2 ^ (p.numVars + k), q.tbl b = g b := by
    rw [hl]
    refine ⟨⟨p.numVars + k, (List.range (2 ^ (p.numVars + k))).map g⟩, by simp [Mle.fromEvals], by simp [Mle.WF], rfl, fun b hb => ?_⟩
    simp [Mle.tbl, hb]
  have hn := PTracker.newOk_pushMat a2.inv q2
  have hr' : Ready E.commit (t1.pushMat q) := ⟨hn.inv, a2.started⟩
  refine ⟨t1.pushMat q, ?_, hr', fun a T x => holdsP_pres a2 hr' hn.pres (a8 _ _ x), by rw [← a3]; rfl, ?_⟩
  · rw [Act.bind_ok a1, q1, Act.bind_ok (Act.lift_run _ _)]
    rw [← a3, ← q3]; rfl
  · rw [← a3, ← q3]
    refine PH.holdsP (E := E) hr' ⟨hn.nv, fun b hb => ?_⟩
    rw [← q4 b (q3 ▸ hb)]
    exact PTracker.gval_pushMat _ _ _

/-! ### Verifier states holding columns -/

/-- The answers of committed columns: queries with the wrong number of coordinates panic. -/
def answers (cols : List (Mle F)) (i : Nat) (x : List F) : Res F :=
  match cols[i]? with
  | some p => if x.length = p.numVars then .ok (mle p.tbl x) else .error .panic
  | none => .error .panic

end CrossProduct
end Zksql
