import Verif.Lemmas.SumCheck
/-! Helper lemmas: the state of the sumcheck prover, and the round loops. -/
set_option linter.unusedSectionVars false
namespace Zksql
open Spec Polynomial
variable {F C : Type} [Field F]

/-- `tables` are the tables of `vp` with the first `c.length` variables fixed to `c`. -/
def TabInv (vp : VirtPoly F) (c : List F) (tables : List (Mle F)) : Prop :=
  tables.length = vp.flat.length ∧ ∀ i < tables.length, ∃ m, tables[i]? = some m ∧ m.WF ∧
    m.numVars = vp.numVariables - c.length ∧
    ∀ pt : List F, pt.length = vp.numVariables - c.length → mle m.tbl pt = mle (vp.tblAt i) (c ++ pt)

/-- Table functions of a list of tables. -/
def tabFn (tables : List (Mle F)) (i : Nat) : Nat → F :=
  match tables[i]? with
  | some m => m.tbl
  | none => fun _ => 0

theorem list_sum_comm {α : Type*} (ps : List α) (s : Finset Nat) (k : α → F) (g : α → Nat → F) :
    (ps.map fun p => k p * ∑ b ∈ s, g p b).sum = ∑ b ∈ s, (ps.map fun p => k p * g p b).sum := by
  induction ps with
  | nil => simp
  | cons p ps ih =>
    rw [List.map_cons, List.sum_cons, ih, Finset.mul_sum, ← Finset.sum_add_distrib]
    simp

theorem TabInv.tablesOk {vp : VirtPoly F} {c : List F} {tables : List (Mle F)} (h : TabInv vp c tables)
    (hc : c.length < vp.numVariables) : TablesOk tables (tabFn tables) (2 ^ (vp.numVariables - (c.length + 1))) := by
  intro f hf
  obtain ⟨m, hm, hw, hn, _⟩ := h.2 f hf
  have hlen : m.evals.length = 2 * 2 ^ (vp.numVariables - (c.length + 1)) := by
    rw [hw, hn, ← pow_succ', show vp.numVariables - (c.length + 1) + 1 = vp.numVariables - c.length by omega]
  refine ⟨m, hm, hlen, ?_⟩
  intro b hb
  rw [tabFn, hm]
  simp only [Mle.tbl]
  rw [List.getElem?_eq_getElem (by omega), List.getD_eq_getElem _ _ (by omega)]

/-- The message polynomial of a round is the partial sum. -/
theorem TabInv.partialSum {vp : VirtPoly F} {c : List F} {tables : List (Mle F)} (h : TabInv vp c tables)
    (hidx : ∀ p ∈ vp.products, ∀ i ∈ p.2, i < vp.flat.length)
    (hc : c.length < vp.numVariables) (x : F) :
    (vp.products.map fun p => p.1 *
      (prodPoly (tabFn tables) p.2 (2 ^ (vp.numVariables - (c.length + 1)))).eval x).sum =
      Spec.partialSum vp.polyVal vp.numVariables (c ++ [x]) := by
  simp only [prodPoly_eval]
  rw [list_sum_comm]
  unfold Spec.partialSum cubeSum
  rw [List.length_append, List.length_singleton]
  apply Finset.sum_congr rfl
  intro b hb
  rw [Finset.mem_range] at hb
  unfold VirtPoly.polyVal VirtPoly.prodsVal
  congr 1
  apply List.map_congr_left
  intro p hp
  congr 2
  apply List.map_congr_left
  intro f hf
  have hlt : f < tables.length := by rw [h.1]; exact hidx p hp f hf
  obtain ⟨m, hm, hw, hn, hv⟩ := h.2 f hlt
  rw [List.append_assoc, List.singleton_append, ← hv _ (by simp [boolPt_length]; omega), mle_cons, mle_boolPt _ _ _ hb,
    tabFn, hm]

/-- State of the prover once the variables `c` have been fixed. -/
structure StOk (vp : VirtPoly F) (c : List F) (st : ProverState F) : Prop where
  nv : st.poly.numVariables = vp.numVariables
  prods : st.poly.products = vp.products
  deg : st.poly.maxDegree = vp.maxDegree
  aux : st.extrapolationAux = auxOf F vp.maxDegree
  tabs : TabInv vp c (st.poly.flat.map (·.mle))
  chals : st.challenges = c

/-- The prover is about to send the message for prefix `pre`, given the pending challenge `ch`. -/
def Ready (vp : VirtPoly F) (st : ProverState F) (ch : Option F) (pre : List F) : Prop :=
  ∃ c, StOk vp c st ∧ st.round = pre.length ∧ ((ch = none ∧ pre = [] ∧ c = []) ∨ ∃ r, ch = some r ∧ pre = c ++ [r])

/-- The honest message for prefix `pre`. -/
def honestMsg (f : List F → F) (n d : Nat) (pre : List F) : List F :=
  (List.range (d + 1)).map fun t : Nat => partialSum f n (pre ++ [(t : F)])

theorem tabInv_init {heap : Nat → Mle F} {vp : VirtPoly F} (h : VirtPoly.Inv heap vp) :
    TabInv vp [] (vp.flat.map (·.mle)) := by
  refine ⟨by simp, ?_⟩
  intro i hi
  have hi' : i < vp.flat.length := by simpa using hi
  obtain ⟨_, hw, hn⟩ := h.flat_ok vp.flat[i] (List.getElem_mem hi')
  refine ⟨vp.flat[i].mle, by simp [hi'], hw, by simp [hn], ?_⟩
  intro pt _
  simp [VirtPoly.tblAt, hi']

theorem tabInv_fix {vp : VirtPoly F} {c : List F} {arcs : List (ArcMle F)} (h : TabInv vp c (arcs.map (·.mle))) (r : F)
    (hc : c.length < vp.numVariables) :
    ∃ ts, (arcs.mapM fun a => fixVariables a.mle [r]) = .ok ts ∧ TabInv vp (c ++ [r]) ts := by
  have hone : ∀ a ∈ arcs, ∃ q, fixVariables a.mle [r] = .ok q := by
    intro a ha
    obtain ⟨i, hi, rfl⟩ := List.getElem_of_mem ha
    obtain ⟨m, hm, hw, hn, _⟩ := h.2 i (by simpa using hi)
    have hm' : m = arcs[i].mle := by simpa [hi] using hm.symm
    subst hm'
    obtain ⟨q, hq, _⟩ := fixVariables_tbl _ hw [r] (by simp; omega)
    exact ⟨q, hq⟩
  let g : ArcMle F → Mle F := fun a => match fixVariables a.mle [r] with
    | .ok q => q
    | .error _ => a.mle
  refine ⟨arcs.map g, ?_, by simpa using h.1, ?_⟩
  · apply mapM_ok
    intro a ha
    obtain ⟨q, hq⟩ := hone a ha
    simp only [g, hq]
  · intro i hi
    have hi' : i < arcs.length := by simpa using hi
    obtain ⟨m, hm, hw, hn, hv⟩ := h.2 i (by simpa using hi)
    have hm' : m = arcs[i].mle := by simpa [hi'] using hm.symm
    subst hm'
    obtain ⟨q, hq, hqw, hqn, hqt⟩ := fixVariables_tbl _ hw [r] (by simp; omega)
    refine ⟨q, by simp [hi', g, hq], hqw, by simp [hqn, hn]; omega, ?_⟩
    intro pt hpt
    rw [List.length_append, List.length_singleton] at hpt
    have h1 : mle q.tbl pt = mle (foldTbl r arcs[i].mle.tbl) pt := by
      apply mle_congr
      intro j hj
      have hj' : j < 2 ^ q.numVars := by
        rw [hqn, hn]; convert hj using 2; simp; omega
      rw [hqt j hj']
      rw [mle_cons, mle_nil]
      simp [foldTbl, mul_comm]
    rw [h1, ← mle_cons, hv _ (by simp; omega)]
    simp

theorem setTables_mle (vp : VirtPoly F) (ts : List (Mle F)) (h : ts.length = vp.flat.length) :
    (setTables vp ts).flat.map (·.mle) = ts := by
  unfold setTables
  apply List.ext_getElem
  · simp [h]
  · intro i h1 h2; simp

theorem proveRound_ok {vp : VirtPoly F} (hn : NatsNonzero F vp.maxDegree)
    (hidx : ∀ p ∈ vp.products, ∀ i ∈ p.2, i < vp.flat.length)
    (hdeg : ∀ p ∈ vp.products, p.2.length ≤ vp.maxDegree) (hne : ∀ p ∈ vp.products, p.2 ≠ [])
    {st : ProverState F} {ch : Option F} {pre : List F} (h : Ready vp st ch pre) (hpre : pre.length < vp.numVariables) :
    ∃ st', proveRound st ch = .ok (honestMsg vp.polyVal vp.numVariables vp.maxDegree pre, st') ∧
      StOk vp pre st' ∧ st'.round = pre.length + 1 := by
  obtain ⟨c, hs, hr, hcase⟩ := h
  have hmsg : ∀ tables, TabInv vp pre tables → tables.length = vp.flat.length →
      (st.poly.products.foldlM (init := List.replicate (st.poly.maxDegree + 1) (0 : F)) fun acc cp => do
        let m ← productMsg st.extrapolationAux st.poly.maxDegree tables (2 ^ (st.poly.numVariables - (st.round + 1))) cp
        Except.ok ((List.range acc.length).map fun i => acc.getD i 0 + m.getD i 0) : Res (List F)) =
      .ok (honestMsg vp.polyVal vp.numVariables vp.maxDegree pre) := by
    intro tables ht hl
    rw [hs.prods, hs.deg, hs.nv, hs.aux, hr]
    rw [roundMsg_ok vp.maxDegree hn tables (tabFn tables) _ (ht.tablesOk hpre) vp.products
      (fun p hp f hf => by rw [hl]; exact hidx p hp f hf) hdeg hne]
    unfold honestMsg
    congr 1
    apply List.map_congr_left
    intro t _
    exact ht.partialSum hidx hpre _
  rcases hcase with ⟨rfl, rfl, rfl⟩ | ⟨r, rfl, rfl⟩
  · unfold proveRound
    have hr0 : st.round = 0 := by simpa using hr
    rw [if_neg (by rw [hs.nv, hr]; omega)]
    simp only [takeChallenge, if_neg (show ¬ 0 < st.round by omega), ok_bind]
    rw [hmsg _ hs.tabs hs.tabs.1, ok_bind]
    refine ⟨_, rfl, ⟨hs.nv, hs.prods, hs.deg, hs.aux, ?_, hs.chals⟩, by simp [hr0]⟩
    rw [setTables_mle _ _ (by simp)]
    exact hs.tabs
  · unfold proveRound
    have hr1 : st.round = c.length + 1 := by simpa using hr
    rw [List.length_append, List.length_singleton] at hpre
    rw [if_neg (by rw [hs.nv, hr]; simp; omega)]
    obtain ⟨ts, hts, hti⟩ := tabInv_fix hs.tabs r (by omega)
    have hidx' : idx (c ++ [r]) (st.round - 1) = .ok r := by
      rw [hr1]; simp [idx]
    simp only [takeChallenge, if_neg (show ¬ st.round = 0 by omega), hs.chals, hidx', ok_bind, hts]
    rw [hmsg ts hti hti.1, ok_bind]
    refine ⟨_, rfl, ⟨hs.nv, hs.prods, hs.deg, hs.aux, ?_, rfl⟩, by simp [hr1]⟩
    rw [setTables_mle _ _ (by rw [hti.1]; have := hs.tabs.1; simpa using this.symm)]
    exact hti

theorem proverInit_ok {heap : Nat → Mle F} {vp : VirtPoly F} (h : VirtPoly.Inv heap vp) (hn : vp.numVariables ≠ 0) :
    ∃ st, proverInit vp = .ok st ∧ Ready vp st none [] := by
  unfold proverInit
  rw [if_neg hn]
  refine ⟨_, rfl, [], ⟨rfl, rfl, rfl, rfl, tabInv_init h, rfl⟩, rfl, Or.inl ⟨rfl, rfl, rfl⟩⟩

/-! ## Transcript bookkeeping of the rounds -/

/-- Challenge drawn by a non-empty transcript, and the transcript afterwards. -/
def chalStep (H : Oracle F C) (tr : Transcript F C) (label : String) : F × Transcript F C :=
  let c := H tr.label (tr.events ++ [TEvent.squeeze label])
  (c, ({ tr with events := tr.events ++ [TEvent.squeeze label] } : Transcript F C).append label (.elem c))

theorem challenge_append (H : Oracle F C) (tr : Transcript F C) (l l' : String) (d : TItem F C) :
    (tr.append l d).challenge H l' = .ok (chalStep H (tr.append l d) l') := rfl

theorem challenge_ok (H : Oracle F C) (tr : Transcript F C) (l : String) (h : tr.isEmpty = false) :
    tr.challenge H l = .ok (chalStep H tr l) := by
  simp [Transcript.challenge, h, chalStep]

/-- Challenges drawn while the messages `ms` are absorbed one after the other. -/
def roundChals (H : Oracle F C) : List (List F) → Transcript F C → List F × Transcript F C
  | [], tr => ([], tr)
  | m :: ms, tr =>
    let s := chalStep H (tr.append "prover msg" (.elems m)) "Internal round"
    let r := roundChals H ms s.2
    (s.1 :: r.1, r.2)

/-- Messages of the honest prover. -/
def honestMsgs (H : Oracle F C) (f : List F → F) (n d : Nat) : Nat → List F → Transcript F C → List (List F)
  | 0, _, _ => []
  | m + 1, pre, tr =>
    let s := chalStep H (tr.append "prover msg" (.elems (honestMsg f n d pre))) "Internal round"
    honestMsg f n d pre :: honestMsgs H f n d m (pre ++ [s.1]) s.2

theorem honestMsgs_length (H : Oracle F C) (f : List F → F) (n d m : Nat) (pre : List F) (tr : Transcript F C) :
    (honestMsgs H f n d m pre tr).length = m := by
  induction m generalizing pre tr with
  | zero => rfl
  | succ m ih => simp [honestMsgs, ih]

theorem roundChals_length (H : Oracle F C) (ms : List (List F)) (tr : Transcript F C) :
    (roundChals H ms tr).1.length = ms.length := by
  induction ms generalizing tr with
  | nil => rfl
  | cons m ms ih => simp [roundChals, ih]

theorem proveLoop_ok {vp : VirtPoly F} (hn : NatsNonzero F vp.maxDegree)
    (hidx : ∀ p ∈ vp.products, ∀ i ∈ p.2, i < vp.flat.length)
    (hdeg : ∀ p ∈ vp.products, p.2.length ≤ vp.maxDegree) (hne : ∀ p ∈ vp.products, p.2 ≠ [])
    (H : Oracle F C) (m : Nat) (st : ProverState F) (ch : Option F) (pre : List F) (h : Ready vp st ch pre)
    (hm : pre.length + m = vp.numVariables) (tr : Transcript F C) :
    ∃ st' ch', proveLoop H m st ch tr = .ok (honestMsgs H vp.polyVal vp.numVariables vp.maxDegree m pre tr, st', ch',
        (roundChals H (honestMsgs H vp.polyVal vp.numVariables vp.maxDegree m pre tr) tr).2) ∧
      Ready vp st' ch' (pre ++ (roundChals H (honestMsgs H vp.polyVal vp.numVariables vp.maxDegree m pre tr) tr).1) := by
  induction m generalizing st ch pre tr with
  | zero => exact ⟨st, ch, rfl, by simpa [honestMsgs, roundChals] using h⟩
  | succ m ih =>
    obtain ⟨st1, h1, hs1, hr1⟩ := proveRound_ok hn hidx hdeg hne h (by omega)
    simp only [proveLoop, h1, ok_bind, challenge_append, honestMsgs, roundChals]
    set s := chalStep H (tr.append "prover msg" (.elems (honestMsg vp.polyVal vp.numVariables vp.maxDegree pre))) "Internal round"
    obtain ⟨st2, ch2, h2, hr2⟩ := ih st1 (some s.1) (pre ++ [s.1])
      ⟨pre, hs1, by simp [hr1], Or.inr ⟨s.1, rfl, rfl⟩⟩ (by simp; omega) s.2
    rw [h2]
    simp only [ok_bind]
    exact ⟨st2, ch2, rfl, by simpa using hr2⟩

theorem sumcheckProve_ok {heap : Nat → Mle F} {vp : VirtPoly F} (h : VirtPoly.Inv heap vp)
    (hn : NatsNonzero F vp.maxDegree) (hnv : vp.numVariables ≠ 0) (H : Oracle F C) (tr : Transcript F C) :
    let tr1 := tr.append "aux info" (.aux vp.maxDegree vp.numVariables)
    let ms := honestMsgs H vp.polyVal vp.numVariables vp.maxDegree vp.numVariables [] tr1
    sumcheckProve H vp tr = .ok (⟨(roundChals H ms tr1).1, ms⟩, (roundChals H ms tr1).2) := by
  intro tr1 ms
  obtain ⟨st, hst, hready⟩ := proverInit_ok h hnv
  obtain ⟨st', ch', hl, hr'⟩ := proveLoop_ok hn h.idx_ok h.deg_ok h.ne_ok H vp.numVariables st none [] hready (by simp) tr1
  unfold sumcheckProve
  simp only [hst, ok_bind]
  rw [hl]
  simp only [ok_bind]
  obtain ⟨c, hs, hround, hcase⟩ := hr'
  simp only [List.nil_append] at hcase hround
  rcases hcase with ⟨_, h0, _⟩ | ⟨r, rfl, hpre⟩
  · exfalso
    have := congrArg List.length h0
    rw [roundChals_length, honestMsgs_length] at this
    simp at this; exact hnv this
  · simp only [hs.chals, ← hpre]
    rfl

end Zksql
