import Verif.Lemmas.Joint2
import Verif.Lemmas.Compile
import Verif.Lemmas.Claims
/-! How the verifier folds its claims. -/
set_option linter.unusedSectionVars false
namespace Zksql
open Spec
namespace VSt
variable {F C B β : Type} [Field F] {s s' : VSt F C B}

/-- Commitments, claims, the proof and the query answers are untouched. -/
structure SameOwn (s s' : VSt F C B) : Prop where
  mats : s'.own.matComms = s.own.matComms
  proof : s'.own.proof = s.own.proof
  sums : s'.own.sumClaims = s.own.sumClaims
  zeros : s'.own.zeroClaims = s.own.zeroClaims
  queries : s'.sh.queries = s.sh.queries

theorem SameOwn.refl (s : VSt F C B) : SameOwn s s := ⟨rfl, rfl, rfl, rfl, rfl⟩
theorem SameOwn.trans {a b c : VSt F C B} (h1 : SameOwn a b) (h2 : SameOwn b c) : SameOwn a c :=
  ⟨h2.mats.trans h1.mats, h2.proof.trans h1.proof, h2.sums.trans h1.sums, h2.zeros.trans h1.zeros, h2.queries.trans h1.queries⟩

/-- The state with another transcript. -/
def setTr (s : VSt F C B) (tr : Transcript F C) : VSt F C B := ⟨{ s.own with transcript := tr }, s.sh⟩

theorem wf_setTr (hw : Wf s) (tr : Transcript F C) : Wf (s.setTr tr) := ⟨hw.refs, hw.lt⟩
theorem keep_setTr (s : VSt F C B) (tr : Transcript F C) : VKeep s (s.setTr tr) := ⟨le_refl _, fun _ _ h => h⟩

theorem challengeU_run (H : Oracle F C) (label : String) (h : s.own.transcript.isEmpty = false) :
    challengeU H label s = (.ok (chalStep H s.own.transcript label).1, s.setTr (chalStep H s.own.transcript label).2) := by
  apply Act.expect_ok
  simp only [challenge, challenge_ok H s.own.transcript label h]
  rfl

/-- A known identifier. -/
def Known (s : VSt F C B) (id : Nat) : Prop := (s.sh.comms.lookup id).isSome

/-- What an identifier evaluates to. -/
def ev (s : VSt F C B) (ans : Nat → List F → Res F) (id : Nat) (x : List F) : Res F := evalC s.sh.comms ans (id + 1) id x

theorem ev_keep (hw : Wf s) (hk : VKeep s s') {id : Nat} (h : s.Known id) (ans : Nat → List F → Res F) (x : List F) :
    s'.ev ans id x = s.ev ans id x := evalC_keep hw hk h _ x

theorem known_push (s : VSt F C B) (c : VComm F) : (s.push c).Known s.own.idCounter := by
  unfold Known
  rw [push_lookup, if_pos rfl]; rfl

theorem ev_push (hw : Wf s) {c : VComm F} (hc : ∀ r ∈ c.refs, s.Known r) (ans : Nat → List F → Res F) (x : List F) :
    (s.push c).ev ans s.own.idCounter x = evalStep ans (s.ev ans) c x := evalC_push hw hc x

theorem foldStep_run (H : Oracle F C) (label : String) {c agg : Nat} (hw : Wf s) (hne : s.own.transcript.isEmpty = false)
    (hc : s.Known c) (ha : s.Known agg) (k : F → Nat → Act (VSt F C B) β) :
    ∃ s', (challengeU H label >>= fun ch => mulScalar c ch >>= fun p => addComms agg p >>= fun a => k ch a) s =
        k (chalStep H s.own.transcript label).1 (s.own.idCounter + 1) s' ∧
      Wf s' ∧ VKeep s s' ∧ s'.own.idCounter = s.own.idCounter + 2 ∧ s'.own.transcript = (chalStep H s.own.transcript label).2 ∧
      SameOwn s s' ∧ s'.Known (s.own.idCounter + 1) ∧
      ∀ ans x a v, s.ev ans agg x = .ok a → s.ev ans c x = .ok v →
        s'.ev ans (s.own.idCounter + 1) x = .ok (a + (chalStep H s.own.transcript label).1 * v) := by
  set ch := (chalStep H s.own.transcript label).1 with hch
  set s1 := s.setTr (chalStep H s.own.transcript label).2 with hs1
  have hw1 : Wf s1 := wf_setTr hw _
  have hr1 : ∀ r ∈ (VComm.mulScalar c ch).refs, s1.Known r := refs1 (P := fun r => s1.Known r) hc
  have hw2 := wf_push hw1 hr1
  have hk2 := keep_push hw1 (.mulScalar c ch)
  have hp : (s1.push (.mulScalar c ch)).Known s.own.idCounter := known_push s1 _
  have ha2 : (s1.push (.mulScalar c ch)).Known agg := hk2.known ha
  have hr2 : ∀ r ∈ (VComm.add agg s.own.idCounter : VComm F).refs, (s1.push (.mulScalar c ch)).Known r :=
    refs2 (P := fun r => (s1.push (.mulScalar c ch)).Known r) ha2 hp
  have hk3 := keep_push hw2 (.add agg s.own.idCounter)
  refine ⟨(s1.push (.mulScalar c ch)).push (.add agg s.own.idCounter), ?_, wf_push hw2 hr2, ((keep_setTr s _).trans hk2).trans hk3, rfl, rfl, ⟨rfl, rfl, rfl, rfl, rfl⟩,
    known_push _ _, ?_⟩
  · rw [Act.bind_ok (challengeU_run H label hne)]
    rfl
  · intro ans x a v h1 h2
    have e := ev_push hw2 hr2 ans x
    refine e.trans ?_
    have e1 : (s1.push (.mulScalar c ch)).ev ans agg x = .ok a := (ev_keep hw1 hk2 ha ans x).trans h1
    have e2 : (s1.push (.mulScalar c ch)).ev ans s.own.idCounter x = .ok (ch * v) := by
      refine (ev_push hw1 hr1 ans x).trans ?_
      have : s1.ev ans c x = .ok v := h2
      simp only [evalStep, this, ok_bind]
    simp only [evalStep, e1, e2, ok_bind]

theorem foldZeroClaims_run (H : Oracle F C) (claims : List Nat) {agg : Nat} (hw : Wf s) (hne : s.own.transcript.isEmpty = false)
    (hc : ∀ c ∈ claims, s.Known c) (ha : s.Known agg) :
    ∃ cs tr' agg' s', s.own.transcript.challengeLoop H "zerocheck challenge" claims.length = .ok (cs, tr') ∧
      cs.length = claims.length ∧ tr'.isEmpty = false ∧ foldZeroClaims H claims agg s = (.ok agg', s') ∧
      Wf s' ∧ VKeep s s' ∧ s'.own.idCounter = s.own.idCounter + 2 * claims.length ∧ s'.own.transcript = tr' ∧
      SameOwn s s' ∧ s'.Known agg' ∧
      ∀ ans x a (v : Nat → F), s.ev ans agg x = .ok a → (∀ c ∈ claims, s.ev ans c x = .ok (v c)) →
        s'.ev ans agg' x = .ok (a + dot cs (claims.map v)) := by
  induction claims generalizing s agg with
  | nil =>
    exact ⟨[], s.own.transcript, agg, s, rfl, rfl, hne, rfl, hw, VKeep.refl s, rfl, rfl, SameOwn.refl s, ha, fun ans x a v h _ => by simp [dot, h]⟩
  | cons c rest ih =>
    have hc0 := hc c List.mem_cons_self
    obtain ⟨s1, e1, hw1, hk1, hcnt1, htr1, hs1, hn1, hv1⟩ := foldStep_run H "zerocheck challenge" hw hne hc0 ha
      (fun _ a => foldZeroClaims H rest a)
    obtain ⟨cs, tr', agg', s', f1, f2, f3, f4, f5, f6, f7, f8, f9, f10, f11⟩ := ih hw1 (by rw [htr1]; rfl)
      (fun c' h' => hk1.known (hc c' (List.mem_cons_of_mem _ h'))) hn1
    refine ⟨(chalStep H s.own.transcript "zerocheck challenge").1 :: cs, tr', agg', s', ?_, by simp [f2], f3, e1.trans f4, f5, hk1.trans f6, ?_, f8,
      hs1.trans f9, f10, ?_⟩
    · rw [htr1] at f1
      simp only [List.length_cons, Transcript.challengeLoop, challenge_ok H s.own.transcript _ hne, ok_bind, f1]
    · rw [f7, hcnt1, List.length_cons]; omega
    · intro ans x a v h1 h2
      rw [f11 ans x _ v (hv1 ans x a (v c) h1 (h2 c List.mem_cons_self)) fun c' h' =>
        (ev_keep hw hk1 (hc c' (List.mem_cons_of_mem _ h')) ans x).trans (h2 c' (List.mem_cons_of_mem _ h'))]
      simp only [dot, List.map_cons, List.zipWith_cons_cons, List.sum_cons]
      congr 1
      ring

theorem foldSumClaims_run (H : Oracle F C) (claims : List (Nat × F)) {agg : Nat} (sm : F) (hw : Wf s) (hne : s.own.transcript.isEmpty = false)
    (hc : ∀ c ∈ claims, s.Known c.1) (ha : s.Known agg) :
    ∃ cs tr' agg' s', s.own.transcript.challengeLoop H "sumcheck challenge" claims.length = .ok (cs, tr') ∧
      cs.length = claims.length ∧ tr'.isEmpty = false ∧ foldSumClaims H claims agg sm s = (.ok (agg', sm + dot cs (claims.map (·.2))), s') ∧
      Wf s' ∧ VKeep s s' ∧ s'.own.idCounter = s.own.idCounter + 2 * claims.length ∧ s'.own.transcript = tr' ∧
      SameOwn s s' ∧ s'.Known agg' ∧
      ∀ ans x a (v : Nat → F), s.ev ans agg x = .ok a → (∀ c ∈ claims, s.ev ans c.1 x = .ok (v c.1)) →
        s'.ev ans agg' x = .ok (a + dot cs (claims.map fun c => v c.1)) := by
  induction claims generalizing s agg sm with
  | nil =>
    exact ⟨[], s.own.transcript, agg, s, rfl, rfl, hne, by simp [foldSumClaims, dot], hw, VKeep.refl s, rfl, rfl, SameOwn.refl s, ha,
      fun ans x a v h _ => by simp [dot, h]⟩
  | cons c rest ih =>
    have hc0 := hc c List.mem_cons_self
    obtain ⟨s1, e1, hw1, hk1, hcnt1, htr1, hs1, hn1, hv1⟩ := foldStep_run H "sumcheck challenge" hw hne hc0 ha
      (fun ch a => foldSumClaims H rest a (sm + c.2 * ch))
    obtain ⟨cs, tr', agg', s', f1, f2, f3, f4, f5, f6, f7, f8, f9, f10, f11⟩ := ih
      (sm + c.2 * (chalStep H s.own.transcript "sumcheck challenge").1) hw1 (by rw [htr1]; rfl)
      (fun c' h' => hk1.known (hc c' (List.mem_cons_of_mem _ h'))) hn1
    refine ⟨(chalStep H s.own.transcript "sumcheck challenge").1 :: cs, tr', agg', s', ?_, by simp [f2], f3, ?_, f5, hk1.trans f6, ?_, f8,
      hs1.trans f9, f10, ?_⟩
    · rw [htr1] at f1
      simp only [List.length_cons, Transcript.challengeLoop, challenge_ok H s.own.transcript _ hne, ok_bind, f1]
    · refine (e1.trans f4).trans ?_
      simp only [dot, List.map_cons, List.zipWith_cons_cons, List.sum_cons]
      congr 3
      ring
    · rw [f7, hcnt1, List.length_cons]; omega
    · intro ans x a v h1 h2
      rw [f11 ans x _ v (hv1 ans x a (v c.1) h1 (h2 c List.mem_cons_self)) fun c' h' =>
        (ev_keep hw hk1 (hc c' (List.mem_cons_of_mem _ h')) ans x).trans (h2 c' (List.mem_cons_of_mem _ h'))]
      simp only [dot, List.map_cons, List.zipWith_cons_cons, List.sum_cons]
      congr 1
      ring

theorem convertZero_run (H : Oracle F C) (N : Nat) (hw : Wf s) (hne : s.own.transcript.isEmpty = false)
    (hc : ∀ c ∈ s.own.zeroClaims, s.Known c) :
    ∃ cs tr1 r tr2 s', s.own.transcript.challengeLoop H "zerocheck challenge" s.own.zeroClaims.length = .ok (cs, tr1) ∧
      cs.length = s.own.zeroClaims.length ∧ tr1.challenges H "0check r" N = .ok (r, tr2) ∧ r.length = N ∧ tr2.isEmpty = false ∧
      convertZero H N s = (.ok (), s') ∧ Wf s' ∧ VKeep s s' ∧ s'.own.idCounter = s.own.idCounter + 2 * s.own.zeroClaims.length + 3 ∧
      s'.own.transcript = tr2 ∧ s'.own.matComms = s.own.matComms ∧ s'.own.proof = s.own.proof ∧ s'.own.zeroClaims = s.own.zeroClaims ∧
      s'.own.sumClaims = s.own.sumClaims ++ [(s.own.idCounter + 2 * s.own.zeroClaims.length + 2, 0)] ∧ s'.sh.queries = s.sh.queries ∧
      s'.Known (s.own.idCounter + 2 * s.own.zeroClaims.length + 2) ∧
      ∀ ans x (v : Nat → F), x.length = N → (∀ c ∈ s.own.zeroClaims, s.ev ans c x = .ok (v c)) →
        s'.ev ans (s.own.idCounter + 2 * s.own.zeroClaims.length + 2) x = .ok (dot cs (s.own.zeroClaims.map v) * eqPoly x r) := by
  have hw0 : Wf (s.push (.fn fun _ => .ok 0)) := wf_push hw (by simp [VComm.refs])
  have hk0 := keep_push hw (.fn fun _ => .ok 0)
  obtain ⟨cs, tr1, agg, s1, f1, f2, f3, f4, f5, f6, f7, f8, f9, f10, f11⟩ := foldZeroClaims_run (s := s.push (.fn fun _ => .ok 0)) H
    s.own.zeroClaims (agg := s.own.idCounter) hw0 hne (fun c h => hk0.known (hc c h)) (known_push s _)
  obtain ⟨r, tr2, g1, g2, g3⟩ := challenges_ok H "0check r" N tr1 f3
  have hw2 := wf_setTr f5 tr2
  have hw3 : Wf ((s1.setTr tr2).push (.fn fun pt => eqEval pt r)) := wf_push hw2 (by simp [VComm.refs])
  have hk3 := keep_push hw2 (.fn fun pt => eqEval pt r)
  have hn3 := known_push (s1.setTr tr2) (.fn fun pt => eqEval pt r)
  have ha3 : ((s1.setTr tr2).push (.fn fun pt => eqEval pt r)).Known agg := hk3.known f10
  have hcnt1 : s1.own.idCounter = s.own.idCounter + 2 * s.own.zeroClaims.length + 1 := by
    rw [f7]
    show s.own.idCounter + 1 + _ = _
    omega
  have hr4 : ∀ q ∈ (VComm.mul agg s1.own.idCounter : VComm F).refs, ((s1.setTr tr2).push (.fn fun pt => eqEval pt r)).Known q :=
    refs2 (P := fun q => ((s1.setTr tr2).push (.fn fun pt => eqEval pt r)).Known q) ha3 hn3
  have hw4 := wf_push hw3 hr4
  have hk4 := keep_push hw3 (.mul agg s1.own.idCounter)
  have hn4 := known_push ((s1.setTr tr2).push (.fn fun pt => eqEval pt r)) (.mul agg s1.own.idCounter)
  have hcnt3 : ((s1.setTr tr2).push (.fn fun pt => eqEval pt r)).own.idCounter = s.own.idCounter + 2 * s.own.zeroClaims.length + 2 := by
    show s1.own.idCounter + 1 = _
    omega
  rw [hcnt3] at hn4
  refine ⟨cs, tr1, r, tr2, ⟨{ (((s1.setTr tr2).push (.fn fun pt => eqEval pt r)).push (.mul agg s1.own.idCounter)).own with
      sumClaims := s1.own.sumClaims ++ [(s.own.idCounter + 2 * s.own.zeroClaims.length + 2, 0)] },
      (((s1.setTr tr2).push (.fn fun pt => eqEval pt r)).push (.mul agg s1.own.idCounter)).sh⟩, f1, f2, g1, g2, g3, ?_, ⟨hw4.refs, hw4.lt⟩,
      ?_, ?_, rfl, f9.mats, f9.proof, f9.zeros, ?_, f9.queries, hn4, ?_⟩
  · unfold convertZero
    rw [Act.bind_ok (trackVirtual_run _ s), Act.reads_bind, show (s.push (.fn fun _ => .ok 0)).own.zeroClaims = s.own.zeroClaims from rfl,
      Act.bind_ok f4, Act.bind_ok (a := r) (s' := s1.setTr tr2) (by simp only [challengesU, f8, g1]; rfl), Act.bind_ok (trackVirtual_run _ _)]
    unfold mulComms
    rw [Act.bind_ok (trackVirtual_run _ _), hcnt3]
    rfl
  · have := ((hk0.trans f6).trans (keep_setTr s1 tr2)).trans (hk3.trans hk4)
    exact ⟨this.cnt, this.comms⟩
  · show s1.own.idCounter + 1 + 1 = _
    omega
  · show s1.own.sumClaims ++ _ = _
    rw [f9.sums]; rfl
  · intro ans x v hx hv
    have e0 : (s.push (.fn fun _ => .ok 0)).ev ans s.own.idCounter x = .ok 0 := ev_push hw (by simp [VComm.refs]) ans x
    have e1 : s1.ev ans agg x = .ok (0 + dot cs (s.own.zeroClaims.map v)) :=
      f11 ans x 0 v e0 fun c h => (ev_keep hw hk0 (hc c h) ans x).trans (hv c h)
    have e2 : ((s1.setTr tr2).push (.fn fun pt => eqEval pt r)).ev ans agg x = .ok (dot cs (s.own.zeroClaims.map v)) := by
      rw [zero_add] at e1
      exact (ev_keep hw2 hk3 f10 ans x).trans e1
    have e3 : ((s1.setTr tr2).push (.fn fun pt => eqEval pt r)).ev ans s1.own.idCounter x = .ok (eqPoly x r) :=
      (ev_push hw2 (by simp [VComm.refs]) ans x).trans (eqEval_eq x r (by omega))
    have e4 := ev_push hw3 hr4 ans x
    rw [hcnt3] at e4
    refine e4.trans ?_
    simp only [evalStep, e2, e3, ok_bind]

theorem aggregate_run (H : Oracle F C) {N : Nat} (hN : s.own.proof.scNumVars = N) (hw : Wf s) (hne : s.own.transcript.isEmpty = false)
    (hz : ∀ c ∈ s.own.zeroClaims, s.Known c) (hs : ∀ c ∈ s.own.sumClaims, s.Known c.1) :
    ∃ cs tr1 r tr2 ds tr3 agg s',
      s.own.transcript.challengeLoop H "zerocheck challenge" s.own.zeroClaims.length = .ok (cs, tr1) ∧ cs.length = s.own.zeroClaims.length ∧
      tr1.challenges H "0check r" N = .ok (r, tr2) ∧ r.length = N ∧
      tr2.challengeLoop H "sumcheck challenge" (s.own.sumClaims.length + 1) = .ok (ds, tr3) ∧ ds.length = s.own.sumClaims.length + 1 ∧
      tr3.isEmpty = false ∧
      aggregate H s = (.ok (agg, foldedSum ds (s.own.sumClaims.map (·.2))), s') ∧
      Wf s' ∧ VKeep s s' ∧ s'.own.idCounter = s.own.idCounter + 2 * s.own.zeroClaims.length + 2 * s.own.sumClaims.length + 6 ∧
      s'.own.transcript = tr3 ∧ s'.own.matComms = s.own.matComms ∧ s'.own.proof = s.own.proof ∧ s'.sh.queries = s.sh.queries ∧
      s'.Known agg ∧
      ∀ ans x (v : Nat → F), x.length = N → (∀ c ∈ s.own.zeroClaims, s.ev ans c x = .ok (v c)) → (∀ c ∈ s.own.sumClaims, s.ev ans c.1 x = .ok (v c.1)) →
        s'.ev ans agg x = .ok (foldedValue cs ds (s.own.zeroClaims.map v) (s.own.sumClaims.map fun c => v c.1) (eqPoly x r)) := by
  obtain ⟨cs, tr1, r, tr2, s2, c1, c2, c3, c4, c5, c6, c7, c8, c9, c10, c11, c12, c13, c14, c15, c16, c17⟩ := convertZero_run H N hw hne hz
  have hw3 : Wf (s2.push (.fn fun _ => .ok 0)) := wf_push c7 (by simp [VComm.refs])
  have hk3 := keep_push c7 (.fn fun _ => .ok 0)
  have hknown : ∀ c ∈ s2.own.sumClaims, s2.Known c.1 := by
    intro c h
    rw [c14] at h
    rcases List.mem_append.1 h with h | h
    · exact c8.known (hs c h)
    · obtain rfl : c = _ := by simpa using h
      exact c16
  obtain ⟨ds, tr3, agg, s', f1, f2, f3, f4, f5, f6, f7, f8, f9, f10, f11⟩ := foldSumClaims_run (s := s2.push (.fn fun _ => .ok 0)) H
    s2.own.sumClaims (agg := s2.own.idCounter) 0 hw3 (by show s2.own.transcript.isEmpty = false; rw [c10]; exact c5)
    (fun c h => hk3.known (hknown c h)) (known_push s2 _)
  have hlen : s2.own.sumClaims.length = s.own.sumClaims.length + 1 := by rw [c14]; simp
  rw [hlen] at f1 f2 f7
  have f1' : s2.own.transcript.challengeLoop H "sumcheck challenge" (s.own.sumClaims.length + 1) = .ok (ds, tr3) := f1
  rw [c10] at f1'
  refine ⟨cs, tr1, r, tr2, ds, tr3, agg, s', c1, c2, c3, c4, f1', f2, f3, ?_, f5, (c8.trans hk3).trans f6, ?_, f8, f9.mats.trans c11,
    f9.proof.trans c12, f9.queries.trans c15, f10, ?_⟩
  · unfold aggregate
    rw [Act.reads_bind, hN, Act.bind_ok c6, Act.bind_ok (trackVirtual_run _ s2), Act.reads_bind,
      show (s2.push (.fn fun _ => .ok 0)).own.sumClaims = s2.own.sumClaims from rfl]
    refine f4.trans ?_
    rw [c14, List.map_append, zero_add]; rfl
  · rw [f7]
    show s2.own.idCounter + 1 + _ = _
    rw [c9]; omega
  · intro ans x v hx hzv hsv
    have e0 : (s2.push (.fn fun _ => .ok 0)).ev ans s2.own.idCounter x = .ok 0 := ev_push c7 (by simp [VComm.refs]) ans x
    let w : Nat → F := fun id => if id = s.own.idCounter + 2 * s.own.zeroClaims.length + 2 then dot cs (s.own.zeroClaims.map v) * eqPoly x r else v id
    have hlt : ∀ c ∈ s.own.sumClaims, c.1 ≠ s.own.idCounter + 2 * s.own.zeroClaims.length + 2 := by
      intro c h
      obtain ⟨d, hd⟩ := Option.isSome_iff_exists.1 (hs c h)
      have := hw.lt c.1 d hd
      omega
    have := f11 ans x 0 w e0 (fun c h => by
      refine (ev_keep c7 hk3 (hknown c h) ans x).trans ?_
      rw [c14] at h
      rcases List.mem_append.1 h with h | h
      · rw [ev_keep hw c8 (hs c h), hsv c h]
        simp only [w, if_neg (hlt c h)]
      · obtain rfl : c = _ := by simpa using h
        rw [c17 ans x v hx hzv]
        simp only [w, if_true])
    rw [this, c14, zero_add, List.map_append]
    unfold foldedValue
    congr 3
    · apply List.map_congr_left
      intro c h
      simp only [w, if_neg (hlt c h)]
    · simp [w]

end VSt
end Zksql
