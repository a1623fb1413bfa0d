import Verif.Lemmas.Degree
import Verif.Lemmas.Claims
import Verif.Lemmas.Batch
import Verif.Lemmas.ZeroCheck
/-!
What `compile_proof` does on a tracker that satisfies the invariant.
-/
set_option linter.unusedSectionVars false
namespace Zksql.PTracker
open Spec
variable {F C B : Type} [Field F] {R : Mle F → C → Prop} {t t' : PTracker F C}

theorem mem_sortedIds {α : Type} (m : List (Nat × α)) (id : Nat) : id ∈ sortedIds m ↔ id ∈ m.map (·.1) := by
  unfold sortedIds
  rw [List.mem_insertionSort]

theorem length_sortedIds {α : Type} (m : List (Nat × α)) : (sortedIds m).length = m.length := by
  unfold sortedIds
  rw [List.length_insertionSort, List.length_map]

theorem lookup_of_mem_keys {α : Type} (m : List (Nat × α)) (id : Nat) (h : id ∈ m.map (·.1)) : ∃ c, m.lookup id = some c := by
  induction m with
  | nil => simp at h
  | cons e m ih =>
    obtain ⟨k, c⟩ := e
    rw [lookup_cons_if]
    by_cases hk : id = k
    · exact ⟨c, by rw [if_pos hk]⟩
    · rw [if_neg hk]
      rcases List.mem_cons.1 h with h | h
      · exact absurd h hk
      · exact ih h

theorem roundChals_notEmpty (H : Oracle F C) (ms : List (List F)) (tr : Transcript F C) (h : tr.isEmpty = false) : (roundChals H ms tr).2.isEmpty = false := by
  induction ms generalizing tr with
  | nil => simpa [roundChals]
  | cons m ms ih =>
    simp only [roundChals]
    exact ih _ rfl

/-- The tables of the polynomials `zc` claimed to vanish. -/
def zeroTables (zc : List Nat) (te : PTracker F C) : List (Nat → F) := zc.map fun id b => te.gval (fun p => p.tbl b) id

/-- The tables of the summed polynomials with the claimed sums. -/
def sumTables (te : PTracker F C) : List ((Nat → F) × F) := te.sumClaims.map fun c => ((fun b => te.gval (fun p => p.tbl b) c.1), c.2)

/-- The sum of the aggregated polynomial. -/
theorem aggregate_tsum {N : Nat} {te : PTracker F C} {cs r ds : List F} {agg : Nat} (zc : List Nat) (hr : r.length = N)
    (hval : ∀ f, t'.gval f agg = f (constMle N 0) + lincomb ds ((te.sumClaims.map fun c => te.gval f c.1) ++
        [(f (constMle N 0) + lincomb cs (zc.map (te.gval f))) * f (eqMle r)])) :
    t'.tsum N agg = cubeSum N fun b => foldedValue cs ds ((zeroTables zc te).map (· b)) ((sumTables te).map fun v => v.1 b) (eqPoly (boolPt N b) r) := by
  unfold cubeSum PTracker.tsum zeroTables sumTables
  simp only [List.map_map, Function.comp_def]
  rw [list_sum_range']
  refine Finset.sum_congr rfl fun b hb => ?_
  have hb := Finset.mem_range.1 hb
  beta_reduce
  rw [hval, constMle_tbl N 0 b hb, eqPoly_boolPt N r hr b hb, zero_add, zero_add, eqMle_tbl r b (hr.symm ▸ hb)]
  rfl

/-- The claims hold if the zero claims do: the sums are the true ones. -/
theorem tables_claims {N : Nat} {te : PTracker F C} (zc : List Nat)
    (hs : ∀ c ∈ te.sumClaims, c.2 = te.tsum N c.1) (hz : ∀ id ∈ zc, ∀ b < 2 ^ N, te.gval (fun p => p.tbl b) id = 0) :
    AllClaims N (zeroTables zc te) (sumTables te) := by
  constructor
  · intro z h b hb
    obtain ⟨id, hid, rfl⟩ := List.mem_map.1 h
    exact hz id hid b hb
  · intro v hv
    obtain ⟨c, hc, rfl⟩ := List.mem_map.1 hv
    show cubeSum N _ = c.2
    rw [hs c hc]
    unfold cubeSum PTracker.tsum
    rw [list_sum_range']

/-- The compiled proof assembled from its parts. -/
def mkProof (comms : List (Nat × C)) (claims : List (Nat × F)) (pf : IOPProof F) (vp : VirtPoly F) (bp : B) : CompiledProof F C B where
  comms := comms
  sumcheckClaims := claimMap claims
  scProof := pf
  scMaxDegree := vp.maxDegree
  scNumVars := vp.numVariables
  queryMap := (sortedIds comms).map fun id => ((id, pf.point), 0)
  pcsProof := [bp]

/-- The result of the last step of `compile_proof`. -/
def compileEnd (comms : List (Nat × C)) (claims : List (Nat × F)) (pf : IOPProof F) (vp : VirtPoly F) (r : Res (B × Transcript F C)) : Res (CompiledProof F C B) :=
  match r with
  | .ok (bp, _) => .ok (mkProof comms claims pf vp bp)
  | .error .panic => .error .panic
  | .error (.err _) => .error (.err .invalidProver)

/-- `compile_proof` up to the opening of the commitments, whether or not the zero claims are true: in debug mode it is refused unless the folded claim
holds. -/
theorem compile_split [DecidableEq F] (debug : Bool) (pcs : Pcs F C B) (H : Oracle F C) {d : Nat} (hI : Inv R t) (hm : ∃ e ∈ t.mats, e.2.mle.numVars ≠ 0)
    (hne : t.transcript.isEmpty = false) (hs : ∀ c ∈ t.sumClaims, ∃ nv, t.HasNv c.1 nv) (hz : ∀ c ∈ t.zeroClaims, ∃ nv, t.HasNv c nv)
    (hd : 1 ≤ d) (hdeg : Deg (fun i => i ∈ t.zeroClaims ∨ i ∈ t.sumClaims.map (·.1)) d t) (hchar : NatsNonzero F (d + 1)) :
    ∃ N te cs tr1 r tr2 ds tr3, N ≠ 0 ∧ (∀ e ∈ t.mats, e.2.mle.numVars ≤ N) ∧ (∃ e ∈ t.mats, e.2.mle.numVars = N) ∧
      t.transcript.challengeLoop H "zerocheck challenge" t.zeroClaims.length = .ok (cs, tr1) ∧
      tr1.challenges H "0check r" N = .ok (r, tr2) ∧
      tr2.challengeLoop H "sumcheck challenge" (t.sumClaims.length + 1) = .ok (ds, tr3) ∧
      cs.length = t.zeroClaims.length ∧ r.length = N ∧ ds.length = t.sumClaims.length + 1 ∧ (aggregate H t).2.transcript = tr3 ∧ equalize t = (.ok N, te) ∧
      te.sumClaims.map (·.1) = t.sumClaims.map (·.1) ∧ (∀ c ∈ te.sumClaims, c.2 = te.tsum N c.1) ∧
      (∀ id ∈ t.zeroClaims, ∀ nv, t.HasNv id nv → nv ≤ N ∧ ∀ b < 2 ^ N, te.gval (fun p => p.tbl b) id = t.gval (fun p => p.tbl (b % 2 ^ nv)) id) ∧
      (debug = true → ¬ FoldedClaim N (zeroTables t.zeroClaims te) (sumTables te) cs r ds → (compile debug pcs H t).1 = .error (.err .invalidProver)) ∧
      ((debug = true → FoldedClaim N (zeroTables t.zeroClaims te) (sumTables te) cs r ds) →
        ∃ vp pf tr4 polys evals extra,
          sumcheckProve H vp tr3 = .ok (pf, tr4) ∧ (∃ heap, VirtPoly.Inv heap vp) ∧ vp.numVariables = N ∧ 0 < vp.maxDegree ∧ vp.maxDegree ≤ d + 1 ∧
          partialSum vp.polyVal N [] = (cubeSum N fun b => foldedValue cs ds ((zeroTables t.zeroClaims te).map (· b)) ((sumTables te).map fun v => v.1 b) (eqPoly (boolPt N b) r)) ∧
          pf.point.length = N ∧ tr3.isEmpty = false ∧ tr4.isEmpty = false ∧ t.idCounter ≤ extra ∧
          polys.length = (sortedIds t.comms).length ∧
          (∀ i, (h : i < (sortedIds t.comms).length) → ∃ a, t.mats.lookup (sortedIds t.comms)[i] = some a ∧ a.mle.numVars ≤ N ∧
            polys[i]? = some (extMle N a.mle)) ∧
          evals = polys.map (fun p => mle p.tbl pf.point) ∧
          (compile debug pcs H t).1 = compileEnd t.comms (te.sumClaims ++ [(extra, 0)]) pf vp
            (pcs.multiOpen polys ((sortedIds t.comms).map fun _ => pf.point) evals tr4) ∧
          (debug = false → ∀ x, vp.polyVal x = mle (constMle N 0).tbl x + lincomb ds ((te.sumClaims.map fun c => te.gval (fun p => mle p.tbl x) c.1) ++
            [(mle (constMle N 0).tbl x + lincomb cs (t.zeroClaims.map (te.gval fun p => mle p.tbl x))) * mle (eqMle r).tbl x])) ∧ (debug = true → vp.maxDegree = 1)) := by
  obtain ⟨N, te, cs, tr1, r, tr2, ds, tr3, agg, t', hN, heq, c1, c2, c3, c4, c5, c6, c7, hagg, hI', hk, hcnt, htr, hcm, hzc, hsc, hnv, hse, hze, hval⟩ :=
    aggregate_run H hI hm hne hs hz
  change aggregate H t = (.ok (agg, foldedSum ds (te.sumClaims.map (·.2))), t') at hagg
  obtain ⟨e0, he0, hnz⟩ := hm
  have hm' : t.mats ≠ [] := by rintro h; rw [h] at he0; simp at he0
  obtain ⟨N', t1, te', hle, hex, hE, hI1, heq', hIe, hpe, _, _, _, hz2, hs2, _⟩ := equalize_run hI hm' hs
  rw [heq] at heq'
  obtain ⟨eN, rfl⟩ := Prod.mk.inj heq'
  injection eN with eN; subst eN
  have hsum : ∀ c ∈ te.sumClaims, c.2 = te.tsum N c.1 := by
    intro c hc
    rw [hs2] at hc
    obtain ⟨c', hc', rfl⟩ := List.mem_map.1 hc
    obtain ⟨nv, hnv⟩ := hs c' hc'
    exact (Pres.tsum hpe (hE.hasNv hnv).2).symm
  have htab : ∀ id ∈ t.zeroClaims, ∀ nv, t.HasNv id nv → nv ≤ N ∧ ∀ b < 2 ^ N, te.gval (fun p => p.tbl b) id = t.gval (fun p => p.tbl (b % 2 ^ nv)) id := by
    intro id hid nv hnv
    refine ⟨(hE.hasNv hnv).1, fun b hb => ?_⟩
    rw [hpe.cube id N b (hE.hasNv hnv).2 hb, hE.gval_tbl hnv b hb]
  have htsum := aggregate_tsum t.zeroClaims c4 hval
  refine ⟨N, te, cs, tr1, r, tr2, ds, tr3, hN, hle, hex, c1, c3, c5, c2, c4, c6, by rw [hagg]; exact htr, heq, by rw [hs2]; simp [Function.comp_def], hsum, htab, fun hdb hnf => ?_, fun hzero => ?_⟩
  · unfold compile
    have e1 : debugCheck debug (agg, foldedSum ds (te.sumClaims.map (·.2))) t' = (.error (.err .invalidProver), t'.matSt agg N) := by
      unfold debugCheck
      rw [if_pos hdb, Act.bind_ok (evaluations_run hI' hnv)]
      have e : t'.tsum N agg ≠ foldedSum ds (te.sumClaims.map (·.2)) := by
        rw [htsum]
        intro h
        apply hnf
        unfold FoldedClaim
        rw [h]
        simp [sumTables, Function.comp_def]
      unfold PTracker.tsum at e
      rw [if_pos (by simpa using e)]
      rfl
    rw [Act.bind_ok hagg, Act.bind_error e1]
  have hdeg' := aggregate_deg H hI hd hm' hs hdeg hagg
  -- the debug check
  obtain ⟨t2, hdbg, hI2, hp2, hS2, hrel, hdm, hv2⟩ : ∃ t2, debugCheck debug (agg, foldedSum ds (te.sumClaims.map (·.2))) t' = (.ok (), t2) ∧
      Inv anyR t2 ∧ Pres t' t2 ∧ Same t' t2 ∧ (debug = false → t2 = t') ∧ (debug = true → (t2.mats.lookup agg).isSome) ∧ ∀ v, t2.virts.lookup agg = some v → t'.virts.lookup agg = some v := by
    unfold debugCheck
    by_cases hdb : debug = true
    · rw [if_pos hdb]
      obtain ⟨i1, i2, q, i3, _⟩ := matSt_spec hI' hnv
      refine ⟨t'.matSt agg N, ?_, i1, i2, same_matSt _ _ _, fun h => by rw [hdb] at h; exact absurd h (by decide), fun _ => by rw [i3]; rfl, fun v hv => evaluations_virts (evaluations_run hI' hnv) agg v hv⟩
      rw [Act.bind_ok (evaluations_run hI' hnv)]
      have e : t'.tsum N agg = foldedSum ds (te.sumClaims.map (·.2)) := by
        rw [htsum]
        have := hzero hdb
        unfold FoldedClaim at this
        rw [this]
        simp [sumTables, Function.comp_def]
      unfold PTracker.tsum at e
      rw [if_neg (by simpa using e)]
      rfl
    · rw [if_neg hdb]
      exact ⟨t', rfl, hI', Pres.refl _, Same.refl _, fun _ => rfl, fun h => absurd h hdb, fun _ h => h⟩
  have hnv2 := hp2.nv _ _ hnv
  obtain ⟨vp, v1, v2, v3, v4⟩ := toArith_spec hI2 hnv2
  obtain ⟨d1, d2⟩ := toArith_deg hI2 hnv2 (by omega : 1 ≤ d + 1) (fun v hv => hdeg' v (hv2 v hv)) v1
  have hchar' : NatsNonzero F vp.maxDegree := fun i h1 h2 => hchar i h1 (le_trans h2 d2)
  have hsp := sumcheckProve_ok v2 hchar' (by omega) H t2.transcript
  simp only at hsp
  set tr4 := (roundChals H (honestMsgs H vp.polyVal vp.numVariables vp.maxDegree vp.numVariables []
    (t2.transcript.append "aux info" (.aux vp.maxDegree vp.numVariables))) (t2.transcript.append "aux info" (.aux vp.maxDegree vp.numVariables))).2 with htr4
  set pf : IOPProof F := ⟨(roundChals H (honestMsgs H vp.polyVal vp.numVariables vp.maxDegree vp.numVariables []
    (t2.transcript.append "aux info" (.aux vp.maxDegree vp.numVariables))) (t2.transcript.append "aux info" (.aux vp.maxDegree vp.numVariables))).1,
    honestMsgs H vp.polyVal vp.numVariables vp.maxDegree vp.numVariables [] (t2.transcript.append "aux info" (.aux vp.maxDegree vp.numVariables))⟩ with hpf
  have hpl : pf.point.length = N := by
    rw [← v3]
    simp only [hpf]
    rw [roundChals_length, honestMsgs_length]
  have htr2 : t2.transcript = tr3 := hS2.tr.trans htr
  -- the committed polynomials
  have hids : ∀ id ∈ sortedIds t.comms, ∃ a, t.mats.lookup id = some a ∧ a.mle.WF ∧ a.mle.numVars ≤ N ∧ ∃ a', t2.mats.lookup id = some a' ∧ a'.mle = extMle N a.mle := by
    intro id hid
    obtain ⟨c, hc⟩ := lookup_of_mem_keys _ _ ((mem_sortedIds _ _).1 hid)
    obtain ⟨a, ha, _⟩ := hI.commOk id c hc
    obtain ⟨h1, a', h2, h3⟩ := hE.some id a ha
    exact ⟨a, ha, (hI.matOk id a ha).2.1, h1, a', hp2.mats _ _ (hk.mats _ _ (hpe.mats _ _ h2)), h3⟩
  have hpolys : ∀ ids : List Nat, (∀ id ∈ ids, ∃ a, t.mats.lookup id = some a ∧ a.mle.WF ∧ a.mle.numVars ≤ N ∧ ∃ a', t2.mats.lookup id = some a' ∧ a'.mle = extMle N a.mle) →
      ∃ polys : List (Mle F), (ids.mapM fun id => do
          let a ← unwrap (t2.mats.lookup id)
          Except.ok a.mle) = .ok polys ∧ polys.length = ids.length ∧
        (∀ i, (h : i < ids.length) → ∃ a, t.mats.lookup ids[i] = some a ∧ a.mle.numVars ≤ N ∧ polys[i]? = some (extMle N a.mle)) ∧
        (polys.mapM fun p => unwrap (p.evaluate pf.point)) = .ok (polys.map fun p => mle p.tbl pf.point) := by
    intro ids
    induction ids with
    | nil => intro _; exact ⟨[], rfl, rfl, by simp, rfl⟩
    | cons id ids ih =>
      intro h
      obtain ⟨ps, p1, p2, p3, p4⟩ := ih fun i hi => h i (List.mem_cons_of_mem _ hi)
      obtain ⟨a, a1, a2, a3, a', a4, a5⟩ := h id List.mem_cons_self
      obtain ⟨_, q1, q2, _⟩ := extMle_spec N a.mle a3
      refine ⟨extMle N a.mle :: ps, ?_, by simp [p2], ?_, ?_⟩
      · rw [List.mapM_cons, a4, unwrap_some, ok_bind, ok_bind, p1, ok_bind, a5]
        rfl
      · intro i hi
        cases i with
        | zero => exact ⟨a, a1, a3, rfl⟩
        | succ i => exact p3 i (by simpa using hi)
      · rw [List.mapM_cons, evaluate_eq _ (q1 a2) pf.point (by rw [hpl, q2]), unwrap_some, ok_bind, p4, ok_bind]
        rfl
  obtain ⟨polys, p1, p2, p3, p4⟩ := hpolys _ hids
  refine ⟨vp, pf, tr4, polys, _, t.idCounter + 2 * t.zeroClaims.length + 2, ?_, ⟨_, v2⟩, v3, d1, d2, ?_,
    hpl, c7, ?_, by omega, p2, p3, rfl, ?_, ?_, ?_⟩
  · rw [← htr2]; exact hsp
  · rw [← htsum, ← Pres.tsum hp2 hnv]
    unfold partialSum cubeSum PTracker.tsum
    rw [list_sum_range']
    simp only [List.length_nil, Nat.sub_zero, List.nil_append]
    refine Finset.sum_congr rfl fun b hb => ?_
    rw [v4]
    congr 1
    funext p
    exact mle_boolPt _ _ _ (Finset.mem_range.1 hb)
  · rw [htr4]
    exact roundChals_notEmpty _ _ _ rfl
  · unfold compile
    have e1 : (Act.reads (fun t : PTracker F C => t.toArith agg)) t2 = (.ok vp, t2) := by simp [v1]
    have e2 : proveSumcheck H vp t2 = (.ok pf, { t2 with transcript := tr4 }) := by
      unfold proveSumcheck
      rw [hsp]
    have hcm2 : t2.comms = t.comms := hS2.comms.trans hcm
    have e3 : (Act.reads (fun t : PTracker F C => (Except.ok (sortedIds t.comms) : Res (List Nat)))) { t2 with transcript := tr4 } =
        (.ok (sortedIds t.comms), { t2 with transcript := tr4 }) := by simp [hcm2]
    obtain ⟨ic, hic⟩ : ∃ ic, ic = t.comms := ⟨_, rfl⟩
    have e4 : (Act.reads (fun t : PTracker F C => (sortedIds ic).mapM fun id => do
        let a ← unwrap (t.mats.lookup id)
        Except.ok a.mle)) { t2 with transcript := tr4 } = (.ok polys, { t2 with transcript := tr4 }) := by
      rw [Act.reads_run, hic, p1]
    rw [hic] at e4
    rw [Act.bind_ok hagg, Act.bind_ok hdbg, Act.bind_ok e1, Act.bind_ok e2, Act.bind_ok e3, Act.bind_ok e4,
      Act.bind_ok (a := polys.map fun p => mle p.tbl pf.point) (s' := { t2 with transcript := tr4 }) (by simp [p4])]
    have hcl2 : t2.sumClaims = te.sumClaims ++ [(t.idCounter + 2 * t.zeroClaims.length + 2, 0)] := hS2.sums.trans hsc
    unfold compileEnd
    rcases hmo : pcs.multiOpen polys ((sortedIds t.comms).map fun _ => pf.point) (polys.map fun p => mle p.tbl pf.point) tr4 with (e | _) | ⟨bp, tr5⟩
    · rw [Act.bind_error (e := .err .invalidProver) (s' := { t2 with transcript := pcs.openTrail polys ((sortedIds t.comms).map fun _ => pf.point) tr4 }) (by unfold openBatch; rw [hmo]), hmo]
    · rw [Act.bind_error (e := .panic) (s' := { t2 with transcript := pcs.openTrail polys ((sortedIds t.comms).map fun _ => pf.point) tr4 }) (by unfold openBatch; rw [hmo]), hmo]
    · rw [Act.bind_ok (a := bp) (s' := { t2 with transcript := tr5 }) (by unfold openBatch; rw [hmo]), hmo]
      simp only [Act.reads_run, hcl2, hcm2, mkProof]
  · intro hrl x
    rw [v4, hrel hrl, hval]
  · intro hdb
    obtain ⟨m, hm1⟩ := Option.isSome_iff_exists.1 (hdm hdb)
    unfold toArith at v1
    rw [hm1] at v1
    injection v1 with v1
    rw [← v1]
    rfl

/-- `compile_proof` up to the opening of the commitments. -/
theorem compile_run [DecidableEq F] (debug : Bool) (pcs : Pcs F C B) (H : Oracle F C) {d : Nat} (hI : Inv R t) (hm : ∃ e ∈ t.mats, e.2.mle.numVars ≠ 0)
    (hne : t.transcript.isEmpty = false) (hs : ∀ c ∈ t.sumClaims, ∃ nv, t.HasNv c.1 nv) (hz : ∀ c ∈ t.zeroClaims, ∃ nv, t.HasNv c nv)
    (hd : 1 ≤ d) (hdeg : Deg (fun i => i ∈ t.zeroClaims ∨ i ∈ t.sumClaims.map (·.1)) d t) (hchar : NatsNonzero F (d + 1))
    (hzero : debug = true → ∀ c ∈ t.zeroClaims, ∀ nv, t.HasNv c nv → ∀ b < 2 ^ nv, t.gval (fun p => p.tbl b) c = 0) :
    ∃ N te cs tr1 r tr2 ds tr3 vp pf tr4 polys evals extra, N ≠ 0 ∧ (∀ e ∈ t.mats, e.2.mle.numVars ≤ N) ∧ (∃ e ∈ t.mats, e.2.mle.numVars = N) ∧
      t.transcript.challengeLoop H "zerocheck challenge" t.zeroClaims.length = .ok (cs, tr1) ∧
      tr1.challenges H "0check r" N = .ok (r, tr2) ∧
      tr2.challengeLoop H "sumcheck challenge" (t.sumClaims.length + 1) = .ok (ds, tr3) ∧
      equalize t = (.ok N, te) ∧
      sumcheckProve H vp tr3 = .ok (pf, tr4) ∧ (∃ heap, VirtPoly.Inv heap vp) ∧ vp.numVariables = N ∧ 0 < vp.maxDegree ∧ vp.maxDegree ≤ d + 1 ∧
      ((∀ c ∈ t.zeroClaims, ∀ nv, t.HasNv c nv → ∀ b < 2 ^ nv, t.gval (fun p => p.tbl b) c = 0) →
        partialSum vp.polyVal N [] = foldedSum ds (te.sumClaims.map (·.2))) ∧
      pf.point.length = N ∧ tr3.isEmpty = false ∧ tr4.isEmpty = false ∧
      te.sumClaims.map (·.1) = t.sumClaims.map (·.1) ∧ (∀ c ∈ te.sumClaims, c.2 = te.tsum N c.1) ∧ t.idCounter ≤ extra ∧
      polys.length = (sortedIds t.comms).length ∧
      (∀ i, (h : i < (sortedIds t.comms).length) → ∃ a, t.mats.lookup (sortedIds t.comms)[i] = some a ∧ a.mle.numVars ≤ N ∧
        polys[i]? = some (extMle N a.mle)) ∧
      evals = polys.map (fun p => mle p.tbl pf.point) ∧
      (compile debug pcs H t).1 = compileEnd t.comms (te.sumClaims ++ [(extra, 0)]) pf vp
        (pcs.multiOpen polys ((sortedIds t.comms).map fun _ => pf.point) evals tr4) ∧
      (debug = false → ∀ x, vp.polyVal x = mle (constMle N 0).tbl x + lincomb ds ((te.sumClaims.map fun c => te.gval (fun p => mle p.tbl x) c.1) ++
        [(mle (constMle N 0).tbl x + lincomb cs (t.zeroClaims.map (te.gval fun p => mle p.tbl x))) * mle (eqMle r).tbl x])) ∧ (debug = true → vp.maxDegree = 1) := by
  obtain ⟨N, te, cs, tr1, r, tr2, ds, tr3, hN, hle, hex, c1, c2, c3, -, c4, -, -, heq, hids, hts, htab, -, hgo⟩ := compile_split debug pcs H hI hm hne hs hz hd hdeg hchar
  have hfc : (∀ c ∈ t.zeroClaims, ∀ nv, t.HasNv c nv → ∀ b < 2 ^ nv, t.gval (fun p => p.tbl b) c = 0) →
      FoldedClaim N (zeroTables t.zeroClaims te) (sumTables te) cs r ds := fun h =>
    folded_complete N _ _ (tables_claims _ hts fun id hid b hb => by
      obtain ⟨nv, hnv⟩ := hz id hid
      rw [(htab id hid nv hnv).2 b hb]
      exact h id hid nv hnv _ (Nat.mod_lt _ (by positivity))) cs r ds c4
  obtain ⟨vp, pf, tr4, polys, evals, extra, hsp, hvi, hvn, hvd, hvd', hsum, hpl, ht3, ht4, hext, hpn, hps, hev, hcomp, hpoly, hone⟩ := hgo fun h => hfc (hzero h)
  refine ⟨N, te, cs, tr1, r, tr2, ds, tr3, vp, pf, tr4, polys, evals, extra, hN, hle, hex, c1, c2, c3, heq, hsp, hvi, hvn, hvd, hvd', fun h => ?_, hpl, ht3, ht4, hids, hts,
    hext, hpn, hps, hev, hcomp, hpoly, hone⟩
  have := hfc h
  unfold FoldedClaim at this
  rw [hsum, this]
  simp [sumTables, Function.comp_def]

end Zksql.PTracker
