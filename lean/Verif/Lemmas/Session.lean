import Verif.Spec.Session
import Verif.Lemmas.After
import Verif.Lemmas.EndToEnd
import Verif.Lemmas.VerifyRun
import Verif.Lemmas.VerifySound
/-! The trackers between two proofs of a session. -/
set_option linter.unusedSectionVars false
namespace Zksql
open Spec PTracker
variable {F C B : Type} [Field F]

theorem extendMats_same (N : Nat) : ∀ (l : List (Nat × ArcMle F)) (hp : Nat), (∀ e ∈ l, e.2.mle.numVars = N) → extendMats N l hp = .ok (l, hp) := by
  intro l
  induction l with
  | nil => intro hp _; rfl
  | cons e l ih =>
    intro hp h
    obtain ⟨i, a⟩ := e
    unfold extendMats
    rw [if_neg (by simpa using h _ List.mem_cons_self), ih hp fun e he => h e (List.mem_cons_of_mem _ he)]
    rfl

/-- Nothing is extended when all tables have `N` variables. -/
theorem ext_same {R : Mle F → C → Prop} {t : PTracker F C} {N : Nat} (hI : t.Inv R) (hall : ∀ e ∈ t.mats, e.2.mle.numVars = N) : PTracker.Ext N t t := by
  obtain ⟨l', hp', e, hE, _⟩ := extend_ext hI fun e he => (hall e he).le
  rw [extendMats_same N _ _ hall] at e
  obtain ⟨rfl, rfl⟩ := Prod.mk.inj (Except.ok.inj e)
  exact hE

theorem equalize_same {R : Mle F → C → Prop} {t : PTracker F C} {N : Nat} (hI : t.Inv R) (hm : t.mats ≠ []) (hall : ∀ e ∈ t.mats, e.2.mle.numVars = N)
    (hs : ∀ c ∈ t.sumClaims, ∃ nv, t.HasNv c.1 nv) :
    ∃ te, equalize t = (.ok N, te) ∧ te.Inv R ∧ Pres t te ∧ te.idCounter = t.idCounter ∧ te.transcript = t.transcript ∧ te.comms = t.comms ∧ te.zeroClaims = t.zeroClaims ∧
      te.sumClaims = t.sumClaims.map fun c => (c.1, t.tsum N c.1) := by
  have hE := ext_same hI hall
  obtain ⟨N', hN, _, e, he, hx⟩ := maxMatNv_spec hm
  obtain rfl : N = N' := by rw [← hx, hall e he]
  obtain ⟨t2, e2, hI2, hp2, hs2, _⟩ := trueSums_run t.sumClaims hI fun c hc => by
    obtain ⟨nv, hnv⟩ := hs c hc
    exact (hE.hasNv hnv).2
  refine ⟨{ t2 with sumClaims := t.sumClaims.map fun c => (c.1, t.tsum N c.1) }, ?_, ⟨hI2.matOk, hI2.virtOk, hI2.ptrs, hI2.commOk⟩,
    ⟨hp2.cnt, hp2.nv, hp2.cube, hp2.mats⟩, hs2.cnt, hs2.tr, hs2.comms, hs2.zeros, rfl⟩
  unfold equalize
  rw [Act.bind_ok (a := N) (s' := t) (by simp [hN]), Act.bind_ok (a := (t.mats, t.heap)) (s' := t) (by simp [extendMats_same N _ _ hall]),
    Act.bind_ok (Act.modify_run _ _), Act.reads_bind]
  change (trueSums t.sumClaims >>= _) t = _
  rw [Act.bind_ok e2, Act.bind_ok (Act.modify_run _ _), Act.pure_run]
  have : t2.sumClaims = t.sumClaims := hs2.sums
  simp only [this, List.zipWith_map_right, List.zipWith_self]

theorem lincomb_zeros (cs vs : List F) (h : ∀ v ∈ vs, v = 0) : lincomb cs vs = 0 := by
  unfold lincomb
  induction cs generalizing vs with
  | nil => simp
  | cons c cs ih =>
    rcases vs with _ | ⟨v, vs⟩
    · simp
    · have := ih vs fun x hx => h x (List.mem_cons_of_mem _ hx)
      simp only [List.zipWith_cons_cons, List.sum_cons]
      rw [h v List.mem_cons_self, this]
      ring

theorem wrapSumcheck_inv {α : Type} {x : Res α} {a : α} (h : wrapSumcheck x = .ok a) : x = .ok a := by
  unfold wrapSumcheck at h
  split at h <;> simp_all

/-- A sumcheck leaves a transcript that is not empty. -/
theorem sumcheckProve_notEmpty {H : Oracle F C} {vp : VirtPoly F} {tr tr' : Transcript F C} {pf : IOPProof F} (h : sumcheckProve H vp tr = .ok (pf, tr')) :
    tr'.isEmpty = false := by
  obtain ⟨_, _, e⟩ := sumcheckProve_chals h
  rw [(Prod.mk.inj e).2]
  exact roundChals_notEmpty H _ _ rfl

theorem multiOpen_notEmpty [DecidableEq F] {E : Curve F} {H : Oracle F E.G1} {pp : ProverParam E} {polys : List (Mle F)} {points : List (List F)} {evals : List F}
    {tr tr' : Transcript F E.G1} {bp : BatchProof E} (hp : multiOpen H pp polys points evals tr = .ok (bp, tr')) : tr'.isEmpty = false := by
  unfold multiOpen at hp
  obtain ⟨p0, _, hp⟩ := aft_bind_inv hp
  obtain ⟨⟨t, tr1⟩, h1, hp⟩ := aft_bind_inv hp
  obtain ⟨eqT, _, hp⟩ := aft_bind_inv hp
  obtain ⟨merged, h3, hp⟩ := aft_bind_inv hp
  obtain ⟨tes, h4, hp⟩ := aft_bind_inv hp
  obtain ⟨vp, h5, hp⟩ := aft_bind_inv hp
  obtain ⟨⟨pf, tr2⟩, h6, hp⟩ := aft_bind_inv hp
  simp only at hp
  split at hp
  · simp at hp
  obtain ⟨g', _, hp⟩ := aft_bind_inv hp
  obtain ⟨⟨gp, _⟩, _, hp⟩ := aft_bind_inv hp
  simp only [Except.ok.injEq, Prod.mk.injEq] at hp
  obtain ⟨_, rfl⟩ := hp
  exact sumcheckProve_notEmpty (wrapSumcheck_inv h6)

/-- After compiling, with all tables of one size: the tables are the same, and each recorded sum is the sum of its polynomial. -/
theorem compile_settles [DecidableEq F] {E : Curve F} {H : Oracle F E.G1} {g : E.G1} {h : E.G2} {T : List F} {debug : Bool} {R : Mle F → E.G1 → Prop}
    {t t' : PTracker F E.G1} {p : CompiledProof F E.G1 (BatchProof E)} {N : Nat} (hI : t.Inv R) (hne : t.transcript.isEmpty = false) (hm : t.mats ≠ []) (hN : N ≠ 0)
    (hall : ∀ e ∈ t.mats, e.2.mle.numVars = N) (hs : ∀ c ∈ t.sumClaims, ∃ nv, t.HasNv c.1 nv) (hz : ∀ c ∈ t.zeroClaims, ∃ nv, t.HasNv c nv)
    (hzero : ∀ c ∈ t.zeroClaims, ∀ nv, t.HasNv c nv → ∀ b < 2 ^ nv, t.gval (fun p => p.tbl b) c = 0) (hc : compile debug (kzgOf H g h T) H t = (.ok p, t')) :
    t'.Inv R ∧ Pres t t' ∧ t'.transcript.isEmpty = false ∧ t'.comms = t.comms ∧ t'.zeroClaims = t.zeroClaims ∧
      ∀ c ∈ t'.sumClaims, t'.HasNv c.1 N ∧ c.2 = t'.tsum N c.1 := by
  have hE := ext_same hI hall
  unfold compile at hc
  obtain ⟨agg, ta, h1, hc⟩ := Act.bind_eq_ok.1 hc
  obtain ⟨_, s2, h2, hc⟩ := Act.bind_eq_ok.1 hc
  obtain ⟨vp, s3, h3, hc⟩ := Act.bind_eq_ok.1 hc
  obtain ⟨h3v, rfl⟩ := Prod.mk.inj h3
  obtain ⟨pf, s4, h4, hc⟩ := Act.bind_eq_ok.1 hc
  obtain ⟨ids, s5, h5, hc⟩ := Act.bind_eq_ok.1 hc
  obtain ⟨e5, rfl⟩ := Prod.mk.inj h5
  obtain ⟨polys, s6, h6, hc⟩ := Act.bind_eq_ok.1 hc
  obtain ⟨h6v, rfl⟩ := Prod.mk.inj h6
  obtain ⟨evals, s7, h7, hc⟩ := Act.bind_eq_ok.1 hc
  obtain ⟨h7v, rfl⟩ := Prod.mk.inj h7
  obtain ⟨bp, s8, h8, hc⟩ := Act.bind_eq_ok.1 hc
  obtain ⟨_, rfl⟩ := Prod.mk.inj hc
  obtain ⟨te, heq, hIe, hpe, q1, q2, q3, q4, q5⟩ := equalize_same hI hm hall hs
  have hse : ∀ c ∈ te.sumClaims, te.HasNv c.1 N ∧ c.2 = te.tsum N c.1 := by
    intro c hc
    rw [q5] at hc
    obtain ⟨c', hc', rfl⟩ := List.mem_map.1 hc
    obtain ⟨nv, hnv⟩ := hs c' hc'
    have := (hE.hasNv hnv).2
    exact ⟨hpe.nv _ _ this, (hpe.tsum this).symm⟩
  have hze : ∀ c ∈ t.zeroClaims, t.HasNv c N := fun c hc => by
    obtain ⟨nv, hnv⟩ := hz c hc
    exact (hE.hasNv hnv).2
  obtain ⟨cs, tr1, r, tr2, t2, c1, c2, c3, c4, c5, c6, c7, c8, c9, c10, c11, c12, c13, c14, c15⟩ :=
    PTracker.convertZero_run (t := te) H hN hIe (by rw [q2]; exact hne) (by rw [q4]; exact fun c hc => hpe.nv _ _ (hze c hc))
  have hI3 := inv_pushMat c7 _ (constMle_wf N (0 : F))
  have hk3 := keep_pushMat c7 (constMle N (0 : F))
  have hn3 := hasNv_pushMat t2 (constMle N (0 : F))
  have hex : t2.tsum N (te.idCounter + 2 * te.zeroClaims.length + 2) = 0 := by
    unfold PTracker.tsum
    refine List.sum_eq_zero fun x hx => ?_
    obtain ⟨b, hb, rfl⟩ := List.mem_map.1 hx
    have hb := List.mem_range.1 hb
    rw [c15, constMle_tbl N 0 b hb, lincomb_zeros, zero_add, zero_mul]
    intro v hv
    obtain ⟨c, hc, rfl⟩ := List.mem_map.1 hv
    rw [q4] at hc
    rw [hpe.cube _ _ _ (hze c hc) hb]
    exact hzero c hc _ (hze c hc) b hb
  have hs2 : ∀ c ∈ t2.sumClaims, t2.HasNv c.1 N ∧ c.2 = t2.tsum N c.1 := by
    intro c hc
    rw [c13] at hc
    rcases List.mem_append.1 hc with hc | hc
    · obtain ⟨a1, a2⟩ := hse c hc
      exact ⟨a1.keep hIe c8, a2.trans ((c8.pres hIe).tsum a1).symm⟩
    · obtain rfl : c = _ := by simpa using hc
      exact ⟨c14, hex.symm⟩
  obtain ⟨ds, tr3, agg', ta', f1, f2, f3, f4, f5, f6, f7, f8, f9, f10, f11, f12, f13⟩ := PTracker.foldSumClaims_run (t := t2.pushMat (constMle N 0)) H
    t2.sumClaims 0 hI3 (by show t2.transcript.isEmpty = false; rw [c10]; exact c5) (fun c hc => (hs2 c hc).1.keep c7 hk3) hn3
  have hagg : PTracker.aggregate H t = (.ok (agg', 0 + lincomb ds (t2.sumClaims.map (·.2))), ta') := by
    unfold PTracker.aggregate
    rw [Act.bind_ok heq, Act.bind_ok c6, Act.bind_ok (a := constMle N 0) (s' := t2) (by simp [zeroMle_ok]), Act.bind_ok (trackMat_run _ _),
      Act.reads_bind, show (t2.pushMat (constMle N 0)).sumClaims = t2.sumClaims from rfl]
    exact f4
  rw [hagg] at h1
  obtain ⟨k, rfl⟩ := Prod.mk.inj h1
  obtain rfl := Except.ok.inj k
  have hpa : Pres t ta' := (hpe.trans (c8.pres hIe)).trans ((hk3.pres c7).trans (f6.pres hI3))
  have hsa : ∀ c ∈ ta'.sumClaims, ta'.HasNv c.1 N ∧ c.2 = ta'.tsum N c.1 := by
    intro c hc
    rw [f10] at hc
    obtain ⟨a1, a2⟩ := hs2 c hc
    have hp := (hk3.pres c7).trans (f6.pres hI3)
    exact ⟨hp.nv _ _ a1, a2.trans (hp.tsum a1).symm⟩
  have hd : s2.comms = ta'.comms ∧ s2.sumClaims = ta'.sumClaims ∧ s2.zeroClaims = ta'.zeroClaims ∧ PTracker.Inv R s2 ∧ Pres ta' s2 := by
    unfold debugCheck at h2
    by_cases hb : debug = true
    · rw [if_pos hb] at h2
      obtain ⟨e, s2', k1, k2⟩ := Act.bind_eq_ok.1 h2
      obtain ⟨_, rfl⟩ := Prod.mk.inj k2
      obtain ⟨a1, a2, a3, a4, a5⟩ := eff_evaluations agg' _ _ _ k1
      rw [evaluations_run f5 f12] at k1
      obtain ⟨_, rfl⟩ := Prod.mk.inj k1
      obtain ⟨b1, b2, _⟩ := matSt_spec f5 f12
      exact ⟨a3, a4, a5, b1, b2⟩
    · rw [if_neg hb] at h2
      obtain ⟨_, rfl⟩ := Prod.mk.inj h2
      exact ⟨rfl, rfl, rfl, f5, Pres.refl _⟩
  obtain ⟨d3, d4, d5, hI2, hp2⟩ := hd
  unfold proveSumcheck at h4
  rcases e4 : sumcheckProve H vp s2.transcript with e | ⟨pf', tr4⟩ <;> rw [e4] at h4
  · simp at h4
  obtain ⟨k, rfl⟩ := Prod.mk.inj h4
  obtain rfl := Except.ok.inj k
  unfold openBatch at h8
  split at h8
  · rename_i bp' tr5 e8
    obtain ⟨_, rfl⟩ := Prod.mk.inj h8
    have hp3 := hpa.trans hp2
    refine ⟨⟨hI2.matOk, hI2.virtOk, hI2.ptrs, hI2.commOk⟩, ⟨hp3.cnt, hp3.nv, hp3.cube, hp3.mats⟩, ?_, ?_, ?_, ?_⟩
    · exact multiOpen_notEmpty (H := H) e8
    · exact d3.trans (f9.trans (c11.trans q3))
    · exact d5.trans (f11.trans (c12.trans q4))
    · intro c hc
      change c ∈ s2.sumClaims at hc
      rw [d4] at hc
      obtain ⟨a1, a2⟩ := hsa c hc
      exact ⟨hp2.nv _ _ a1, a2.trans (hp2.tsum a1).symm⟩
  · simp at h8
  · simp at h8
/-! ### The verifier after a proof -/

theorem vaggregate_after [DecidableEq F] {s s1 : VSt F C B} {H : Oracle F C} {a : Nat × F} (hw : VSt.Wf s) (hc : ClaimsKnown s.own s.sh.comms) (h : VSt.aggregate H s = (.ok a, s1)) :
    VSt.Wf s1 ∧ VSt.VKeep s s1 ∧ ClaimsKnown s1.own s1.sh.comms := by
  have hne := aggregate_nonempty H h
  obtain ⟨cs, tr1, r, tr2, s2, c1, c2, c3, c4, c5, c6, c7, c8, c9, c10, c11, c12, c13, c14, c15, c16, c17⟩ := VSt.convertZero_run H s.own.proof.scNumVars hw hne hc.2
  have hw3 : VSt.Wf (s2.push (.fn fun _ => .ok 0)) := VSt.wf_push c7 (by simp [VComm.refs])
  have hk3 := VSt.keep_push c7 (.fn fun _ => .ok 0)
  have hknown : ∀ c ∈ s2.own.sumClaims, s2.Known c.1 := by
    intro c h
    rw [c14] at h
    rcases List.mem_append.1 h with h | h
    · exact c8.known (hc.1 c h)
    · obtain rfl : c = _ := by simpa using h
      exact c16
  obtain ⟨ds, tr3, agg, s', f1, f2, f3, f4, f5, f6, f7, f8, f9, f10, f11⟩ := VSt.foldSumClaims_run (s := s2.push (.fn fun _ => .ok 0)) H
    s2.own.sumClaims (agg := s2.own.idCounter) 0 hw3 (by show s2.own.transcript.isEmpty = false; rw [c10]; exact c5)
    (fun c h => hk3.known (hknown c h)) (VSt.known_push s2 _)
  have hag : VSt.aggregate H s = (.ok (agg, 0 + dot ds (s2.own.sumClaims.map (·.2))), s') := by
    unfold VSt.aggregate
    rw [Act.reads_bind, Act.bind_ok c6, Act.bind_ok (VSt.trackVirtual_run _ s2), Act.reads_bind,
      show (s2.push (.fn fun _ => .ok 0)).own.sumClaims = s2.own.sumClaims from rfl]
    exact f4
  rw [hag] at h
  obtain ⟨_, rfl⟩ := Prod.mk.inj h
  have hk := hk3.trans f6
  refine ⟨f5, c8.trans hk, fun c hc' => ?_, fun c hc' => ?_⟩
  · rw [f9.sums] at hc'
    exact hk.known (hknown c hc')
  · rw [f9.zeros] at hc'
    change c ∈ s2.own.zeroClaims at hc'
    rw [c13] at hc'
    exact (c8.trans hk).known (hc.2 c hc')

theorem vinv_after [DecidableEq F] {vs : VState F C B} {s : VSt F C B} {pcs : Pcs F C B} {H : Oracle F C} (hI : VInv vs)
    (h : VSt.verifyClaims pcs H vs.st = (.ok (), s)) : VInv ⟨s, vs.handles⟩ := by
  unfold VSt.verifyClaims at h
  obtain ⟨aggv, u1, w1, hv⟩ := Act.bind_eq_ok.1 h
  obtain ⟨sub, u2, w2, hv⟩ := Act.bind_eq_ok.1 hv
  obtain ⟨ids, u3, w3, hv⟩ := Act.bind_eq_ok.1 hv
  obtain ⟨_, rfl⟩ := Prod.mk.inj w3
  obtain ⟨comms, u4, w4, hv⟩ := Act.bind_eq_ok.1 hv
  obtain ⟨_, rfl⟩ := Prod.mk.inj w4
  obtain ⟨bpv, u5, w5, hv⟩ := Act.bind_eq_ok.1 hv
  obtain ⟨_, rfl⟩ := Prod.mk.inj w5
  obtain ⟨b, u6, w6, hv⟩ := Act.bind_eq_ok.1 hv
  obtain ⟨_, rfl⟩ := Prod.mk.inj hv
  obtain ⟨a1, a2, a3⟩ := vaggregate_after hI.wf hI.claims w1
  have e2 : ∃ tr, u2 = u1.setTr tr := by
    unfold VSt.checkSumcheck at w2
    split at w2
    · obtain ⟨_, rfl⟩ := Prod.mk.inj w2
      exact ⟨_, rfl⟩
    · simp at w2
    · simp at w2
  obtain ⟨tr, rfl⟩ := e2
  have e6 : ∃ tr', u6 = (u1.setTr tr).setTr tr' := by
    unfold VSt.checkBatch at w6
    split at w6
    · obtain ⟨_, rfl⟩ := Prod.mk.inj w6
      exact ⟨_, rfl⟩
    · simp at w6
  obtain ⟨tr', rfl⟩ := e6
  exact ⟨⟨a1.refs, a1.lt⟩, fun i hi => a2.known (hI.known i hi), a3⟩

/-! ### The prover's claims -/

/-- Sum claims are about known polynomials, zero claims about handles. -/
def Founded (st : PState F C) : Prop :=
  (∀ c ∈ st.tracker.sumClaims, ∃ nv, st.tracker.HasNv c.1 nv) ∧ ∀ e ∈ st.tracker.zeroClaims, ∃ a ∈ st.handles, a.id = e

theorem runOps_founded {commit : Mle F → Res C} {H : Oracle F C} {st st' : PState F C} (hI : StInv commit st) (ops : List (POp F C)) (h : runOps commit H st ops = .ok st')
    (hf : Founded st) : Founded st' := by
  induction ops generalizing st with
  | nil =>
    simp only [runOps, List.foldlM_nil] at h
    obtain rfl := Except.ok.inj h
    exact hf
  | cons op ops ih =>
    obtain ⟨s1, h1, h2⟩ := runOps_cons h
    have hs := run_stepOk hI op h1
    have he := run_effect hI op h1
    refine ih hs.inv h2 ⟨fun c hc => ?_, fun e hc => ?_⟩
    · obtain ⟨new, e1, e2⟩ := he.sums
      rw [e1] at hc
      rcases List.mem_append.1 hc with hc | hc
      · obtain ⟨nv, hn⟩ := hf.1 c hc
        exact ⟨nv, hs.pres.nv _ _ hn⟩
      · obtain ⟨a, ha, e⟩ := e2 c hc
        exact ⟨a.numVars, hs.pres.nv _ _ (e ▸ hI.known a ha)⟩
    · obtain ⟨new, e1, e2⟩ := he.zeros
      obtain ⟨nh, e3⟩ := he.handles
      rw [e1] at hc
      rcases List.mem_append.1 hc with hc | hc
      · obtain ⟨a, ha, k⟩ := hf.2 e hc
        exact ⟨a, e3 ▸ List.mem_append_left _ ha, k⟩
      · obtain ⟨a, ha, k⟩ := e2 e hc
        exact ⟨a, e3 ▸ List.mem_append_left _ ha, k⟩

/-! ### Rounds -/

/-- Between two rounds. -/
structure Settled (commit : Mle F → Res C) (N : Nat) (ps : PState F C) (vs : VState F C B) : Prop where
  inv : StInv commit ps
  vinv : VInv vs
  absorbed : Absorbed ps.tracker
  zeros : ∀ e ∈ ps.tracker.zeroClaims, ∃ a ∈ ps.handles, a.id = e
  sums : ∀ c ∈ ps.tracker.sumClaims, ps.tracker.HasNv c.1 N ∧ c.2 = ps.tracker.tsum N c.1
  level : Level ps.tracker vs.st
  handles : vs.handles = ps.handles.map (·.id)

theorem settled_init {commit : Mle F → Res C} {N : Nat} : Settled (B := B) commit N (PState.init : PState F C) VState.init :=
  ⟨stInv_init, vinv_init, fun h => absurd rfl h, by simp [PState.init, PTracker.new], by simp [PState.init, PTracker.new], ⟨rfl, rfl, rfl, rfl, rfl⟩, rfl⟩

theorem runVOps_setProof [DecidableEq F] {debug : Bool} {H : Oracle F C} (vs : VState F C B) (p : CompiledProof F C B) (ops : List (VOp F C B)) :
    runVOps debug H vs (.setProof p :: ops) = runVOps debug H ⟨⟨{ vs.st.own with proof := p }, vs.st.sh⟩, vs.handles⟩ ops := rfl

variable [DecidableEq F] {E : Curve F} {H : Oracle F E.G1} {g : E.G1} {h : E.G2} {T : List F}

/-- One more honest round. -/
theorem round_accepted (debug : Bool) {d N : Nat} {pub : Mle F → List F → Res F} {ps ps' : PState F E.G1} {vs : VState F E.G1 (BatchProof E)}
    (hS : Settled (kzgCommit (proverParamOf g h T)) N ps vs) (ops : List (POp F E.G1)) (hc : CommitsOk (kzgCommit (proverParamOf g h T)) ops)
    (hrun : runOps (kzgCommit (proverParamOf g h T)) H ps ops = .ok ps') (hN : N ≠ 0) (hNT : N ≤ T.length) (hm : OneSize N ps')
    (h2 : 2 ≤ ps'.tracker.comms.length) (hd : 1 ≤ d) (hdeg : ClaimDegree ps' d) (hchar : NatsNonzero F (d + 1)) (hz : ZerosTrue ps')
    (hav : ∀ p t, compile debug (kzgOf H g h T) H ps'.tracker = (.ok p, t) → Avoids p.scProof.point p.scMaxDegree ∧ ∀ bp ∈ p.pcsProof, Avoids bp.sumCheckProof.point 2) :
    ∃ p t s vs', compile debug (kzgOf H g h T) H ps'.tracker = (.ok p, t) ∧ runVOps debug H vs (.setProof p :: mirrorOps pub ops) = .ok vs' ∧
      VSt.verifyClaims (kzgOf H g h T) H vs'.st = (.ok (), s) ∧ Settled (kzgCommit (proverParamOf g h T)) N ⟨t, ps'.handles⟩ ⟨s, vs'.handles⟩ := by
  have hst := runOps_stepOk hS.inv ops hrun
  obtain ⟨hs, hzh⟩ := runOps_founded hS.inv ops hrun ⟨fun c hc => ⟨N, (hS.sums c hc).1⟩, hS.zeros⟩
  have hzc : ∀ c ∈ ps'.tracker.zeroClaims, ∃ nv, ps'.tracker.HasNv c nv := fun c hc => by
    obtain ⟨a, ha, e⟩ := hzh c hc
    exact ⟨a.numVars, e ▸ hst.inv.known a ha⟩
  have hne := runOps_absorbed hS.inv ops hrun hS.absorbed (by rintro e; rw [e] at h2; simp at h2)
  have hmne : ps'.tracker.mats ≠ [] := by
    intro e
    rcases hcm : ps'.tracker.comms with _ | ⟨⟨i, c⟩, l⟩
    · rw [hcm] at h2; simp at h2
    · obtain ⟨a, ha, _⟩ := hst.inv.inv.commOk i c (by rw [hcm]; simp)
      rw [e] at ha
      simp at ha
  obtain ⟨e0, he0⟩ := List.exists_mem_of_ne_nil _ hmne
  have hzero : ∀ c ∈ ps'.tracker.zeroClaims, ∀ nv, ps'.tracker.HasNv c nv → ∀ b < 2 ^ nv, ps'.tracker.gval (fun p => p.tbl b) c = 0 := by
    intro c hc nv hnv b hb
    obtain ⟨a, ha, rfl⟩ := hzh c hc
    have hk := hst.inv.known a ha
    obtain rfl := hasNv_unique hnv hk
    exact hz a ha hc _ (evalsOf_eq hst.inv hk) _ (List.mem_map.2 ⟨b, List.mem_range.2 hb, rfl⟩)
  obtain ⟨p, bp, N', te, hcomp, hbp, _, hcm, hle, ⟨e1, he1, hN'⟩, heq, hlook, hacc⟩ := accept_T (H := H) (g := g) (h := h) debug hst.inv.inv hne
    (fun e he => by rw [hm e he]; exact hNT) ⟨e0, he0, by rw [hm e0 he0]; exact hN⟩ hs hzc h2 hd (fun id v hi hv q hq => hdeg id hi v hv q hq) hchar hzero
  obtain rfl : N = N' := by rw [← hN', hm e1 he1]
  obtain ⟨t, hct⟩ : ∃ t, compile debug (kzgOf H g h T) H ps'.tracker = (.ok p, t) := ⟨_, Prod.ext hcomp rfl⟩
  obtain ⟨hav1, hav2⟩ := hav p t hct
  -- the verifier's calls
  set v0 : VState F E.G1 (BatchProof E) := ⟨⟨{ vs.st.own with proof := p }, vs.st.sh⟩, vs.handles⟩ with hv0
  have hI0 : VInv v0 := ⟨⟨hS.vinv.wf.refs, hS.vinv.wf.lt⟩, hS.vinv.known, hS.vinv.claims⟩
  have hst0 : InStep ps v0 := ⟨hS.level.counter, hS.level.transcript, hS.handles, hS.level.comms, by
    show vs.st.own.sumClaims.map _ = _
    rw [hS.level.sums], hS.level.zeros⟩
  obtain ⟨vs', r1, r2, r3, r4, _⟩ := joint_run (debug := debug) (pub := pub) hS.inv hI0 hst0 ops hc hrun
    ⟨fun id c h => by show p.comms.lookup id = _; rw [hcm]; exact h, fun e he => ⟨_, hlook e.1 (List.mem_map.2 ⟨e, he, rfl⟩)⟩⟩
  have hE := ext_same hst.inv.inv hm
  have hsr0 : SumsRead v0 := by
    intro c hc
    change c ∈ vs.st.own.sumClaims at hc
    rw [hS.level.sums] at hc
    obtain ⟨k1, k2⟩ := hS.sums c hc
    have he := runOps_effect hS.inv ops hrun
    show p.sumcheckClaims.lookup c.1 = _
    rw [hlook c.1 (List.mem_map.2 ⟨c, he.2.1 c hc, rfl⟩), equalize_tsum hst.inv.inv hs heq hmne (hst.pres.nv _ _ k1), k2, Nat.sub_self, pow_zero, one_mul]
    congr 1
    unfold cubeSum PTracker.tsum
    rw [list_sum_range']
    exact Finset.sum_congr rfl fun b hb => hst.pres.cube _ _ _ k1 (Finset.mem_range.1 hb)
  have hsr := runVOps_sums _ (mirrorOps_reading pub ops) hsr0 r1
  have hpf : vs'.st.own.proof = p := r4
  obtain ⟨hok, _⟩ := hacc vs' r3.wf r3.claims.2 r3.claims.1 hpf r2.transcript r2.comms r2.sums r2.zeros hsr hav1 (hav2 bp (by rw [hbp]; simp))
  obtain ⟨s, hv⟩ : ∃ s, VSt.verifyClaims (kzgOf H g h T) H vs'.st = (.ok (), s) := ⟨_, Prod.ext hok rfl⟩
  refine ⟨p, t, s, vs', hct, by rw [runVOps_setProof]; exact r1, hv, ?_⟩
  obtain ⟨b1, b2, b3, b4, b5, b6⟩ := compile_settles hst.inv.inv hne hmne hN hm hs hzc hzero hct
  obtain ⟨lv, _⟩ := level_after hst.inv.inv hne hs hzc ⟨r2.counter, r2.transcript, r2.comms, r2.sums, r2.zeros, hsr⟩ hpf hct hv
  exact ⟨⟨b1, fun a ha => b2.nv _ _ (hst.inv.known a ha)⟩, vinv_after r3 hv, fun _ => b3, fun e he => hzh e (b5 ▸ he), b6, lv, r2.handles⟩

/-- Honest sessions are accepted to the end. -/
theorem session_accepted (debug : Bool) {d N : Nat} {pub : Mle F → List F → Res F} (rounds : List (List (POp F E.G1))) {ps : PState F E.G1} {vs : VState F E.G1 (BatchProof E)}
    (hS : Settled (kzgCommit (proverParamOf g h T)) N ps vs) (hN : N ≠ 0) (hNT : N ≤ T.length) (hd : 1 ≤ d) (hchar : NatsNonzero F (d + 1))
    (hh : HonestRounds (OneSize N) debug H g h T d ps rounds) :
    ∃ ps' vs', session debug (kzgCommit (proverParamOf g h T)) (kzgOf H g h T) H pub ps vs rounds = .ok (ps', vs') ∧
      Settled (kzgCommit (proverParamOf g h T)) N ps' vs' := by
  induction rounds generalizing ps vs with
  | nil => exact ⟨ps, vs, rfl, hS⟩
  | cons ops rest ih =>
    obtain ⟨hc, ps', hrun, hm, h2, hdeg, hz, hrest⟩ := hh
    obtain ⟨p, t, s, vs', k1, k2, k3, k4⟩ := round_accepted (pub := pub) debug hS ops hc hrun hN hNT hm h2 hd hdeg hchar hz
      (fun p t e => ⟨(hrest p t e).1, (hrest p t e).2.1⟩)
    obtain ⟨ps2, vs2, e2, S2⟩ := ih k4 (hrest p t k1).2.2
    refine ⟨ps2, vs2, ?_, S2⟩
    have hp : Spec.proveNext debug (kzgCommit (proverParamOf g h T)) (kzgOf H g h T) H ps ops = .ok (p, ⟨t, ps'.handles⟩) := by
      unfold Spec.proveNext
      rw [hrun, ok_bind]
      rw [k1]
      rfl
    have hv : Spec.verifyNext debug (kzgOf H g h T) H pub vs p ops = .ok ⟨s, vs'.handles⟩ := by
      unfold Spec.verifyNext
      rw [k2, ok_bind]
      rw [k3]
      rfl
    unfold session
    rw [hp, ok_bind]
    show Spec.verifyNext debug (kzgOf H g h T) H pub vs p ops >>= _ = _
    rw [hv, ok_bind]
    exact e2
/-! ### Tables after compiling -/

/-- Compiling extends the tables to the largest size and changes nothing else in them. -/
theorem compile_tables {debug : Bool} {R : Mle F → E.G1 → Prop} {t t' : PTracker F E.G1} {p : CompiledProof F E.G1 (BatchProof E)} (hI : t.Inv R)
    (hne : t.transcript.isEmpty = false) (hs : ∀ c ∈ t.sumClaims, ∃ nv, t.HasNv c.1 nv) (hz : ∀ c ∈ t.zeroClaims, ∃ nv, t.HasNv c nv)
    (hc : compile debug (kzgOf H g h T) H t = (.ok p, t')) :
    ∃ N, (∀ e ∈ t.mats, e.2.mle.numVars ≤ N) ∧ (∃ e ∈ t.mats, e.2.mle.numVars = N) ∧ t'.Inv anyR ∧
      ∀ id nv, t.HasNv id nv → nv ≤ N ∧ t'.HasNv id N ∧ ∀ b < 2 ^ N, t'.gval (fun p => p.tbl b) id = t.gval (fun p => p.tbl (b % 2 ^ nv)) id := by
  unfold compile at hc
  obtain ⟨agg, ta, h1, hc⟩ := Act.bind_eq_ok.1 hc
  obtain ⟨_, s2, h2, hc⟩ := Act.bind_eq_ok.1 hc
  obtain ⟨vp, s3, h3, hc⟩ := Act.bind_eq_ok.1 hc
  obtain ⟨h3v, rfl⟩ := Prod.mk.inj h3
  obtain ⟨pf, s4, h4, hc⟩ := Act.bind_eq_ok.1 hc
  obtain ⟨ids, s5, h5, hc⟩ := Act.bind_eq_ok.1 hc
  obtain ⟨e5, rfl⟩ := Prod.mk.inj h5
  obtain ⟨polys, s6, h6, hc⟩ := Act.bind_eq_ok.1 hc
  obtain ⟨h6v, rfl⟩ := Prod.mk.inj h6
  obtain ⟨evals, s7, h7, hc⟩ := Act.bind_eq_ok.1 hc
  obtain ⟨h7v, rfl⟩ := Prod.mk.inj h7
  obtain ⟨bp, s8, h8, hc⟩ := Act.bind_eq_ok.1 hc
  obtain ⟨_, rfl⟩ := Prod.mk.inj hc
  have hm := aggregate_mats h1
  have hm' : t.mats ≠ [] := by
    obtain ⟨e0, he0, _⟩ := hm
    exact List.ne_nil_of_mem he0
  obtain ⟨N, te, cs, tr1, r, tr2, ds, tr3, agg', ta', hN, heq, _, _, _, _, _, _, _, hagg, hI', hk, _, _, hcm, _, hsc, hnv, _, _, _⟩ := PTracker.aggregate_run H hI hm hne hs hz
  rw [hagg] at h1
  obtain ⟨k, rfl⟩ := Prod.mk.inj h1
  obtain rfl := Except.ok.inj k
  obtain ⟨N', t1, te', hle, hex, hE, hI1, heq', hIe, hpe, _⟩ := equalize_run hI hm' hs
  rw [heq] at heq'
  obtain ⟨eN, rfl⟩ := Prod.mk.inj heq'
  obtain rfl := Except.ok.inj eN
  have hd : PTracker.Inv anyR s2 ∧ Pres ta' s2 := by
    unfold debugCheck at h2
    by_cases hb : debug = true
    · rw [if_pos hb] at h2
      obtain ⟨e, s2', k1, k2⟩ := Act.bind_eq_ok.1 h2
      obtain ⟨_, rfl⟩ := Prod.mk.inj k2
      rw [evaluations_run hI' hnv] at k1
      obtain ⟨_, rfl⟩ := Prod.mk.inj k1
      obtain ⟨b1, b2, _⟩ := matSt_spec hI' hnv
      exact ⟨b1, b2⟩
    · rw [if_neg hb] at h2
      obtain ⟨_, rfl⟩ := Prod.mk.inj h2
      exact ⟨hI', Pres.refl _⟩
  obtain ⟨hI2, hp2⟩ := hd
  have hp := (hpe.trans (hk.pres hIe)).trans hp2
  unfold proveSumcheck at h4
  rcases e4 : sumcheckProve H vp s2.transcript with e | ⟨pf', tr4⟩ <;> rw [e4] at h4
  · simp at h4
  obtain ⟨_, rfl⟩ := Prod.mk.inj h4
  unfold openBatch at h8
  split at h8
  · obtain ⟨_, rfl⟩ := Prod.mk.inj h8
    refine ⟨N, hle, hex, ⟨hI2.matOk, hI2.virtOk, hI2.ptrs, hI2.commOk⟩, fun id nv hnv => ?_⟩
    obtain ⟨a1, a2⟩ := hE.hasNv hnv
    exact ⟨a1, hp.nv _ _ a2, fun b hb => (hp.cube _ _ _ a2 hb).trans (hE.gval_tbl hnv b hb)⟩
  · simp at h8
  · simp at h8

end Zksql
