import Verif.Lemmas.Shape
/-! The shape of a compiled proof. -/
set_option linter.unusedSectionVars false
namespace Zksql
open Spec PTracker
variable {F C B : Type} [Field F]

namespace PTracker
variable {R : Mle F → C → Prop} {t t' : PTracker F C}

/-- Materialising changes nothing under other identifiers. -/
theorem materialize_other {i id : Nat} (h : materialize i t = (.ok (), t')) (hi : id ≠ i) : t'.mats.lookup id = t.mats.lookup id ∧ t'.virts.lookup id = t.virts.lookup id := by
  unfold materialize at h
  split at h
  · obtain ⟨-, rfl⟩ := Prod.mk.inj h
    exact ⟨rfl, rfl⟩
  · split at h
    · simp at h
    · obtain ⟨m, s1, h1, h⟩ := Act.bind_eq_ok.1 h
      obtain ⟨-, rfl⟩ := Prod.mk.inj h1
      obtain ⟨a, s2, h2, h⟩ := Act.bind_eq_ok.1 h
      obtain ⟨-, rfl⟩ := Prod.mk.inj h2
      obtain ⟨-, rfl⟩ := Prod.mk.inj h
      simp only [lookup_amErase, lookup_amInsert]
      rw [if_neg hi, if_neg hi]
      exact ⟨rfl, rfl⟩

theorem evaluations_other {i id : Nat} {l : List F} (h : evaluations i t = (.ok l, t')) (hi : id ≠ i) :
    t'.mats.lookup id = t.mats.lookup id ∧ t'.virts.lookup id = t.virts.lookup id := by
  unfold evaluations at h
  obtain ⟨u, s1, h1, h⟩ := Act.bind_eq_ok.1 h
  obtain ⟨a, s2, h2, h⟩ := Act.bind_eq_ok.1 h
  obtain ⟨-, rfl⟩ := Prod.mk.inj h2
  obtain ⟨-, rfl⟩ := Prod.mk.inj h
  exact materialize_other h1 hi

theorem trueSums_other (claims : List (Nat × F)) {l : List F} {id : Nat} (h : trueSums claims t = (.ok l, t')) (hi : id ∉ claims.map (·.1)) :
    t'.mats.lookup id = t.mats.lookup id ∧ t'.virts.lookup id = t.virts.lookup id := by
  induction claims generalizing t l with
  | nil =>
    obtain ⟨-, rfl⟩ := Prod.mk.inj h
    exact ⟨rfl, rfl⟩
  | cons c cs ih =>
    unfold trueSums at h
    obtain ⟨e, s1, h1, h⟩ := Act.bind_eq_ok.1 h
    obtain ⟨r, s2, h2, h⟩ := Act.bind_eq_ok.1 h
    obtain ⟨-, rfl⟩ := Prod.mk.inj h
    simp only [List.map_cons, List.mem_cons, not_or] at hi
    obtain ⟨a1, a2⟩ := evaluations_other h1 hi.1
    obtain ⟨b1, b2⟩ := ih h2 hi.2
    exact ⟨b1.trans a1, b2.trans a2⟩

/-- Extending the tables turns the polynomials with claimed sums into tables and leaves the degree of the others. -/
theorem equalize_degIs (hI : Inv R t) (hm : t.mats ≠ []) (hs : ∀ c ∈ t.sumClaims, ∃ nv, t.HasNv c.1 nv) {N : Nat} (h : equalize t = (.ok N, t')) {id d : Nat}
    (hd : DegIs t id d) : DegIs t' id (if id ∈ t.sumClaims.map (·.1) then 1 else d) := by
  obtain ⟨N', t1, te, hle, hex, hE, hI1, heq, hIe, hpe, hcnt, htr, hcm, hzc, hsc, _, hmat⟩ := equalize_run hI hm hs
  rw [h] at heq
  obtain ⟨eN, rfl⟩ := Prod.mk.inj heq
  obtain rfl := Except.ok.inj eN
  by_cases hi : id ∈ t.sumClaims.map (·.1)
  · rw [if_pos hi]
    obtain ⟨c, hc, rfl⟩ := List.mem_map.1 hi
    obtain ⟨a, e⟩ := Option.isSome_iff_exists.1 (hmat c hc)
    exact .inl ⟨a, e, rfl⟩
  · rw [if_neg hi]
    unfold equalize at h
    obtain ⟨nv, s1, h1, h⟩ := Act.bind_eq_ok.1 h
    obtain ⟨e1, rfl⟩ := Prod.mk.inj h1
    obtain ⟨r, s2, h2, h⟩ := Act.bind_eq_ok.1 h
    obtain ⟨e2, rfl⟩ := Prod.mk.inj h2
    obtain ⟨u, s3, h3, h⟩ := Act.bind_eq_ok.1 h
    obtain ⟨-, rfl⟩ := Prod.mk.inj h3
    obtain ⟨cl, s4, h4, h⟩ := Act.bind_eq_ok.1 h
    obtain ⟨e4, rfl⟩ := Prod.mk.inj h4
    obtain rfl := Except.ok.inj e4
    obtain ⟨ss, s5, h5, h⟩ := Act.bind_eq_ok.1 h
    obtain ⟨u2, s6, h6, h⟩ := Act.bind_eq_ok.1 h
    obtain ⟨-, rfl⟩ := Prod.mk.inj h6
    obtain ⟨e7, rfl⟩ := Prod.mk.inj h
    obtain rfl := Except.ok.inj e7
    obtain ⟨l', hp', g1, g2, _⟩ := extend_ext hI hle
    have e2 : extendMats nv t.mats t.heap = .ok r := e2
    rw [g1] at e2
    obtain rfl := Except.ok.inj e2
    obtain ⟨k1, k2⟩ := trueSums_other _ h5 hi
    unfold DegIs
    show (∃ a, s5.mats.lookup id = _ ∧ _) ∨ (s5.mats.lookup id = none ∧ ∃ v, s5.virts.lookup id = _ ∧ _)
    rw [k1, k2]
    rcases hd with ⟨a, e, rfl⟩ | ⟨e, v, ev, hv⟩
    · obtain ⟨_, a', ha, _⟩ := g2.some id a e
      exact .inl ⟨a', ha, rfl⟩
    · exact .inr ⟨g2.none id e, v, ev, hv⟩

end PTracker

/-! ### Messages -/

theorem proveRound_len {st st' : ProverState F} {ch : Option F} {msg : List F} (h : proveRound st ch = .ok (msg, st')) :
    msg.length = st.poly.maxDegree + 1 ∧ st'.poly.maxDegree = st.poly.maxDegree := by
  unfold proveRound at h
  split at h
  · simp at h
  · obtain ⟨⟨chals, ts⟩, h1, h⟩ := aft_bind_inv h
    obtain ⟨m, h2, h⟩ := aft_bind_inv h
    obtain ⟨e1, e2⟩ := Prod.mk.inj (Except.ok.inj h)
    subst e1 e2
    refine ⟨?_, rfl⟩
    have gen : ∀ (l : List (F × List Nat)) (acc m : List F), l.foldlM (init := acc) (fun acc cp => do
        let m ← productMsg st.extrapolationAux st.poly.maxDegree ts (2 ^ (st.poly.numVariables - (st.round + 1))) cp
        .ok ((List.range acc.length).map fun i => acc.getD i 0 + m.getD i 0)) = (.ok m : Res (List F)) → m.length = acc.length := by
      intro l
      induction l with
      | nil =>
        intro acc m h
        obtain rfl := Except.ok.inj h
        rfl
      | cons x l ih =>
        intro acc m h
        rw [List.foldlM_cons] at h
        obtain ⟨acc', h1, h⟩ := aft_bind_inv h
        obtain ⟨_, _, h1⟩ := aft_bind_inv h1
        rw [ih _ _ h, ← Except.ok.inj h1]
        simp
    rw [gen _ _ _ h2]
    simp

theorem proveLoop_len {H : Oracle F C} : ∀ {n : Nat} {st st' : ProverState F} {ch ch' : Option F} {tr tr' : Transcript F C} {msgs : List (List F)},
    proveLoop H n st ch tr = .ok (msgs, st', ch', tr') → ∀ m ∈ msgs, m.length = st.poly.maxDegree + 1
  | 0, st, st', ch, ch', tr, tr', msgs, h => by
    simp only [proveLoop, Except.ok.injEq, Prod.mk.injEq] at h
    obtain ⟨rfl, rfl, rfl, rfl⟩ := h
    simp
  | n + 1, st, st', ch, ch', tr, tr', msgs, h => by
    unfold proveLoop at h
    obtain ⟨⟨msg, s1⟩, h1, h⟩ := aft_bind_inv h
    simp only [challenge_append, ok_bind] at h
    obtain ⟨⟨ms, s2, c2, t2⟩, h2, h⟩ := aft_bind_inv h
    simp only [Except.ok.injEq, Prod.mk.injEq] at h
    obtain ⟨rfl, rfl, rfl, rfl⟩ := h
    obtain ⟨a, b⟩ := proveRound_len h1
    intro m hm
    rcases List.mem_cons.1 hm with rfl | hm
    · exact a
    · rw [proveLoop_len h2 m hm, b]

/-- The shape of a sumcheck proof. -/
theorem sumcheckProve_shape {H : Oracle F C} {vp : VirtPoly F} {tr tr' : Transcript F C} {pf : IOPProof F} (h : sumcheckProve H vp tr = .ok (pf, tr')) :
    pf.point.length = vp.numVariables ∧ pf.proofs.length = vp.numVariables ∧ ∀ m ∈ pf.proofs, m.length = vp.maxDegree + 1 := by
  obtain ⟨a, _, b⟩ := sumcheckProve_chals h
  refine ⟨?_, a, ?_⟩
  · have := congrArg (fun x => x.1.length) b
    simp only at this
    rw [this, roundChals_length, a]
  · unfold sumcheckProve at h
    obtain ⟨st, h1, h⟩ := aft_bind_inv h
    obtain ⟨⟨ms, s2, c2, t2⟩, h2, h⟩ := aft_bind_inv h
    simp only [Except.ok.injEq, Prod.mk.injEq] at h
    obtain ⟨rfl, rfl⟩ := h
    have hs : st.poly = vp := by
      unfold proverInit at h1
      split at h1
      · simp at h1
      · rw [← Except.ok.inj h1]
    exact fun m hm => by rw [proveLoop_len h2 m hm, hs]

/-! ### The opening proof -/

theorem openLoop_length {E : Curve F} : ∀ (pt : List F) (gs : List (List E.G1)) (f : List F) {l : List E.G1}, openLoop pt gs f = .ok l → l.length = min pt.length gs.length
  | [], gs, f, l, h => by
    obtain rfl := Except.ok.inj h
    simp
  | p :: ps, [], f, l, h => by
    obtain rfl := Except.ok.inj h
    simp
  | p :: ps, g :: gs, f, l, h => by
    unfold openLoop at h
    obtain ⟨qr, _, h⟩ := aft_bind_inv h
    obtain ⟨rest, h2, h⟩ := aft_bind_inv h
    obtain rfl := Except.ok.inj h
    simp [openLoop_length ps gs _ h2]

theorem kzgOpen_length {E : Curve F} {pp : ProverParam E} {p : Mle F} {pt : List F} {l : List E.G1} {v : F} (h : kzgOpen pp p pt = .ok (l, v)) : l.length = pt.length := by
  unfold kzgOpen at h
  split at h
  · simp at h
  split at h
  · simp at h
  next hn =>
  simp only at h
  split at h
  · simp at h
  next hl =>
  obtain ⟨pr, h1, h⟩ := aft_bind_inv h
  obtain ⟨x, _, h⟩ := aft_bind_inv h
  obtain ⟨rfl, _⟩ := Prod.mk.inj (Except.ok.inj h)
  rw [openLoop_length _ _ _ h1]
  simp only [List.length_take, List.length_drop]
  omega

/-- The shape of a batch opening. -/
theorem multiOpen_shape [DecidableEq F] {E : Curve F} {H : Oracle F E.G1} {pp : ProverParam E} {polys : List (Mle F)} {points : List (List F)} {evals : List F}
    {tr trp : Transcript F E.G1} {bp : BatchProof E} {N : Nat} (hpt : points ≠ []) (hN : ∀ p ∈ polys, p.numVars = N)
    (hp : multiOpen H pp polys points evals tr = .ok (bp, trp)) :
    bp.sumCheckProof.point.length = N ∧ bp.sumCheckProof.proofs.length = N ∧ (∀ m ∈ bp.sumCheckProof.proofs, m.length = 3) ∧ bp.evals = evals ∧ bp.gPrimeProof.length = N := by
  unfold multiOpen at hp
  obtain ⟨p0, h0, hp⟩ := aft_bind_inv hp
  obtain ⟨⟨t, tr1⟩, h1, hp⟩ := aft_bind_inv hp
  obtain ⟨eqT, _, hp⟩ := aft_bind_inv hp
  obtain ⟨merged, h3, hp⟩ := aft_bind_inv hp
  obtain ⟨tes, h4, hp⟩ := aft_bind_inv hp
  obtain ⟨vp, h5, hp⟩ := aft_bind_inv hp
  obtain ⟨⟨pf, tr2⟩, h6, hp⟩ := aft_bind_inv hp
  have hdd := dedupPoints_ne points [] (Or.inr hpt)
  have hm : merged.length = (dedupPoints [] points).length := by rw [mergeLoop_length _ _ _ _ h3]; simp
  have ht : tes.length = (dedupPoints [] points).length := aft_mapM_length h4
  obtain ⟨m1, m2⟩ := buildBatchPoly_meta (by
    rintro e
    have := congrArg List.length e
    rw [List.length_zip, hm, ht] at this
    simp at this
    exact hdd this) h5
  simp only at hp
  split at hp
  · simp at hp
  obtain ⟨g', _, hp⟩ := aft_bind_inv hp
  obtain ⟨⟨gp, _⟩, h8, hp⟩ := aft_bind_inv hp
  simp only [Except.ok.injEq, Prod.mk.injEq] at hp
  obtain ⟨rfl, rfl⟩ := hp
  obtain ⟨q1, q2, q3⟩ := sumcheckProve_shape (wrapSumcheck_ok h6)
  have hp0 : p0.numVars = N := hN p0 (List.mem_of_getElem? (idx_inv h0))
  refine ⟨by rw [q1, m2, hp0], by rw [q2, m2, hp0], fun m hm => by rw [q3 m hm, m1], rfl, ?_⟩
  show gp.length = N
  rw [kzgOpen_length h8, List.length_take, q1, m2, hp0]
  exact Nat.min_self _

/-! ### Claims -/

theorem claimMap_keys (l : List (Nat × F)) : ((claimMap l).map (·.1)).Nodup ∧ ∀ id, id ∈ (claimMap l).map (·.1) ↔ id ∈ l.map (·.1) := by
  have gen : ∀ (l m : List (Nat × F)), (m.map (·.1)).Nodup → ((l.foldl (fun m c => amInsert c.1 c.2 m) m).map (·.1)).Nodup ∧
      ∀ id, id ∈ (l.foldl (fun m c => amInsert c.1 c.2 m) m).map (·.1) ↔ id ∈ m.map (·.1) ∨ id ∈ l.map (·.1) := by
    intro l
    induction l with
    | nil => intro m h; simpa using h
    | cons c l ih =>
      intro m h
      have hk : ∀ id, id ∈ (amInsert c.1 c.2 m).map (·.1) ↔ id = c.1 ∨ id ∈ m.map (·.1) := by
        intro id
        unfold amInsert
        simp only [List.map_cons, List.mem_cons, List.mem_map, List.mem_filter, Bool.not_eq_eq_eq_not, Bool.not_true, beq_eq_false_iff_ne]
        constructor
        · rintro (rfl | ⟨e, ⟨h1, _⟩, rfl⟩)
          · exact .inl rfl
          · exact .inr ⟨e, h1, rfl⟩
        · rintro (rfl | ⟨e, h1, rfl⟩)
          · exact .inl rfl
          · by_cases he : e.1 = c.1
            · exact .inl he
            · exact .inr ⟨e, ⟨h1, he⟩, rfl⟩
      have hn : ((amInsert c.1 c.2 m).map (·.1)).Nodup := by
        unfold amInsert
        rw [List.map_cons, List.nodup_cons]
        refine ⟨?_, ?_⟩
        · rintro hm
          obtain ⟨e, he, e1⟩ := List.mem_map.1 hm
          have := (List.mem_filter.1 he).2
          simp [e1] at this
        · exact List.Nodup.sublist (List.Sublist.map (fun e : Nat × F => e.1) List.filter_sublist) h
      obtain ⟨a, b⟩ := ih _ hn
      refine ⟨a, fun id => ?_⟩
      rw [List.foldl_cons, b id, hk]
      simp only [List.map_cons, List.mem_cons]
      tauto
  obtain ⟨a, b⟩ := gen l [] (by simp)
  exact ⟨a, fun id => by rw [claimMap, b]; simp⟩

/-! ### The compiled proof -/

/-- What a compiled proof looks like. -/
structure ShapeOf (t : PTracker F C) (p : CompiledProof F C B) (N : Nat) : Prop where
  pos : N ≠ 0
  le : ∀ e ∈ t.mats, e.2.mle.numVars ≤ N
  attained : ∃ e ∈ t.mats, e.2.mle.numVars = N
  numVars : p.scNumVars = N
  point : p.scProof.point.length = N
  rounds : p.scProof.proofs.length = N
  msgs : ∀ m ∈ p.scProof.proofs, m.length = p.scMaxDegree + 1
  comms : p.comms = t.comms
  queries : p.queryMap = (sortedIds t.comms).map fun id => ((id, p.scProof.point), 0)
  openings : p.pcsProof.length = 1
  claimsNodup : (p.sumcheckClaims.map (·.1)).Nodup
  claims : ∀ id, id ∈ p.sumcheckClaims.map (·.1) ↔ id ∈ t.sumClaims.map (·.1) ∨ id = t.idCounter + 2 * t.zeroClaims.length + 2

theorem compile_shape [DecidableEq F] {R : Mle F → C → Prop} {debug : Bool} {pcs : Pcs F C B} {H : Oracle F C} {t t' : PTracker F C} {p : CompiledProof F C B} (hI : Inv R t)
    (hne : t.transcript.isEmpty = false) (hs : ∀ c ∈ t.sumClaims, ∃ nv, t.HasNv c.1 nv) (hz : ∀ c ∈ t.zeroClaims, ∃ nv, t.HasNv c nv)
    (hc : compile debug pcs H t = (.ok p, t')) : ∃ N, ShapeOf t p N ∧
      (∀ f : Nat → Nat, (∀ c ∈ t.zeroClaims, DegIs t c (f c)) →
        p.scMaxDegree = if debug then 1 else ((t.zeroClaims.map fun c => if c ∈ t.sumClaims.map (·.1) then 1 else f c).foldl max 1) + 1) ∧
      ∃ polys evals tr bp tr', pcs.multiOpen polys ((sortedIds t.comms).map fun _ => p.scProof.point) evals tr = .ok (bp, tr') ∧ p.pcsProof = [bp] ∧
        (∀ q ∈ polys, q.numVars = N) ∧ polys.length = t.comms.length ∧ evals.length = t.comms.length := by
  have hcomms := compile_comms hc
  have hq := (compile_queries hc).2
  rw [← (compile_queries hc).1, hcomms] at hq
  unfold compile at hc
  obtain ⟨agg, s1, h1, hc⟩ := Act.bind_eq_ok.1 hc
  obtain ⟨_, s2, h2, hc⟩ := Act.bind_eq_ok.1 hc
  obtain ⟨vp, s3, h3, hc⟩ := Act.bind_eq_ok.1 hc
  obtain ⟨h3v, rfl⟩ := Prod.mk.inj h3
  obtain ⟨pf, s4, h4, hc⟩ := Act.bind_eq_ok.1 hc
  obtain ⟨ids, s5, h5, hc⟩ := Act.bind_eq_ok.1 hc
  obtain ⟨e5, rfl⟩ := Prod.mk.inj h5
  obtain rfl := Except.ok.inj e5
  obtain ⟨polys, s6, h6, hc⟩ := Act.bind_eq_ok.1 hc
  obtain ⟨h6v, rfl⟩ := Prod.mk.inj h6
  obtain ⟨evals, s7, h7, hc⟩ := Act.bind_eq_ok.1 hc
  obtain ⟨h7v, rfl⟩ := Prod.mk.inj h7
  obtain ⟨bp, s8, h8, hc⟩ := Act.bind_eq_ok.1 hc
  obtain ⟨e, rfl⟩ := Prod.mk.inj hc
  have e := Except.ok.inj e
  have hm := aggregate_mats h1
  have hm' : t.mats ≠ [] := by
    obtain ⟨e0, he0, _⟩ := hm
    exact List.ne_nil_of_mem he0
  obtain ⟨N, te, cs, tr1, r, tr2, ds, tr3, agg', ta', hN, heq, _, _, _, _, _, _, _, hagg, hI', hk, _, _, hcm, _, hsc, hnv, _, _, _⟩ := aggregate_run H hI hm hne hs hz
  have h1' := h1
  rw [hagg] at h1
  obtain ⟨k, rfl⟩ := Prod.mk.inj h1
  obtain rfl := Except.ok.inj k
  obtain ⟨N', t1, te', hle, hex, hE, _, heq', hIe, hpe, q1, q2, q3, q4, q5, _, hmat⟩ := equalize_run hI hm' hs
  rw [heq] at heq'
  obtain ⟨eN, rfl⟩ := Prod.mk.inj heq'
  obtain rfl := Except.ok.inj eN
  have hd : s2.comms = ta'.comms ∧ s2.sumClaims = ta'.sumClaims ∧ Inv anyR s2 ∧ s2.HasNv agg' N ∧ ∀ D, DegIs ta' agg' D → DegIs s2 agg' (if debug then 1 else D) := by
    unfold debugCheck at h2
    by_cases hb : debug = true
    · rw [if_pos hb] at h2
      obtain ⟨e, s2', k1, k2⟩ := Act.bind_eq_ok.1 h2
      obtain ⟨_, rfl⟩ := Prod.mk.inj k2
      obtain ⟨a1, a2, a3, a4, a5⟩ := eff_evaluations agg' _ _ _ k1
      rw [evaluations_run hI' hnv] at k1
      obtain ⟨_, rfl⟩ := Prod.mk.inj k1
      obtain ⟨b1, b2, a, b3, _⟩ := matSt_spec hI' hnv
      exact ⟨a3, a4, b1, b2.nv _ _ hnv, fun D _ => .inl ⟨a, b3, by rw [if_pos hb]⟩⟩
    · rw [if_neg hb] at h2
      obtain ⟨_, rfl⟩ := Prod.mk.inj h2
      exact ⟨rfl, rfl, hI', hnv, fun D hD => by rw [if_neg hb]; exact hD⟩
  obtain ⟨d3, d4, hI2, hnv2, hD⟩ := hd
  obtain ⟨vp', v1, _, v2, _⟩ := toArith_spec hI2 hnv2
  beta_reduce at h3v
  rw [v1] at h3v
  obtain rfl := Except.ok.inj h3v
  unfold proveSumcheck at h4
  rcases e4 : sumcheckProve H vp' s2.transcript with e | ⟨pf', tr4⟩ <;> rw [e4] at h4
  · simp at h4
  obtain ⟨k, rfl⟩ := Prod.mk.inj h4
  obtain rfl := Except.ok.inj k
  have hcl : s8.sumClaims = s2.sumClaims := by
    unfold openBatch at h8
    rcases e8 : pcs.multiOpen polys ((sortedIds s2.comms).map fun _ => pf'.point) evals tr4 with (_ | _) | ⟨bp', tr5⟩ <;> rw [e8] at h8
    · simp at h8
    · simp at h8
    obtain ⟨k, rfl⟩ := Prod.mk.inj h8
    rfl
  obtain ⟨w1, w2, w3⟩ := sumcheckProve_shape e4
  have hids : te.sumClaims.map (·.1) = t.sumClaims.map (·.1) := by rw [q5, List.map_map]; rfl
  have hkeys := claimMap_keys s8.sumClaims
  subst e
  have hlen : polys.length = t.comms.length := by
    rw [aft_mapM_length h6v, length_sortedIds, d3, hcm]
  refine ⟨N, ⟨hN, hle, hex, v2, w1.trans v2, w2.trans v2, w3, hcomms, hq, rfl, hkeys.1, ?_⟩, ?_, ?_⟩
  · intro id
    show id ∈ (claimMap s8.sumClaims).map _ ↔ _
    rw [hkeys.2, hcl, d4, hsc, List.map_append, List.mem_append, hids]
    simp
  · intro f hf
    show vp'.maxDegree = _
    refine toArith_degIs hI2 hnv2 (hD _ ?_) v1
    have := aggregate_degIs H (fun c => if c ∈ t.sumClaims.map (·.1) then 1 else f c) heq (FreshAbove.of_inv hIe)
      (fun c hc => equalize_degIs hI hm' hs heq (hf c (q4 ▸ hc))) (fun c hc => by
        have : c.1 ∈ t.sumClaims.map (·.1) := hids ▸ List.mem_map.2 ⟨c, hc, rfl⟩
        obtain ⟨c', hc', e⟩ := List.mem_map.1 this
        rw [← e]
        exact hmat c' hc') h1'
    rw [q4] at this
    exact this
  · unfold openBatch at h8
    rcases e8 : pcs.multiOpen polys ((sortedIds s2.comms).map fun _ => pf'.point) evals tr4 with (_ | _) | ⟨bp', tr5⟩ <;> rw [e8] at h8
    · simp at h8
    · simp at h8
    obtain ⟨k, rfl⟩ := Prod.mk.inj h8
    obtain rfl := Except.ok.inj k
    rw [d3, hcm] at e8
    refine ⟨polys, evals, tr4, bp', tr5, e8, rfl, ?_, hlen, (aft_mapM_length h7v).trans hlen⟩
    have gen : ∀ (l : List (Mle F)) (es : List F), l.mapM (fun p => unwrap (p.evaluate pf'.point)) = (.ok es : Res (List F)) → ∀ q ∈ l, q.numVars = N := by
      intro l
      induction l with
      | nil => simp
      | cons x l ih =>
        intro es h q hq
        rw [List.mapM_cons] at h
        obtain ⟨y, hy, h⟩ := aft_bind_inv h
        obtain ⟨ys, h2, h⟩ := aft_bind_inv h
        rcases List.mem_cons.1 hq with rfl | hq
        · unfold Mle.evaluate at hy
          split at hy
          · next hl => rw [← w1.trans v2]; exact hl
          · simp [unwrap] at hy
        · exact ih _ h2 q hq
    exact gen _ _ h7v

end Zksql
