import Verif.Lemmas.VerifyRun
import Verif.Spec.Compile
/-!
An honest compiled proof.
-/
set_option linter.unusedSectionVars false
namespace Zksql
open Spec PTracker
variable {F : Type} [Field F] [DecidableEq F] {E : Curve F} {H : Oracle F E.G1} {g : E.G1} {h : E.G2} {T : List F} {ps : PState F E.G1}

theorem claims_hasNv {C : Type} {commit : Mle F → Res C} {H : Oracle F C} {ps : PState F C} (hr : Reachable commit H ps) :
    (∀ c ∈ ps.tracker.sumClaims, ∃ nv, ps.tracker.HasNv c.1 nv) ∧ ∀ c ∈ ps.tracker.zeroClaims, ∃ nv, ps.tracker.HasNv c nv := by
  have hI := hr.inv
  have hcl := hr.claimed
  constructor
  · intro c h
    obtain ⟨a, ha, e⟩ := hcl.1 c h
    exact ⟨a.numVars, e ▸ hI.known a ha⟩
  · intro c h
    obtain ⟨a, ha, e⟩ := hcl.2 c h
    exact ⟨a.numVars, e ▸ hI.known a ha⟩

theorem hasNv_unique {C : Type} {t : PTracker F C} {id n m : Nat} (hn : t.HasNv id n) (hm : t.HasNv id m) : n = m := by
  have := getPolyNv_spec hn
  rw [getPolyNv_spec hm] at this
  injection this with this
  exact this.symm

theorem zerosTrue_gval {C : Type} {commit : Mle F → Res C} {H : Oracle F C} {ps : PState F C} (hr : Reachable commit H ps) (hz : ZerosTrue ps) :
    ∀ c ∈ ps.tracker.zeroClaims, ∀ nv, ps.tracker.HasNv c nv → ∀ b < 2 ^ nv, ps.tracker.gval (fun p => p.tbl b) c = 0 := by
  intro c hc nv hnv b hb
  obtain ⟨a, ha, rfl⟩ := hr.claimed.2 c hc
  have hk := hr.inv.known a ha
  obtain rfl := hasNv_unique hnv hk
  exact hz a ha hc _ (evalsOf_eq hr.inv hk) _ (List.mem_map.2 ⟨b, List.mem_range.2 hb, rfl⟩)

/-- Compiling with the KZG scheme and at least two commitments. -/
theorem compile_kzgT (debug : Bool) {d : Nat} {t : PTracker F E.G1} {R : Mle F → E.G1 → Prop} (hI : t.Inv R) (hne : t.transcript.isEmpty = false)
    (hm1 : ∀ e ∈ t.mats, e.2.mle.numVars ≤ T.length) (hm2 : ∃ e ∈ t.mats, e.2.mle.numVars ≠ 0)
    (hs : ∀ c ∈ t.sumClaims, ∃ nv, t.HasNv c.1 nv) (hzc : ∀ c ∈ t.zeroClaims, ∃ nv, t.HasNv c nv)
    (h2 : 2 ≤ t.comms.length) (hd : 1 ≤ d) (hdeg : Deg (fun i => i ∈ t.zeroClaims ∨ i ∈ t.sumClaims.map (·.1)) d t) (hchar : NatsNonzero F (d + 1))
    (hz : ∀ c ∈ t.zeroClaims, ∀ nv, t.HasNv c nv → ∀ b < 2 ^ nv, t.gval (fun p => p.tbl b) c = 0) :
    ∃ (N : Nat) (te : PTracker F E.G1) (cs : List F) (tr1 : Transcript F E.G1) (r : List F) (tr2 : Transcript F E.G1) (ds : List F)
      (tr3 : Transcript F E.G1) (vp : VirtPoly F) (pf : IOPProof F) (tr4 : Transcript F E.G1) (polys : List (Mle F)) (extra : Nat) (bp : BatchProof E)
      (tr5 : Transcript F E.G1), N ≠ 0 ∧ (∀ e ∈ t.mats, e.2.mle.numVars ≤ N) ∧
      (∃ e ∈ t.mats, e.2.mle.numVars = N) ∧
      t.transcript.challengeLoop H "zerocheck challenge" t.zeroClaims.length = .ok (cs, tr1) ∧
      tr1.challenges H "0check r" N = .ok (r, tr2) ∧
      tr2.challengeLoop H "sumcheck challenge" (t.sumClaims.length + 1) = .ok (ds, tr3) ∧
      PTracker.equalize t = (.ok N, te) ∧ sumcheckProve H vp tr3 = .ok (pf, tr4) ∧ (∃ heap, VirtPoly.Inv heap vp) ∧ vp.numVariables = N ∧ 0 < vp.maxDegree ∧ vp.maxDegree ≤ d + 1 ∧
      partialSum vp.polyVal N [] = foldedSum ds (te.sumClaims.map (·.2)) ∧ pf.point.length = N ∧
      te.sumClaims.map (·.1) = t.sumClaims.map (·.1) ∧ (∀ c ∈ te.sumClaims, c.2 = te.tsum N c.1) ∧ t.idCounter ≤ extra ∧
      polys.length = (sortedIds t.comms).length ∧
      (∀ i, (h : i < (sortedIds t.comms).length) → ∃ a, t.mats.lookup (sortedIds t.comms)[i] = some a ∧ a.mle.WF ∧
        a.mle.numVars ≤ N ∧ polys[i]? = some (extMle N a.mle)) ∧
      (compile debug (kzgOf H g h T) H t).1 = .ok (mkProof t.comms (te.sumClaims ++ [(extra, 0)]) pf vp bp) ∧
      bp.sumCheckProof.point.length = N ∧
      ∀ comms : List E.G1, comms.length = polys.length → Avoids bp.sumCheckProof.point 2 →
        (∃ b, batchVerify H (verifierParamOf g h T) comms ((sortedIds t.comms).map fun _ => pf.point) bp tr4 = .ok (b, tr5)) ∧
        ((∀ i < polys.length, kzgCommit (proverParamOf g h T) (polys.getD i Mle.zero) = .ok (comms.getD i 0)) →
          batchVerify H (verifierParamOf g h T) comms ((sortedIds t.comms).map fun _ => pf.point) bp tr4 = .ok (true, tr5)) := by
  obtain ⟨N, te, cs, tr1, r, tr2, ds, tr3, vp, pf, tr4, polys, evals, extra, hN, hle, hex, c1, c2, c3, heq, hsp, hvi, hvn, hvd, hvd', hsum, hpl, ht3, ht4,
    hids, hts, hext, hpn, hps, hev, hcomp, _⟩ := compile_run debug (kzgOf H g h T) H hI hm2 hne hs hzc hd hdeg hchar (fun _ => hz)
  have hNT : N ≤ T.length := by
    obtain ⟨e, he, rfl⟩ := hex
    exact hm1 e he
  have hps' : ∀ i, (h : i < (sortedIds t.comms).length) → ∃ a, t.mats.lookup (sortedIds t.comms)[i] = some a ∧ a.mle.WF ∧
        a.mle.numVars ≤ N ∧ polys[i]? = some (extMle N a.mle) := by
    intro i hi
    obtain ⟨a, a1, a2, a3⟩ := hps i hi
    exact ⟨a, a1, (hI.matOk _ _ a1).2.1, a2, a3⟩
  have hwf : ∀ p ∈ polys, p.WF ∧ p.numVars = N := by
    intro p hp
    obtain ⟨i, hi, rfl⟩ := List.getElem_of_mem hp
    obtain ⟨a, _, a2, a3, a4⟩ := hps' i (hpn ▸ hi)
    obtain ⟨_, q1, q2, _⟩ := extMle_spec N a.mle a3
    rw [List.getElem?_eq_getElem hi] at a4
    injection a4 with a4
    rw [a4]
    exact ⟨q1 a2, q2⟩
  have h2' : 2 ≤ polys.length := by rw [hpn, length_sortedIds]; exact h2
  set comms0 : List E.G1 := polys.map fun p => mle p.tbl (T.drop (T.length - p.numVars)) • g with hc0
  have hcom0 : ∀ i < polys.length, kzgCommit (proverParamOf g h T) (polys.getD i Mle.zero) = .ok (comms0.getD i 0) := by
    intro i hi
    have hp : polys[i] ∈ polys := List.getElem_mem hi
    have e1 : polys.getD i Mle.zero = polys[i] := by rw [List.getD_eq_getElem?_getD, List.getElem?_eq_getElem hi]; rfl
    have e2 : comms0.getD i 0 = mle polys[i].tbl (T.drop (T.length - polys[i].numVars)) • g := by
      rw [List.getD_eq_getElem?_getD, hc0, List.getElem?_map, List.getElem?_eq_getElem hi]; rfl
    rw [e1, e2]
    exact kzgCommit_spec g h T _ (hwf _ hp).1 ((hwf _ hp).2 ▸ hNT)
  obtain ⟨bp, tr5, b1, b2, b3, b4, b5, b6⟩ := batch_complete H g h T N (by omega) hNT polys hwf h2' ((sortedIds t.comms).map fun _ => pf.point)
    (by rw [List.length_map, hpn]) (by intro x hx; obtain ⟨_, _, rfl⟩ := List.mem_map.1 hx; exact hpl) (fun i h1 h3 => hchar i h1 (by omega)) tr4 ht4 evals
    (by rw [hev, List.length_map]) (by
      intro i hi
      rw [hev]
      have hi' : i < (sortedIds t.comms).length := hpn ▸ hi
      rw [List.getD_eq_getElem?_getD, List.getElem?_map, List.getElem?_eq_getElem hi, List.getD_eq_getElem?_getD, List.getElem?_eq_getElem hi,
        List.getD_eq_getElem?_getD, List.getElem?_map, List.getElem?_eq_getElem hi']
      rfl) comms0 (by rw [hc0, List.length_map]) hcom0
  refine ⟨N, te, cs, tr1, r, tr2, ds, tr3, vp, pf, tr4, polys, extra, bp, tr5, hN, hle, hex, c1, c2, c3, heq, hsp, hvi, hvn, hvd, hvd', hsum hz,
    hpl, hids, hts, hext, hpn, hps', ?_, b2, ?_⟩
  · rw [hcomp]
    have : (kzgOf H g h T).multiOpen polys ((sortedIds t.comms).map fun _ => pf.point) evals tr4 = .ok (bp, tr5) := b1
    rw [this]
    rfl
  · intro comms hcl hav
    have hbv := b6 hav
    constructor
    · exact batchVerify_swap H _ comms0 comms (by rw [hcl, hc0, List.length_map]) _ bp tr4 tr5 true hbv
    · intro hc
      obtain rfl : comms = comms0 := by
        apply List.ext_getElem?
        intro i
        by_cases hi : i < polys.length
        · have e := hcom0 i hi
          rw [hc i hi] at e
          injection e with e
          have i1 : i < comms.length := by omega
          have i2 : i < comms0.length := by rw [hc0, List.length_map]; exact hi
          rw [List.getElem?_eq_getElem i1, List.getElem?_eq_getElem i2]
          simpa [List.getD_eq_getElem?_getD, List.getElem?_eq_getElem i1, List.getElem?_eq_getElem i2] using e
        · rw [List.getElem?_eq_none (by omega), List.getElem?_eq_none (by rw [hc0, List.length_map]; omega)]
      exact hbv

/-- The same after a history. -/
theorem compile_kzg (debug : Bool) {d : Nat} (hr : Reachable (kzgCommit (proverParamOf g h T)) H ps) (hm : Sized ps T.length)
    (h2 : 2 ≤ ps.tracker.comms.length) (hd : 1 ≤ d) (hdeg : ClaimDegree ps d) (hchar : NatsNonzero F (d + 1)) (hz : ZerosTrue ps) :
    ∃ (N : Nat) (te : PTracker F E.G1) (cs : List F) (tr1 : Transcript F E.G1) (r : List F) (tr2 : Transcript F E.G1) (ds : List F)
      (tr3 : Transcript F E.G1) (vp : VirtPoly F) (pf : IOPProof F) (tr4 : Transcript F E.G1) (polys : List (Mle F)) (extra : Nat) (bp : BatchProof E)
      (tr5 : Transcript F E.G1), N ≠ 0 ∧ (∀ e ∈ ps.tracker.mats, e.2.mle.numVars ≤ N) ∧
      (∃ e ∈ ps.tracker.mats, e.2.mle.numVars = N) ∧
      ps.tracker.transcript.challengeLoop H "zerocheck challenge" ps.tracker.zeroClaims.length = .ok (cs, tr1) ∧
      tr1.challenges H "0check r" N = .ok (r, tr2) ∧
      tr2.challengeLoop H "sumcheck challenge" (ps.tracker.sumClaims.length + 1) = .ok (ds, tr3) ∧
      PTracker.equalize ps.tracker = (.ok N, te) ∧ sumcheckProve H vp tr3 = .ok (pf, tr4) ∧ (∃ heap, VirtPoly.Inv heap vp) ∧ vp.numVariables = N ∧ 0 < vp.maxDegree ∧ vp.maxDegree ≤ d + 1 ∧
      partialSum vp.polyVal N [] = foldedSum ds (te.sumClaims.map (·.2)) ∧ pf.point.length = N ∧
      te.sumClaims.map (·.1) = ps.tracker.sumClaims.map (·.1) ∧ (∀ c ∈ te.sumClaims, c.2 = te.tsum N c.1) ∧ ps.tracker.idCounter ≤ extra ∧
      polys.length = (sortedIds ps.tracker.comms).length ∧
      (∀ i, (h : i < (sortedIds ps.tracker.comms).length) → ∃ a, ps.tracker.mats.lookup (sortedIds ps.tracker.comms)[i] = some a ∧ a.mle.WF ∧
        a.mle.numVars ≤ N ∧ polys[i]? = some (extMle N a.mle)) ∧
      (compile debug (kzgOf H g h T) H ps.tracker).1 = .ok (mkProof ps.tracker.comms (te.sumClaims ++ [(extra, 0)]) pf vp bp) ∧
      bp.sumCheckProof.point.length = N ∧
      ∀ comms : List E.G1, comms.length = polys.length → Avoids bp.sumCheckProof.point 2 →
        (∃ b, batchVerify H (verifierParamOf g h T) comms ((sortedIds ps.tracker.comms).map fun _ => pf.point) bp tr4 = .ok (b, tr5)) ∧
        ((∀ i < polys.length, kzgCommit (proverParamOf g h T) (polys.getD i Mle.zero) = .ok (comms.getD i 0)) →
          batchVerify H (verifierParamOf g h T) comms ((sortedIds ps.tracker.comms).map fun _ => pf.point) bp tr4 = .ok (true, tr5)) := by
  obtain ⟨hs, hzc⟩ := claims_hasNv hr
  exact compile_kzgT debug hr.inv.inv (hr.absorbed (by rintro e; rw [e] at h2; simp at h2)) hm.1 hm.2 hs hzc h2 hd (fun id v hi hv q hq => hdeg id hi v hv q hq) hchar
    (zerosTrue_gval hr hz)

theorem mapM_lookup {C : Type} (m : List (Nat × C)) (ids : List Nat) (hids : ∀ id ∈ ids, id ∈ m.map (·.1)) :
    ∃ cs : List C, (ids.mapM fun id => unwrap (m.lookup id)) = .ok cs ∧ cs.length = ids.length := by
  induction ids with
  | nil => exact ⟨[], rfl, rfl⟩
  | cons id ids ih =>
    obtain ⟨cs, h1, h2⟩ := ih fun i hi => hids i (List.mem_cons_of_mem _ hi)
    obtain ⟨c, hc⟩ := lookup_of_mem_keys m id (hids id List.mem_cons_self)
    exact ⟨c :: cs, by rw [List.mapM_cons, hc, unwrap_some, ok_bind, h1, ok_bind]; rfl, by simp [h2]⟩

theorem mapM_lookup_get {C : Type} (m : List (Nat × C)) (ids : List Nat) {cs : List C} (h : (ids.mapM fun id => unwrap (m.lookup id)) = .ok cs) (i : Nat)
    (hi : i < ids.length) : m.lookup ids[i] = cs[i]? := by
  induction ids generalizing cs i with
  | nil => simp at hi
  | cons id ids ih =>
    rw [List.mapM_cons] at h
    rcases hl : m.lookup id with _ | c
    · rw [hl] at h; simp [unwrap] at h
    rw [hl, unwrap_some, ok_bind] at h
    rcases hr : (ids.mapM fun id => unwrap (m.lookup id)) with e | cs'
    · rw [hr] at h; simp at h
    rw [hr, ok_bind] at h
    injection h with h; subst h
    cases i with
    | zero => simpa using hl
    | succ i => simpa using ih hr i (by simpa using hi)

/-- Two claim lists on the same identifiers with values given by the same function are equal. -/
theorem claims_ext {l m : List (Nat × F)} (f : Nat → F) (hk : l.map (·.1) = m.map (·.1)) (hl : ∀ c ∈ l, c.2 = f c.1) (hm : ∀ c ∈ m, c.2 = f c.1) : l = m := by
  have key : ∀ l : List (Nat × F), (∀ c ∈ l, c.2 = f c.1) → l = (l.map (·.1)).map fun i => (i, f i) := by
    intro l hl
    induction l with
    | nil => rfl
    | cons c l ih =>
      rw [List.map_cons, List.map_cons, ← ih fun c hc => hl c (List.mem_cons_of_mem _ hc), ← hl c List.mem_cons_self]
  rw [key l hl, key m hm, hk]

/-- The prover compiles a proof in which the claimed sums are those of the equalised tables, and every verifier in step with the prover that holds it and has
read its claims in it accepts. -/
theorem accept_T (debug : Bool) {d : Nat} {t : PTracker F E.G1} (hI : t.Inv fun p c => kzgCommit (proverParamOf g h T) p = .ok c) (hne : t.transcript.isEmpty = false)
    (hm1 : ∀ e ∈ t.mats, e.2.mle.numVars ≤ T.length) (hm2 : ∃ e ∈ t.mats, e.2.mle.numVars ≠ 0)
    (hs : ∀ c ∈ t.sumClaims, ∃ nv, t.HasNv c.1 nv) (hzc : ∀ c ∈ t.zeroClaims, ∃ nv, t.HasNv c nv)
    (h2 : 2 ≤ t.comms.length) (hd : 1 ≤ d) (hdeg : Deg (fun i => i ∈ t.zeroClaims ∨ i ∈ t.sumClaims.map (·.1)) d t) (hchar : NatsNonzero F (d + 1))
    (hz : ∀ c ∈ t.zeroClaims, ∀ nv, t.HasNv c nv → ∀ b < 2 ^ nv, t.gval (fun p => p.tbl b) c = 0) :
    ∃ (p : CompiledProof F E.G1 (BatchProof E)) (bp : BatchProof E) (N : Nat) (te : PTracker F E.G1), (compile debug (kzgOf H g h T) H t).1 = .ok p ∧ p.pcsProof = [bp] ∧
      p.scMaxDegree ≤ d + 1 ∧ p.comms = t.comms ∧ (∀ e ∈ t.mats, e.2.mle.numVars ≤ N) ∧ (∃ e ∈ t.mats, e.2.mle.numVars = N) ∧ PTracker.equalize t = (.ok N, te) ∧
      (∀ id, id ∈ t.sumClaims.map (·.1) → p.sumcheckClaims.lookup id = some (te.tsum N id)) ∧
      ∀ vs : VState F E.G1 (BatchProof E), vs.st.Wf → (∀ c ∈ vs.st.own.zeroClaims, vs.st.Known c) → (∀ c ∈ vs.st.own.sumClaims, vs.st.Known c.1) →
        vs.st.own.proof = p → vs.st.own.transcript = t.transcript → vs.st.own.matComms = t.comms → vs.st.own.sumClaims.map (·.1) = t.sumClaims.map (·.1) →
        vs.st.own.zeroClaims = t.zeroClaims → SumsRead vs →
        (Avoids p.scProof.point p.scMaxDegree → Avoids bp.sumCheckProof.point 2 → Accepts (kzgOf H g h T) H vs ∧
          ((∀ id c a, t.comms.lookup id = some c → t.mats.lookup id = some a → ∀ e ∈ t.mats, e.2.mle.numVars ≤ a.mle.numVars) →
            OpeningCheck (kzgOf H g h T) H vs)) := by
  obtain ⟨N, te, cs, tr1, r, tr2, ds, tr3, vp, pf, tr4, polys, extra, bp, tr5, hN, hle, hex, c1, c2, c3, heq, hsp, ⟨heap, hvi⟩, hvn, hvd, hvd', hsum,
    hpl, hids, hts, hext, hpn, hps', hcomp, hbl, hbv⟩ := compile_kzgT (H := H) (h := h) (g := g) debug hI hne hm1 hm2 hs hzc h2 hd hdeg hchar hz
  have hlt : ∀ c ∈ te.sumClaims, c.1 < t.idCounter := by
    intro c hc
    have : c.1 ∈ t.sumClaims.map (·.1) := hids ▸ List.mem_map.2 ⟨c, hc, rfl⟩
    obtain ⟨c', hc', e⟩ := List.mem_map.1 this
    obtain ⟨nv, hnv⟩ := hs c' hc'
    rw [← e]
    exact hnv.lt hI
  set f : Nat → F := fun id => if id = extra then 0 else te.tsum N id with hf
  have hfc : ∀ c ∈ te.sumClaims ++ [(extra, 0)], c.2 = f c.1 := by
    intro c hc
    rcases List.mem_append.1 hc with hc | hc
    · have := hlt c hc
      simp only [hf]
      rw [if_neg (by omega)]
      exact hts c hc
    · obtain rfl : c = _ := by simpa using hc
      simp [hf]
  set p : CompiledProof F E.G1 (BatchProof E) := mkProof t.comms (te.sumClaims ++ [(extra, 0)]) pf vp bp with hp
  have hlook : ∀ id, id ∈ t.sumClaims.map (·.1) → p.sumcheckClaims.lookup id = some (f id) := by
    intro id hid
    show (claimMap _).lookup id = _
    rw [claimMap_lookup _ f hfc, if_pos]
    rw [List.map_append, hids]
    exact List.mem_append_left _ hid
  refine ⟨p, bp, N, te, hcomp, rfl, hvd', rfl, hle, hex, heq, fun id hid => ?_, fun vs w1 w2 w3 r4 e1 e2 e3 e4 hsr hav1 hav2 => ?_⟩
  · rw [hlook id hid]
    obtain ⟨c', hc', rfl⟩ := List.mem_map.1 hid
    obtain ⟨nv, hnv⟩ := hs c' hc'
    have := hnv.lt hI
    simp only [hf]
    rw [if_neg (by omega)]
  have hsc : vs.st.own.sumClaims = te.sumClaims := by
    refine claims_ext f (e3.trans hids.symm) ?_ fun c hc => hfc c (List.mem_append_left _ hc)
    intro c hc
    have h1 := hsr c hc
    rw [r4, hlook c.1 (e3 ▸ List.mem_map.2 ⟨c, hc, rfl⟩)] at h1
    injection h1 with h1
    exact h1.symm
  have hne' : vs.st.own.transcript.isEmpty = false := by rw [e1]; exact hne
  have hNv : vs.st.own.proof.scNumVars = N := by rw [r4]; exact hvn
  obtain ⟨cs', tr1', r', tr2', ds', tr3', agg, s1, a1, _, a3, _, a5, _, _, hagg, _, _, _, a8, a9, a10, _, _, _⟩ :=
    VSt.aggregate_run H hNv w1 hne' w2 w3
  rw [e1, e4, c1] at a1
  injection a1 with a1; injection a1 with k1 k2; subst k1; subst k2
  rw [c2] at a3
  injection a3 with a3; injection a3 with k1 k2; subst k1; subst k2
  have hlen : te.sumClaims.length = t.sumClaims.length := by rw [← List.length_map (f := (·.1)), hids, List.length_map]
  rw [hsc, hlen, c3] at a5
  injection a5 with a5; injection a5 with k1 k2; subst k1; subst k2
  rw [hsc] at hagg
  obtain ⟨comms, m1, m2⟩ := mapM_lookup t.comms (sortedIds t.comms) fun id hid => (mem_sortedIds _ _).1 hid
  obtain ⟨⟨b, hb⟩, hbt⟩ := hbv comms (m2.trans hpn.symm) hav2
  have hsv := sumcheck_complete_inv hvi (fun i h1 h3 => hchar i h1 (le_trans h3 hvd')) hvd (by omega) H tr3 tr4 pf hsp hav1
  rw [hvn, hsum] at hsv
  constructor
  · have : ∃ s', VSt.verifyClaims (kzgOf H g h T) H vs.st = (.ok (), s') := by
      rw [verifyClaims_iff (kzgOf H g h T) H hagg]
      refine ⟨⟨pf.point, vp.polyVal pf.point⟩, tr4, comms, bp, b, tr5, ?_, ?_, ?_, ?_⟩
      · rw [a10, r4, a8]
        show sumcheckVerify H _ pf vp.maxDegree vp.numVariables tr3 = _
        rw [hvn]; exact hsv
      · rw [a10, r4, a9, e2]
        exact m1
      · rw [a10, r4]; rfl
      · rw [a10, r4]
        exact hb
    obtain ⟨s', h'⟩ := this
    unfold Accepts
    rw [h']
  · intro hss agg' sm' s1' sub tr1 k1 k2
    rw [hagg] at k1
    obtain ⟨k3, rfl⟩ := Prod.mk.inj k1
    obtain ⟨rfl, rfl⟩ := Prod.mk.inj (Except.ok.inj k3)
    rw [r4, a8] at k2
    have k2' : sumcheckVerify H (foldedSum ds (te.sumClaims.map (·.2))) pf vp.maxDegree vp.numVariables tr3 = .ok (sub, tr1) := k2
    rw [hvn, hsv] at k2'
    obtain ⟨rfl, rfl⟩ := Prod.mk.inj (Except.ok.inj k2')
    refine ⟨comms, bp, tr5, by rw [r4, e2]; exact m1, by rw [r4]; rfl, ?_⟩
    rw [r4]
    refine hbt fun i hi => ?_
    have hi' : i < (sortedIds t.comms).length := hpn ▸ hi
    obtain ⟨a, l1, l2, l3, l4⟩ := hps' i hi'
    obtain ⟨c, hc'⟩ := lookup_of_mem_keys t.comms _ ((mem_sortedIds _ _).1 (List.getElem_mem hi'))
    obtain ⟨a', l1', l2'⟩ := hI.commOk _ c hc'
    obtain rfl : a = a' := by
      rw [l1] at l1'
      injection l1'
    have hN' : a.mle.numVars = N := by
      obtain ⟨e, he, heN⟩ := hex
      have := hss _ c a hc' l1 e he
      omega
    have hcg : comms.getD i 0 = c := by
      have := mapM_lookup_get t.comms _ m1 i hi'
      rw [hc'] at this
      rw [List.getD_eq_getElem?_getD, ← this]
      rfl
    rw [hcg, List.getD_eq_getElem?_getD, l4, Option.getD_some]
    rw [← hN', extMle_same]
    exact l2'

/-- The verifier accepts an honest compiled proof after the matching history. -/
theorem accept_honest (debug : Bool) {d : Nat} {pub : Mle F → List F → Res F} (ops : List (POp F E.G1)) (hc : CommitsOk (kzgCommit (proverParamOf g h T)) ops)
    (hrun : runOps (kzgCommit (proverParamOf g h T)) H PState.init ops = .ok ps) (hm : Sized ps T.length)
    (h2 : 2 ≤ ps.tracker.comms.length) (hd : 1 ≤ d) (hdeg : ClaimDegree ps d) (hchar : NatsNonzero F (d + 1)) (hz : ZerosTrue ps) :
    ∃ (p : CompiledProof F E.G1 (BatchProof E)) (bp : BatchProof E), (compile debug (kzgOf H g h T) H ps.tracker).1 = .ok p ∧ p.pcsProof = [bp] ∧
      p.scMaxDegree ≤ d + 1 ∧
      ∃ vs, runVOps debug H VState.init (.setProof p :: mirrorOps pub ops) = .ok vs ∧ InStep ps vs ∧
        (Avoids p.scProof.point p.scMaxDegree → Avoids bp.sumCheckProof.point 2 → Accepts (kzgOf H g h T) H vs ∧
          (SameSizes ps → OpeningCheck (kzgOf H g h T) H vs)) := by
  have hr : Reachable (kzgCommit (proverParamOf g h T)) H ps := ⟨ops, hrun⟩
  obtain ⟨hs, hzc⟩ := claims_hasNv hr
  obtain ⟨p, bp, N, te, hcomp, hbp, hvd, hcm, _, _, _, hlook, hacc⟩ := accept_T (H := H) debug hr.inv.inv (hr.absorbed (by rintro e; rw [e] at h2; simp at h2)) hm.1 hm.2 hs hzc h2 hd
    (fun id v hi hv q hq => hdeg id hi v hv q hq) hchar (zerosTrue_gval hr hz)
  obtain ⟨vs, r1, r2, r3, r4, _⟩ := joint_all (debug := debug) (pub := pub) p ops hc hrun ⟨fun id c h => by show p.comms.lookup id = _; rw [hcm]; exact h, fun e he =>
    ⟨_, hlook e.1 (List.mem_map.2 ⟨e, he, rfl⟩)⟩⟩
  refine ⟨p, bp, hcomp, hbp, hvd, vs, r1, r2, fun hav1 hav2 => ?_⟩
  have hsr : SumsRead vs := by
    unfold runVOps at r1
    rw [List.foldlM_cons, withProof_run, ok_bind] at r1
    exact runVOps_sums _ (mirrorOps_reading pub ops) (by intro c hc; simp [VState.withProof, VSt.new] at hc) r1
  exact hacc vs r3.wf r3.claims.2 r3.claims.1 r4 r2.transcript r2.comms r2.sums r2.zeros hsr hav1 hav2

end Zksql
