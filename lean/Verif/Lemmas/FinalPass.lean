import Verif.Lemmas.Accept
import Verif.Lemmas.Joint2
import Verif.Spec.FinalPass
/-!
The value the sumcheck of an honest proof leaves to be checked.
-/
set_option linter.unusedSectionVars false
namespace Zksql
open Spec PTracker
variable {F C B : Type} [Field F] [DecidableEq F] {H : Oracle F C} {commit : Mle F → Res C} {ps : PState F C}

/-- Equalising changes the polynomials of summed handles only on the cube's outside, and not at all if reading their evaluations changes nothing. -/
theorem equalize_value (hI : StInv commit ps) (hm : ps.tracker.mats ≠ []) (hs : ∀ c ∈ ps.tracker.sumClaims, ∃ nv, ps.tracker.HasNv c.1 nv) {N : Nat}
    {te : PTracker F C} (heq : equalize ps.tracker = (.ok N, te)) {a : TPoly} (ha : a ∈ ps.handles)
    (hsame : a.id ∈ ps.tracker.sumClaims.map (·.1) → SameAfter ps a) (x : List F) (hx : x.length = N) :
    te.gval (fun p => mle p.tbl x) a.id = ps.tracker.gval (fun p => mle p.tbl (x.take a.numVars)) a.id := by
  obtain ⟨N', t1, te', hle, hex, hE, hI1, heq', hIe, hpe, _, _, _, _, _, hkeep, hmat⟩ := equalize_run hI.inv hm hs
  rw [heq] at heq'
  obtain ⟨eN, rfl⟩ := Prod.mk.inj heq'
  injection eN with eN; subst eN
  have hk := hI.known a ha
  obtain ⟨hle', hk1⟩ := hE.hasNv hk
  by_cases hid : a.id ∈ ps.tracker.sumClaims.map (·.1)
  · obtain ⟨c, hc, e⟩ := List.mem_map.1 hid
    obtain ⟨m, hm1⟩ := Option.isSome_iff_exists.1 (hmat c hc)
    rw [e] at hm1
    have hlen : (x.take a.numVars).length = a.numVars := by rw [List.length_take]; omega
    have htab : ∀ b < 2 ^ N, m.mle.tbl b = ps.tracker.gval (fun p => p.tbl (b % 2 ^ a.numVars)) a.id := by
      intro b hb
      have := hpe.cube a.id N b hk1 hb
      rw [hE.gval_tbl hk b hb] at this
      rw [← this]
      simp only [gval, hm1]
    have e1 : te.gval (fun p => mle p.tbl x) a.id = mle m.mle.tbl x := by simp only [gval, hm1]
    rw [e1, mle_congr (g := fun b => ps.tracker.gval (fun p => p.tbl (b % 2 ^ a.numVars)) a.id) x (fun i hi => htab i (hx ▸ hi))]
    conv_lhs => rw [← List.take_append_drop a.numVars x]
    rw [mle_append_ignore_back]
    · obtain ⟨_, _, q, _, _, _, h4⟩ := matSt_spec hI.inv hk
      rw [← matSt_mle hI ha (hsame hid) h4 _ hlen]
      apply mle_congr
      intro i hi
      rw [hlen] at hi
      rw [h4 i hi, Nat.mod_eq_of_lt hi]
    · intro i j hj _
      rw [hlen] at hj ⊢
      beta_reduce
      rw [Nat.mul_add_mod_self_right]
  · rw [hkeep _ _ hk1 hid, hE.gval_mle hk x hx]

/-- A verifier in step with the prover of an honest proof, made without debug assertions, finds the value the sumcheck leaves. -/
theorem final_T (pcs : Pcs F C B) {d : Nat} {t : PTracker F C} {R : Mle F → C → Prop} (hI : t.Inv R) (hne : t.transcript.isEmpty = false)
    (hm : ∃ e ∈ t.mats, e.2.mle.numVars ≠ 0) (hs : ∀ c ∈ t.sumClaims, ∃ nv, t.HasNv c.1 nv) (hzc : ∀ c ∈ t.zeroClaims, ∃ nv, t.HasNv c nv)
    (hd : 1 ≤ d) (hdeg : Deg (fun i => i ∈ t.zeroClaims ∨ i ∈ t.sumClaims.map (·.1)) d t) (hchar : NatsNonzero F (d + 1))
    (hz : ∀ c ∈ t.zeroClaims, ∀ nv, t.HasNv c nv → ∀ b < 2 ^ nv, t.gval (fun p => p.tbl b) c = 0)
    {p : CompiledProof F C B} (hp : (compile false pcs H t).1 = .ok p) :
    ∃ N te, equalize t = (.ok N, te) ∧ p.comms = t.comms ∧ (∀ id, id ∈ t.sumClaims.map (·.1) → ∃ s, p.sumcheckClaims.lookup id = some s) ∧ p.scProof.point.length = N ∧
      ∀ vs : VState F C B, vs.st.Wf → (∀ c ∈ vs.st.own.zeroClaims, vs.st.Known c) → (∀ c ∈ vs.st.own.sumClaims, vs.st.Known c.1) →
        vs.st.own.proof = p → vs.st.own.transcript = t.transcript → vs.st.own.sumClaims.map (·.1) = t.sumClaims.map (·.1) →
        vs.st.own.zeroClaims = t.zeroClaims → SumsRead vs → Avoids p.scProof.point p.scMaxDegree →
        ∀ ans, (∀ id, id ∈ t.zeroClaims ∨ id ∈ t.sumClaims.map (·.1) →
            vs.st.ev ans id p.scProof.point = .ok (te.gval (fun q => mle q.tbl p.scProof.point) id)) →
          ∀ agg sm s1 sub tr1, VSt.aggregate H vs.st = (.ok (agg, sm), s1) →
            sumcheckVerify H sm vs.st.own.proof.scProof vs.st.own.proof.scMaxDegree vs.st.own.proof.scNumVars s1.own.transcript = .ok (sub, tr1) →
            s1.own.matComms = vs.st.own.matComms ∧ s1.ev ans agg sub.point = .ok sub.expectedEvaluation := by
  obtain ⟨N, te, cs, tr1, r, tr2, ds, tr3, vp, pf, tr4, polys, evals, extra, hN, hle, hex, c1, c2, c3, heq, hsp, ⟨heap, hvi⟩, hvn, hvd, hvd', hsum, hpl, ht3, ht4,
    hids, hts, hext, hpn, hps, hev, hcomp, hpoly, _⟩ := compile_run false pcs H hI hm hne hs hzc hd hdeg hchar (fun _ => hz)
  rw [hcomp] at hp
  rcases hmo : pcs.multiOpen polys ((sortedIds t.comms).map fun _ => pf.point) evals tr4 with (e | _) | ⟨bp, tr5⟩
  · rw [hmo] at hp; cases hp
  · rw [hmo] at hp; cases hp
  rw [hmo] at hp
  obtain rfl : mkProof t.comms (te.sumClaims ++ [(extra, 0)]) pf vp bp = p := by injection hp
  have hlt : ∀ c ∈ te.sumClaims, c.1 < t.idCounter := by
    intro c hc
    have : c.1 ∈ t.sumClaims.map (·.1) := hids ▸ List.mem_map.2 ⟨c, hc, rfl⟩
    obtain ⟨c', hc', e⟩ := List.mem_map.1 this
    obtain ⟨nv, hnv⟩ := hs c' hc'
    rw [← e]
    exact hnv.lt hI
  set f : Nat → F := fun id => if id = extra then 0 else te.tsum N id with hf
  have hfc : ∀ c ∈ te.sumClaims ++ [(extra, 0)], c.2 = f c.1 := by
    intro c hc
    rcases List.mem_append.1 hc with hc | hc
    · have := hlt c hc
      simp only [hf]
      rw [if_neg (by omega)]
      exact hts c hc
    · obtain rfl : c = _ := by simpa using hc
      simp [hf]
  have hlook : ∀ id, id ∈ t.sumClaims.map (·.1) → (mkProof t.comms (te.sumClaims ++ [(extra, 0)]) pf vp bp).sumcheckClaims.lookup id = some (f id) := by
    intro id hid
    show (claimMap _).lookup id = _
    rw [claimMap_lookup _ f hfc, if_pos]
    rw [List.map_append, hids]
    exact List.mem_append_left _ hid
  refine ⟨N, te, heq, rfl, fun id hid => ⟨_, hlook id hid⟩, hpl, fun vs w1 w2 w3 r4 e1 e3 e4 hsr hav1 ans hans agg' sm' s1' sub tr k1 k2 => ?_⟩
  have hsc : vs.st.own.sumClaims = te.sumClaims := by
    refine claims_ext f (e3.trans hids.symm) ?_ fun c hc => hfc c (List.mem_append_left _ hc)
    intro c hc
    have h1 := hsr c hc
    rw [r4, hlook c.1 (e3 ▸ List.mem_map.2 ⟨c, hc, rfl⟩)] at h1
    injection h1 with h1
    exact h1.symm
  have hne' : vs.st.own.transcript.isEmpty = false := by rw [e1]; exact hne
  have hNv : vs.st.own.proof.scNumVars = N := by rw [r4]; exact hvn
  obtain ⟨cs', tr1', r', tr2', ds', tr3', agg, s1, a1, _, a3, a4, a5, _, _, hagg, _, _, _, a8, a9, a10, _, _, hval⟩ :=
    VSt.aggregate_run H hNv w1 hne' w2 w3
  rw [e1, e4, c1] at a1
  injection a1 with a1; injection a1 with i1 i2; subst i1; subst i2
  rw [c2] at a3
  injection a3 with a3; injection a3 with i1 i2; subst i1; subst i2
  have hlen : te.sumClaims.length = t.sumClaims.length := by rw [← List.length_map (f := (·.1)), hids, List.length_map]
  rw [hsc, hlen, c3] at a5
  injection a5 with a5; injection a5 with i1 i2; subst i1; subst i2
  rw [hsc] at hagg
  rw [hagg] at k1
  obtain ⟨k3, rfl⟩ := Prod.mk.inj k1
  obtain ⟨rfl, rfl⟩ := Prod.mk.inj (Except.ok.inj k3)
  have hsv := sumcheck_complete_inv hvi (fun i h1 h3 => hchar i h1 (le_trans h3 hvd')) hvd (by omega) H tr3 tr4 pf hsp hav1
  rw [hvn, hsum hz] at hsv
  rw [a8, r4] at k2
  change sumcheckVerify H _ pf vp.maxDegree vp.numVariables tr3 = _ at k2
  rw [hvn, hsv] at k2
  obtain ⟨rfl, rfl⟩ := Prod.mk.inj (Except.ok.inj k2)
  refine ⟨a9, ?_⟩
  have := hval ans pf.point (fun id => te.gval (fun q => mle q.tbl pf.point) id) hpl (fun c hc => hans c (.inl (e4 ▸ hc)))
    (fun c hc => hans c.1 (.inr (e3 ▸ List.mem_map.2 ⟨c, hc, rfl⟩)))
  rw [this, hpoly rfl, constMle_eval N 0 _ hpl, zero_add, zero_add, e4, hsc]
  have he : mle (eqMle r).tbl pf.point = eqPoly pf.point r := by
    rw [← mle_eqWeight r pf.point (hpl.trans a4.symm)]
    apply mle_congr
    intro i hi
    exact eqMle_tbl r i (by rw [a4, ← hpl]; exact hi)
  rw [he]
  rfl

end Zksql
