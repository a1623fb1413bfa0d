import Verif.Spec.OwnProver
import Verif.Lemmas.EndToEnd
import Verif.Lemmas.FinalPass
import Verif.Lemmas.VerifySound
import Verif.Lemmas.Retry
/-!
The prover's own code on false claims: the folded claim is false then, unless a challenge is exceptional.
-/
set_option linter.unusedSectionVars false
namespace Zksql
open Spec PTracker
variable {F C B : Type} [Field F] [DecidableEq F]

/-- The exceptional value of the next challenge, given those drawn before it. -/
noncomputable def foldNext (N : Nat) (zs : List (Nat → F)) (m : Nat) (pre : List F) : Finset F :=
  if pre.length < zs.length then oneSol (FoldBad (2 ^ N) zs pre)
  else if pre.length < zs.length + N then oneSol (EvalBad (fun b => dot (pre.take zs.length) (zs.map (· b))) N (pre.drop zs.length))
  else if pre.length = zs.length + N + m then {0} else ∅

theorem foldNext_card (N : Nat) (zs : List (Nat → F)) (m : Nat) (pre : List F) : (foldNext N zs m pre).card ≤ 1 := by
  unfold foldNext
  split_ifs
  · exact oneSol_card _
  · exact oneSol_card _
  · simp
  · simp

/-- A folded claim with true sums shows that what is claimed to vanish does. -/
theorem zeros_of_folded {N : Nat} {zs : List (Nat → F)} {vs : List ((Nat → F) × F)} {cs r ds : List F} (h1 : cs.length = zs.length) (h2 : r.length = N)
    (h3 : ds.length = vs.length + 1) (hs : ∀ v ∈ vs, cubeSum N v.1 = v.2) (hf : FoldedClaim N zs vs cs r ds)
    (hb : ∀ k c, (cs ++ (r ++ ds))[k]? = some c → c ∉ foldNext N zs vs.length ((cs ++ (r ++ ds)).take k)) :
    ∀ z ∈ zs, ∀ b < 2 ^ N, z b = 0 := by
  have b1 : ∀ k c, cs[k]? = some c → ¬ FoldBad (2 ^ N) zs (cs.take k) c := by
    intro k c hk hbad
    have hk' : k < cs.length := (List.getElem?_eq_some_iff.1 hk).1
    apply hb k c (by rw [List.getElem?_append_left hk']; exact hk)
    rw [List.take_append_of_le_length hk'.le]
    unfold foldNext
    rw [if_pos (by simp; omega)]
    exact mem_oneSol (fun _ _ => foldBad_unique) hbad
  have b2 : ∀ k c, r[k]? = some c → ¬ EvalBad (fun b => dot cs (zs.map (· b))) N (r.take k) c := by
    intro k c hk hbad
    have hk' : k < r.length := (List.getElem?_eq_some_iff.1 hk).1
    apply hb (cs.length + k) c (by rw [List.getElem?_append_right (by omega), Nat.add_sub_cancel_left, List.getElem?_append_left hk']; exact hk)
    rw [List.take_length_add_append, List.take_append_of_le_length hk'.le]
    unfold foldNext
    rw [if_neg (by simp; omega), if_pos (by simp; omega), List.take_left' h1, List.drop_left' h1]
    exact mem_oneSol (fun _ _ => evalBad_unique) hbad
  have b3 : ∀ c, ds[vs.length]? = some c → c ≠ 0 := by
    intro c hk h0
    have hk' : vs.length < ds.length := (List.getElem?_eq_some_iff.1 hk).1
    apply hb (cs.length + (r.length + vs.length)) c (by
      rw [List.getElem?_append_right (by omega), Nat.add_sub_cancel_left, List.getElem?_append_right (by omega), Nat.add_sub_cancel_left]
      exact hk)
    rw [List.take_length_add_append, List.take_length_add_append]
    unfold foldNext
    rw [if_neg (by simp; omega), if_neg (by simp; omega), if_pos (by simp; omega)]
    simp [h0]
  rw [folded_iff _ _ _ _ _ _ h2] at hf
  obtain ⟨ds', d, rfl⟩ : ∃ ds' d, ds = ds' ++ [d] := by
    rcases List.eq_nil_or_concat' ds with rfl | ⟨ds', d, rfl⟩
    · simp at h3
    · exact ⟨ds', d, rfl⟩
  have hl : ds'.length = vs.length := by simpa using h3
  rw [dot_snoc ds' d _ (mle (fun b => dot cs (zs.map (· b))) r) (by simp [hl]), dot_append_right _ _ _ (by simp [hl]), dot_zero _ _ (by
    intro x hx
    obtain ⟨v, hv, rfl⟩ := List.mem_map.1 hx
    rw [hs v hv, sub_self]), zero_add] at hf
  have hd : d ≠ 0 := b3 d (by simp [hl])
  have hm := (mul_eq_zero.1 hf).resolve_left hd
  have hZ : ∀ b < 2 ^ N, dot cs (zs.map (· b)) = 0 := by
    intro b hb'
    by_contra hne
    exact eval_alive _ N r h2 ⟨b, hb', hne⟩ b2 hm
  intro z hz b hb'
  by_contra hne
  obtain ⟨b', hb'', h⟩ := fold_alive (2 ^ N) zs cs h1 ⟨z, hz, b, hb', hne⟩ b1
  exact h (hZ b' hb'')

/-- The exceptional values, read from the prover's state and the history. -/
noncomputable def ownBad (t : PTracker F C) (h : List (TEvent F C)) : Finset F :=
  match equalize t with
  | (.ok N, te) => foldNext N (zeroTables t.zeroClaims te) t.sumClaims.length (chalsIn (h.drop t.transcript.events.length))
  | _ => ∅

theorem ownBad_card (t : PTracker F C) (h : List (TEvent F C)) : (ownBad t h).card ≤ 1 := by
  unfold ownBad
  split
  · exact foldNext_card _ _ _ _
  · simp

variable {R : Mle F → C → Prop} {t : PTracker F C}

/-- What the prover's code does, whether or not its claims are true. -/
theorem own_T (pcs : Pcs F C B) (H : Oracle F C) {d : Nat} (hI : t.Inv R) (hne : t.transcript.isEmpty = false)
    (hm : ∃ e ∈ t.mats, e.2.mle.numVars ≠ 0) (hs : ∀ c ∈ t.sumClaims, ∃ nv, t.HasNv c.1 nv) (hzc : ∀ c ∈ t.zeroClaims, ∃ nv, t.HasNv c nv)
    (hd : 1 ≤ d) (hdeg : Deg (fun i => i ∈ t.zeroClaims ∨ i ∈ t.sumClaims.map (·.1)) d t) (hchar : NatsNonzero F (d + 1)) :
    ∃ N te, N ≠ 0 ∧ (∀ e ∈ t.mats, e.2.mle.numVars ≤ N) ∧ (∃ e ∈ t.mats, e.2.mle.numVars = N) ∧ equalize t = (.ok N, te) ∧
      (foldDrawn H t).length = t.zeroClaims.length + N + (t.sumClaims.length + 1) ∧
      (∀ debug p, (compile debug pcs H t).1 = .ok p → p.comms = t.comms ∧ p.scNumVars = N ∧
        ∀ id, id ∈ t.sumClaims.map (·.1) → p.sumcheckClaims.lookup id = some (te.tsum N id)) ∧
      (¬ ZT t → (∀ h ∈ foldDrawn H t, H t.transcript.label h ∉ ownBad t h) →
        (compile true pcs H t).1 = .error (.err .invalidProver) ∧
        ∀ debug p, (compile debug pcs H t).1 = .ok p → ∀ s : VSt F C B, Sane s → Together t s → s.own.proof = p → (VSt.verifyClaims pcs H s).1 ≠ .ok ()) := by
  obtain ⟨N, te, cs, tr1, r, tr2, ds, tr3, hN, hle, hex, c1, c2, c3, l1, l2, l3, htr3, heq, hids, hts, htab, -, -⟩ :=
    compile_split true pcs H hI hm hne hs hzc hd hdeg hchar
  have hlen : te.sumClaims.length = t.sumClaims.length := by rw [← List.length_map (f := (·.1)), hids, List.length_map]
  have both : ∀ debug, (debug = true → ¬ FoldedClaim N (zeroTables t.zeroClaims te) (sumTables te) cs r ds → (compile debug pcs H t).1 = .error (.err .invalidProver)) ∧
      ((debug = true → FoldedClaim N (zeroTables t.zeroClaims te) (sumTables te) cs r ds) →
        ∃ vp pf tr4 extra r', sumcheckProve H vp tr3 = .ok (pf, tr4) ∧ (∃ heap, VirtPoly.Inv heap vp) ∧ vp.numVariables = N ∧ vp.maxDegree ≤ d + 1 ∧
          partialSum vp.polyVal N [] = (cubeSum N fun b => foldedValue cs ds ((zeroTables t.zeroClaims te).map (· b)) ((sumTables te).map fun v => v.1 b) (eqPoly (boolPt N b) r)) ∧
          0 < vp.maxDegree ∧ t.idCounter ≤ extra ∧ (compile debug pcs H t).1 = compileEnd t.comms (te.sumClaims ++ [(extra, 0)]) pf vp r') := by
    intro debug
    obtain ⟨N', te', cs', tr1', r', tr2', ds', tr3', -, -, -, c1', c2', c3', -, -, -, -, heq', -, -, -, d1, d2⟩ :=
      compile_split debug pcs H hI hm hne hs hzc hd hdeg hchar
    rw [heq] at heq'
    obtain ⟨e1, rfl⟩ := Prod.mk.inj heq'
    obtain rfl := Except.ok.inj e1
    rw [c1] at c1'
    obtain ⟨rfl, rfl⟩ := Prod.mk.inj (Except.ok.inj c1')
    rw [c2] at c2'
    obtain ⟨rfl, rfl⟩ := Prod.mk.inj (Except.ok.inj c2')
    rw [c3] at c3'
    obtain ⟨rfl, rfl⟩ := Prod.mk.inj (Except.ok.inj c3')
    refine ⟨d1, fun h => ?_⟩
    obtain ⟨vp, pf, tr4, polys, evals, extra, a1, a2, a3, a4, a5, a6, -, -, -, a7, -, -, -, a8, -⟩ := d2 h
    exact ⟨vp, pf, tr4, extra, _, a1, a2, a3, a5, a6, a4, a7, a8⟩
  have hlt : ∀ c ∈ te.sumClaims, c.1 < t.idCounter := by
    intro c hc
    have : c.1 ∈ t.sumClaims.map (·.1) := hids ▸ List.mem_map.2 ⟨c, hc, rfl⟩
    obtain ⟨c', hc', e⟩ := List.mem_map.1 this
    obtain ⟨nv, hnv⟩ := hs c' hc'
    rw [← e]
    exact hnv.lt hI
  -- the form of a proof
  have form : ∀ debug p, (compile debug pcs H t).1 = .ok p →
      ∃ vp pf tr4, sumcheckProve H vp tr3 = .ok (pf, tr4) ∧ (∃ heap, VirtPoly.Inv heap vp) ∧ vp.numVariables = N ∧ vp.maxDegree ≤ d + 1 ∧
        partialSum vp.polyVal N [] = (cubeSum N fun b => foldedValue cs ds ((zeroTables t.zeroClaims te).map (· b)) ((sumTables te).map fun v => v.1 b) (eqPoly (boolPt N b) r)) ∧
        0 < vp.maxDegree ∧ p.scProof = pf ∧ p.scMaxDegree = vp.maxDegree ∧ p.comms = t.comms ∧ p.scNumVars = N ∧
        ∀ id, id ∈ t.sumClaims.map (·.1) → p.sumcheckClaims.lookup id = some (te.tsum N id) := by
    intro debug p hp
    obtain ⟨d1, d2⟩ := both debug
    obtain ⟨vp, pf, tr4, extra, r', a1, a2, a3, a4, a5, a6, a7, a8⟩ := d2 fun h => by
      by_contra hn
      rw [d1 h hn] at hp
      cases hp
    rw [a8] at hp
    rcases r' with (e | _) | ⟨bp, tr5⟩
    · cases hp
    · cases hp
    obtain rfl : mkProof t.comms (te.sumClaims ++ [(extra, 0)]) pf vp bp = p := by injection hp
    refine ⟨vp, pf, tr4, a1, a2, a3, a4, a5, a6, rfl, rfl, rfl, a3, fun id hid => ?_⟩
    show (claimMap _).lookup id = _
    have hfc : ∀ c ∈ te.sumClaims ++ [(extra, 0)], c.2 = if c.1 = extra then 0 else te.tsum N c.1 := by
      intro c hc
      rcases List.mem_append.1 hc with hc | hc
      · have := hlt c hc
        rw [if_neg (by omega)]
        exact hts c hc
      · obtain rfl : c = _ := by simpa using hc
        simp
    rw [claimMap_lookup _ (fun id => if id = extra then 0 else te.tsum N id) hfc, if_pos (by rw [List.map_append, hids]; exact List.mem_append_left _ hid)]
    have hid' := hid
    rw [← hids] at hid'
    obtain ⟨c, hc, rfl⟩ := List.mem_map.1 hid'
    have := hlt c hc
    rw [if_neg (by omega)]
  -- the challenges
  obtain ⟨ev1, t1, k1, d1⟩ := drawn_loop H _ _ _ _ _ c1
  have c2' : tr1.challengeLoop H "0check r" N = .ok (r, tr2) := by
    unfold Transcript.challenges at c2
    split at c2
    · simp at c2
    · exact c2
  obtain ⟨ev2, t2, k2, d2⟩ := drawn_loop H _ _ _ _ _ c2'
  obtain ⟨ev3, t3, k3, d3⟩ := drawn_loop H _ _ _ _ _ c3
  rw [k1, t1] at d2
  rw [k2, k1, t2, t1] at d3
  have DD := d1.append (K' := 0) (d2.append (K' := 0) (K := 0) d3)
  have hdr : foldDrawn H t = squeezes t.transcript.events (ev1 ++ (ev2 ++ ev3)) := by
    unfold foldDrawn
    rw [drawn_of (ev := ev1 ++ (ev2 ++ ev3)) (by rw [htr3, t3, t2, t1]; simp)]
  refine ⟨N, te, hN, hle, hex, heq, by rw [hdr, DD.len]; simp; omega, fun debug p hp => ?_, fun hnz hno => ?_⟩
  · obtain ⟨vp, pf, tr4, a1, a2, a3, a4, a5, a6, a7, a8, a9, a10, a11⟩ := form debug p hp
    exact ⟨a9, a10, a11⟩
  have hnf : ¬ FoldedClaim N (zeroTables t.zeroClaims te) (sumTables te) cs r ds := by
    intro hf
    apply hnz
    have key := zeros_of_folded (zs := zeroTables t.zeroClaims te) (vs := sumTables te) (by rw [l1]; simp [zeroTables]) l2 (by rw [l3]; simp [sumTables, hlen]) (by
      intro v hv
      obtain ⟨c, hc, rfl⟩ := List.mem_map.1 hv
      show cubeSum N _ = c.2
      rw [hts c hc]
      unfold cubeSum PTracker.tsum
      rw [list_sum_range']) hf (by
      intro k c hk
      have hkl : k < (squeezes t.transcript.events (ev1 ++ (ev2 ++ ev3))).length := by
        rw [DD.len]; exact (List.getElem?_eq_some_iff.1 hk).1
      obtain ⟨ev', f1, f2, -, f4⟩ := DD.each k _ (List.getElem?_eq_getElem hkl)
      have hn := hno _ (by rw [hdr]; exact List.getElem_mem hkl)
      rw [hk] at f4
      obtain rfl := Option.some.inj f4
      unfold ownBad at hn
      rw [heq] at hn
      simp only at hn
      rw [f1, List.drop_left, f2] at hn
      rw [f1]
      rw [show (sumTables te).length = t.sumClaims.length by simp [sumTables, hlen]]
      exact hn)
    intro i hi nv hnv b hb
    obtain ⟨hle, hval⟩ := htab i hi nv hnv
    have hb' : b < 2 ^ N := lt_of_lt_of_le hb (Nat.pow_le_pow_right (by norm_num) hle)
    have := key _ (List.mem_map.2 ⟨i, hi, rfl⟩) b hb'
    rw [hval b hb', Nat.mod_eq_of_lt hb] at this
    exact this
  refine ⟨(both true).1 rfl hnf, fun debug p hp s hsa htog hpf hok => hnf ?_⟩
  obtain ⟨vp, pf, tr4, a1, ⟨heap, a2⟩, a3, a4, a5, a6, a7, a8, a9, a10, a11⟩ := form debug p hp
  have hsc : s.own.sumClaims = te.sumClaims := by
    refine claims_ext (fun id => te.tsum N id) (htog.sums.trans hids.symm) ?_ hts
    intro c hc
    have h1 := htog.read c hc
    rw [hpf, a11 c.1 (htog.sums ▸ List.mem_map.2 ⟨c, hc, rfl⟩)] at h1
    injection h1 with h1
    exact h1.symm
  have hne' : s.own.transcript.isEmpty = false := by rw [htog.transcript]; exact hne
  obtain ⟨cs', tr1', r', tr2', ds', tr3', agg, s1, b1, _, b3, b4, b5, _, _, hagg, _, _, _, b8, b9, b10, _, _, hval⟩ :=
    VSt.aggregate_run H (s := s) (N := N) (by rw [hpf]; exact a10) hsa.wf hne' hsa.zeros hsa.sums
  rw [htog.transcript, htog.zeros, c1] at b1
  obtain ⟨rfl, rfl⟩ := Prod.mk.inj (Except.ok.inj b1)
  rw [c2] at b3
  obtain ⟨rfl, rfl⟩ := Prod.mk.inj (Except.ok.inj b3)
  rw [hsc, hlen, c3] at b5
  obtain ⟨rfl, rfl⟩ := Prod.mk.inj (Except.ok.inj b5)
  rw [hsc] at hagg
  obtain ⟨sub, tr', comms, bp, b, tr'', v1, -⟩ := (verifyClaims_iff pcs H hagg).1 ⟨_, Prod.ext hok rfl⟩
  have hfirst := sumcheckVerify_first v1
  have hpr : s1.own.proof = p := by rw [← hpf]; exact b10
  have hdl : 1 ≤ vp.maxDegree := a6
  have hpv := sumcheckProve_ok a2 (fun k hk hk' => hchar k hk (by omega)) (by rw [a3]; exact hN) H tr3
  rw [a1] at hpv
  have hpf' : pf.proofs = honestMsgs H vp.polyVal vp.numVariables vp.maxDegree vp.numVariables [] (tr3.append "aux info" (.aux vp.maxDegree vp.numVariables)) := by
    injection hpv with hpv
    rw [(Prod.mk.inj hpv).1]
  rw [hpr, a7, hpf', a3] at hfirst
  obtain ⟨k, hk⟩ : ∃ k, N = k + 1 := ⟨N - 1, by omega⟩
  have hhd : ∀ tr, (honestMsgs H vp.polyVal N vp.maxDegree N [] tr).headD [] = honestMsg vp.polyVal N vp.maxDegree [] := by
    intro tr
    rw [show (honestMsgs H vp.polyVal N vp.maxDegree N [] tr) = honestMsgs H vp.polyVal N vp.maxDegree (k + 1) [] tr by rw [← hk]]
    rfl
  have hg : ∀ i ≤ vp.maxDegree, (honestMsg vp.polyVal N vp.maxDegree []).getD i 0 = partialSum vp.polyVal N [(i : F)] := by
    intro i hi
    simp [honestMsg, List.getD, List.getElem?_range (show i < vp.maxDegree + 1 by omega)]
  rw [hhd, hg 0 (by omega), hg 1 hdl] at hfirst
  have hst := partialSum_step vp.polyVal N [] (by simp; omega)
  simp only [List.nil_append] at hst
  simp only [Nat.cast_zero, Nat.cast_one] at hfirst
  rw [← hst, a5] at hfirst
  unfold FoldedClaim
  rw [hfirst]
  unfold sumTables
  rw [List.map_map]
  rfl

section
variable {commit : Mle F → Res C} {n d N : Nat}

theorem ready_sums (hr : Spec.Ready commit t) (hs : SumsTrueP t) : ∀ c ∈ t.sumClaims, ∃ nv, t.HasNv c.1 nv := fun c hc => by
  have hr' : Spec.Ready (⟨commit, fun _ _ => 0, true, fun _ => 0⟩ : Env F C).commit t := hr
  obtain ⟨a, U, e, k, -⟩ := hs c hc
  exact ⟨a.numVars, e ▸ (k.ph hr').nv⟩

theorem ready_zeros (hr : Spec.Ready commit t) (hz : ZerosKnownP t) : ∀ c ∈ t.zeroClaims, ∃ nv, t.HasNv c nv := fun c hc => by
  have hr' : Spec.Ready (⟨commit, fun _ _ => 0, true, fun _ => 0⟩ : Env F C).commit t := hr
  obtain ⟨a, U, e, k⟩ := hz c hc
  exact ⟨a.numVars, e ▸ (k.ph hr').nv⟩

theorem zerosTrue_of_ZT (hr : Spec.Ready commit t) (hz : ZerosKnownP t) (h : ZT t) : ZerosTrueP t := fun c hc => by
  have hr' : Spec.Ready (⟨commit, fun _ _ => 0, true, fun _ => 0⟩ : Env F C).commit t := hr
  obtain ⟨a, U, e, k⟩ := hz c hc
  have hp := k.ph hr'
  refine ⟨a, U, e, k, fun b hb => ?_⟩
  rw [← hp.val b hb]
  exact h _ (e ▸ hc) _ hp.nv b hb

/-- `own_T` for a state from which a proof can be compiled: also what the proof carries. -/
theorem own_C (pcs : Pcs F C B) (H : Oracle F C) (hr : Spec.Ready commit t) (hk : Compilable t n d N) (hd : 1 ≤ d) (hchar : NatsNonzero F (d + 1)) (hs : SumsTrueP t)
    (hz : ∀ c ∈ t.zeroClaims, ∃ nv, t.HasNv c nv) :
    (foldDrawn H t).length = t.zeroClaims.length + N + (t.sumClaims.length + 1) ∧
    (∀ debug p, (compile debug pcs H t).1 = .ok p → Carries p t ∧ TrueSums N p t) ∧
    (¬ ZT t → (∀ h ∈ foldDrawn H t, H t.transcript.label h ∉ ownBad t h) →
      (compile true pcs H t).1 = .error (.err .invalidProver) ∧
      ∀ debug p, (compile debug pcs H t).1 = .ok p → ∀ s : VSt F C B, Sane s → Together t s → s.own.proof = p → (VSt.verifyClaims pcs H s).1 ≠ .ok ()) := by
  have hr' : Spec.Ready (⟨commit, fun _ _ => 0, true, fun _ => 0⟩ : Env F C).commit t := hr
  have hsn := ready_sums hr hs
  obtain ⟨e0, he0, hn0⟩ := hk.top
  have hmne : t.mats ≠ [] := fun e => by rw [e] at he0; simp at he0
  obtain ⟨N', te, -, h5, h6, h7, h8, h9, h10⟩ := own_T pcs H hr.inv hr.started ⟨e0, he0, by have := hk.pos; omega⟩ hsn hz hd
    (fun id v hi hv q hq => hk.degree id hi v hv q hq) hchar
  obtain rfl : N = N' := by
    obtain ⟨e1, he1, hn1⟩ := h6
    have a1 := h5 e0 he0
    have a2 := hk.fits e1 he1
    omega
  refine ⟨h8, fun debug p hp => ?_, h10⟩
  obtain ⟨q1, -, q3⟩ := h9 debug p hp
  refine ⟨⟨fun id c hc => by rw [q1]; exact hc, fun e he => ⟨_, q3 e.1 (List.mem_map.2 ⟨e, he, rfl⟩)⟩⟩, fun e he nv hnv => ?_⟩
  obtain ⟨a, U, ea, k, hU⟩ := hs e he
  have hp := k.ph hr'
  have hav : a.numVars = nv := by
    have := k.1
    rw [ea, hnv] at this
    exact (Except.ok.inj this).symm
  rw [q3 e.1 (List.mem_map.2 ⟨e, he, rfl⟩), equalize_tsum hr.inv hsn h7 hmne (ea ▸ hp.nv), hav, ← hU, hav]
  congr 2
  unfold cubeSum
  refine Finset.sum_congr rfl fun b hb => ?_
  beta_reduce
  rw [← ea, hp.val b (by rw [hav]; exact Finset.mem_range.1 hb)]

/-- The tracker-level statement. -/
theorem false_zeros_refused (pcs : Oracle F C → Pcs F C B) (hd : 1 ≤ d) (hchar : NatsNonzero F (d + 1)) : FalseZerosRefused commit pcs n d := by
  refine ⟨ownBad, ownBad_card, fun t N H hr hk hs hz => ?_⟩
  obtain ⟨h1, -, h3⟩ := own_C (pcs H) H hr hk hd hchar hs (ready_zeros hr hz)
  refine ⟨h1, fun hn hno => ?_⟩
  obtain ⟨k1, k2⟩ := h3 (fun h => hn (zerosTrue_of_ZT hr hz h)) hno
  exact ⟨k1, k2 false⟩

end

end Zksql
