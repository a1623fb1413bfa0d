import Verif.Spec.Verified
import Verif.Lemmas.FoldSound
import Verif.Lemmas.FoldValues
import Verif.Lemmas.Sound
import Verif.Lemmas.VerifierClaims
import Verif.Lemmas.Twin
import Verif.Lemmas.Crash
/-! The challenges of a verification, read back from the transcript. -/
set_option linter.unusedSectionVars false
namespace Zksql
open Spec
variable {F C B : Type} [Field F] [DecidableEq F]

/-- The challenges absorbed. -/
def chalsIn : List (TEvent F C) → List F
  | [] => []
  | .absorb _ (.elem c) :: r => c :: chalsIn r
  | _ :: r => chalsIn r

/-- The messages absorbed. -/
def msgsIn : List (TEvent F C) → List (List F)
  | [] => []
  | .absorb _ (.elems m) :: r => m :: msgsIn r
  | _ :: r => msgsIn r

theorem chalsIn_append (a b : List (TEvent F C)) : chalsIn (a ++ b) = chalsIn a ++ chalsIn b := by
  induction a with
  | nil => rfl
  | cons e a ih =>
    rcases e with ⟨l, d⟩ | l
    · cases d <;> simp [chalsIn, ih]
    · simp [chalsIn, ih]

theorem msgsIn_append (a b : List (TEvent F C)) : msgsIn (a ++ b) = msgsIn a ++ msgsIn b := by
  induction a with
  | nil => rfl
  | cons e a ih =>
    rcases e with ⟨l, d⟩ | l
    · cases d <;> simp [msgsIn, ih]
    · simp [msgsIn, ih]

/-- The events `ev` draw the challenges `cs` and absorb the messages `ms`, one before each challenge from the `K`-th on. -/
structure DrawnAs (H : Oracle F C) (L : String) (base ev : List (TEvent F C)) (cs : List F) (ms : List (List F)) (K : Nat) : Prop where
  chals : chalsIn ev = cs
  msgs : msgsIn ev = ms
  len : (squeezes base ev).length = cs.length
  each : ∀ k h, (squeezes base ev)[k]? = some h → ∃ ev', h = base ++ ev' ∧ chalsIn ev' = cs.take k ∧ msgsIn ev' = ms.take (k + 1 - K) ∧ cs[k]? = some (H L h)

theorem DrawnAs.nil (H : Oracle F C) (L : String) (base : List (TEvent F C)) (K : Nat) : DrawnAs H L base [] [] [] K :=
  ⟨rfl, rfl, rfl, fun k h hk => by simp [squeezes] at hk⟩

theorem DrawnAs.any {H : Oracle F C} {L : String} {base ev : List (TEvent F C)} {cs : List F} {K K' : Nat} (h : DrawnAs H L base ev cs [] K) :
    DrawnAs H L base ev cs [] K' :=
  ⟨h.chals, h.msgs, h.len, fun k x hk => by
    obtain ⟨ev', a, b, c, d⟩ := h.each k x hk
    exact ⟨ev', a, b, by rw [c]; simp, d⟩⟩

theorem DrawnAs.append {H : Oracle F C} {L : String} {base ev ev2 : List (TEvent F C)} {cs cs2 : List F} {ms : List (List F)} {K K' : Nat}
    (h1 : DrawnAs H L base ev cs [] K') (h2 : DrawnAs H L (base ++ ev) ev2 cs2 ms K) : DrawnAs H L base (ev ++ ev2) (cs ++ cs2) ms (cs.length + K) := by
  refine ⟨by rw [chalsIn_append, h1.chals, h2.chals], by rw [msgsIn_append, h1.msgs, h2.msgs]; rfl, by rw [squeezes_append, List.length_append, h1.len, h2.len, List.length_append], ?_⟩
  intro k h hk
  rw [squeezes_append] at hk
  by_cases hkl : k < cs.length
  · rw [List.getElem?_append_left (by rw [h1.len]; exact hkl)] at hk
    obtain ⟨ev', e1, e2, e3, e4⟩ := h1.each k h hk
    refine ⟨ev', e1, by rw [e2, List.take_append_of_le_length hkl.le], ?_, by rw [List.getElem?_append_left hkl]; exact e4⟩
    rw [e3, show k + 1 - (cs.length + K) = 0 by omega]
    simp
  · rw [List.getElem?_append_right (by rw [h1.len]; omega), h1.len] at hk
    obtain ⟨ev', e1, e2, e3, e4⟩ := h2.each _ h hk
    refine ⟨ev ++ ev', by rw [e1, List.append_assoc], ?_, ?_, by rw [List.getElem?_append_right (by omega)]; exact e4⟩
    · rw [chalsIn_append, h1.chals, e2, List.take_append, List.take_of_length_le (l := cs) (by omega)]
    · rw [msgsIn_append, h1.msgs, e3, List.nil_append]
      congr 1
      omega

theorem drawn_one (H : Oracle F C) (L : String) (base : List (TEvent F C)) (l : String) (K : Nat) :
    DrawnAs H L base [.squeeze l, .absorb l (.elem (H L (base ++ [.squeeze l])))] [H L (base ++ [.squeeze l])] [] K := by
  refine ⟨rfl, rfl, rfl, ?_⟩
  intro k h hk
  simp only [squeezes] at hk
  rcases k with _ | k
  · obtain rfl := Option.some.inj hk
    exact ⟨[.squeeze l], rfl, rfl, by simp [msgsIn], rfl⟩
  · simp at hk

theorem drawn_loop (H : Oracle F C) (l : String) (n : Nat) (tr tr' : Transcript F C) (cs : List F) (h : tr.challengeLoop H l n = .ok (cs, tr')) :
    ∃ ev, tr'.events = tr.events ++ ev ∧ tr'.label = tr.label ∧ DrawnAs H tr.label tr.events ev cs [] 0 := by
  induction n generalizing tr cs with
  | zero =>
    obtain ⟨rfl, rfl⟩ := Prod.mk.inj (Except.ok.inj h)
    exact ⟨[], by simp, rfl, DrawnAs.nil _ _ _ _⟩
  | succ n ih =>
    simp only [Transcript.challengeLoop] at h
    obtain ⟨⟨c, t1⟩, h1, h⟩ := twin_res_bind h
    obtain ⟨⟨cs', t2⟩, h2, h⟩ := twin_res_bind h
    obtain ⟨rfl, rfl⟩ := Prod.mk.inj (Except.ok.inj h)
    unfold Transcript.challenge at h1
    by_cases he : tr.isEmpty
    · rw [if_pos he] at h1; simp at h1
    · rw [if_neg he] at h1
      obtain ⟨rfl, rfl⟩ := Prod.mk.inj (Except.ok.inj h1)
      obtain ⟨ev, e1, e2, e3⟩ := ih _ _ h2
      refine ⟨[.squeeze l, .absorb l (.elem (H tr.label (tr.events ++ [.squeeze l])))] ++ ev, ?_, e2, ?_⟩
      · rw [e1]; simp [Transcript.append]
      · refine ((drawn_one H tr.label tr.events l 0).append (K := 0) (cs2 := cs') ?_).any
        have : tr.events ++ [.squeeze l, .absorb l (.elem (H tr.label (tr.events ++ [.squeeze l])))] =
            (({ tr with events := tr.events ++ [TEvent.squeeze l] } : Transcript F C).append l (.elem (H tr.label (tr.events ++ [.squeeze l])))).events := by
          simp [Transcript.append]
        rw [this]
        exact e3

theorem drawn_rounds (H : Oracle F C) (ms : List (List F)) (tr : Transcript F C) :
    ∃ ev, (roundChals H ms tr).2.events = tr.events ++ ev ∧ DrawnAs H tr.label tr.events ev (roundChals H ms tr).1 ms 0 := by
  induction ms generalizing tr with
  | nil => exact ⟨[], by simp [roundChals], DrawnAs.nil _ _ _ _⟩
  | cons m ms ih =>
    obtain ⟨ev, e1, e2⟩ := ih (chalStep H (tr.append "prover msg" (.elems m)) "Internal round").2
    set c := (chalStep H (tr.append "prover msg" (.elems m)) "Internal round").1 with hc
    have hb : (chalStep H (tr.append "prover msg" (.elems m)) "Internal round").2.events =
        tr.events ++ [.absorb "prover msg" (.elems m), .squeeze "Internal round", .absorb "Internal round" (.elem c)] := by
      simp [chalStep, Transcript.append, hc]
    have hl : (chalStep H (tr.append "prover msg" (.elems m)) "Internal round").2.label = tr.label := rfl
    rw [hb] at e1 e2
    rw [hl] at e2
    refine ⟨[.absorb "prover msg" (.elems m), .squeeze "Internal round", .absorb "Internal round" (.elem c)] ++ ev, ?_, ?_, ?_, ?_, ?_⟩
    · simp only [roundChals]
      rw [e1, List.append_assoc]
    · simp only [roundChals, List.cons_append, List.nil_append, chalsIn, e2.chals]
      rfl
    · simp only [List.cons_append, List.nil_append, msgsIn, e2.msgs]
    · have := e2.len
      simp [roundChals, squeezes, this]
    · intro k h hk
      have hs : squeezes tr.events ([.absorb "prover msg" (.elems m), .squeeze "Internal round", .absorb "Internal round" (.elem c)] ++ ev) =
          (tr.events ++ [.absorb "prover msg" (.elems m), .squeeze "Internal round"]) ::
            squeezes (tr.events ++ [.absorb "prover msg" (.elems m), .squeeze "Internal round", .absorb "Internal round" (.elem c)]) ev := by
        simp [squeezes]
      rw [hs] at hk
      rcases k with _ | k
      · obtain rfl := Option.some.inj hk
        refine ⟨_, rfl, rfl, rfl, ?_⟩
        simp [roundChals, chalStep, Transcript.append]
      · rw [List.getElem?_cons_succ] at hk
        obtain ⟨ev', f1, f2, f3, f4⟩ := e2.each k h hk
        refine ⟨[.absorb "prover msg" (.elems m), .squeeze "Internal round", .absorb "Internal round" (.elem c)] ++ ev', by rw [f1, List.append_assoc], ?_, ?_, ?_⟩
        · simp only [roundChals, List.cons_append, List.nil_append, chalsIn, f2, List.take_succ_cons]
          rfl
        · simp only [List.cons_append, List.nil_append, msgsIn, f3]
          rfl
        · simp only [roundChals, List.getElem?_cons_succ]
          exact f4

theorem accepted_lengths {d : Nat} {claim out : F} {ms : List (List F)} {cs : List F} (h : Accepted d claim ms cs out) : ∀ m ∈ ms, m.length = d + 1 := by
  induction ms generalizing claim cs with
  | nil => simp
  | cons m ms ih =>
    cases cs with
    | nil => simp [Accepted] at h
    | cons c cs =>
      simp only [Accepted] at h
      obtain ⟨q, hq, -, hr⟩ := h
      intro m' hm
      rcases List.mem_cons.1 hm with rfl | hm
      · exact hq.2.1
      · exact ih hr m' hm

theorem sumcheck_degree_pos (H : Oracle F C) (claim : F) (pf : IOPProof F) (d n : Nat) (tr tr' : Transcript F C) (sub : SubClaim F)
    (h : sumcheckVerify H claim pf d n tr = .ok (sub, tr')) : 0 < d := by
  by_contra hd
  obtain rfl : d = 0 := by omega
  by_cases hn0 : n = 0
  · subst hn0
    simp [sumcheckVerify, verifyLoop, verifierInit, checkAndGenerateSubclaim] at h
  by_cases hlen : n ≤ pf.proofs.length
  · have h1 := verifyLoop_ok H pf n 0 n 0 (by simp) (by omega) hlen [] [] (tr.append "aux info" (.aux 0 n))
    simp only [List.drop_zero, List.nil_append, Nat.zero_add] at h1
    simp only [sumcheckVerify, verifierInit, h1, ok_bind] at h
    obtain ⟨sub', h2, -⟩ := twin_res_bind h
    have hl : (roundChals H (pf.proofs.take n) (tr.append "aux info" (.aux 0 n))).1.length = (pf.proofs.take n).length := roundChals_length _ _ _
    generalize (roundChals H (pf.proofs.take n) (tr.append "aux info" (.aux 0 n))).1 = cs at h2 hl
    have htl : (pf.proofs.take n).length = n := by simp [hlen]
    rcases hp : pf.proofs.take n with _ | ⟨m, ms⟩
    · rw [hp] at htl; simp at htl; omega
    · rw [hp] at h2 hl
      rcases cs with _ | ⟨c, cs⟩
      · simp at hl
      unfold checkAndGenerateSubclaim at h2
      simp only [not_true_eq_false, if_false] at h2
      rw [if_neg (by rw [← hp]; simpa using htl)] at h2
      obtain ⟨es, h3, h2⟩ := twin_res_bind h2
      obtain ⟨_, h4, h2⟩ := twin_res_bind h2
      obtain ⟨e, h5⟩ := mapM_ok_all _ _ _ h3 (m, c) (by simp)
      have hm : m.length = 1 := by
        by_contra hm
        simp only [] at h5
        rw [if_pos (by omega)] at h5
        simp at h5
      obtain ⟨k, rfl⟩ : ∃ k, n = k + 1 := ⟨n - 1, by omega⟩
      simp only [List.take_succ_cons, deferredChecks] at h4
      obtain ⟨a, -, h4⟩ := twin_res_bind h4
      obtain ⟨b, h6, -⟩ := twin_res_bind h4
      unfold idx at h6
      rw [List.getElem?_eq_none (by omega)] at h6
      simp at h6
  · have h1 := verifyLoop_short H pf n 0 n 0 (by simp) (by omega) (by omega) [] [] (tr.append "aux info" (.aux 0 n))
    simp only [Nat.zero_add] at h1
    simp only [sumcheckVerify, verifierInit, h1] at h
    cases h

theorem aggregate_nonempty (H : Oracle F C) {s s1 : VSt F C B} {a : Nat × F} (h : VSt.aggregate H s = (.ok a, s1)) : s.own.transcript.isEmpty = false := by
  by_contra he
  have he : s.own.transcript.isEmpty = true := by simpa using he
  unfold VSt.aggregate VSt.convertZero at h
  rw [Act.reads_bind, Act.bind_assoc, Act.bind_ok (VSt.trackVirtual_run _ _), Act.bind_assoc, Act.reads_bind, Act.bind_assoc] at h
  obtain ⟨b, s2, h1, h⟩ := Act.bind_eq_ok.1 h
  have h2 : s2.own.transcript = s.own.transcript := by
    generalize hz : (s.push _).own.zeroClaims = zs at h1
    rcases zs with _ | ⟨z, zs⟩
    · obtain ⟨-, rfl⟩ := Prod.mk.inj h1
      rfl
    · unfold VSt.foldZeroClaims at h1
      obtain ⟨c, s3, h3, -⟩ := Act.bind_eq_ok.1 h1
      obtain ⟨tr, h4, -⟩ := challengeU_inv h3
      unfold Transcript.challenge at h4
      rw [if_pos (show (s.push _).own.transcript.isEmpty = true from he)] at h4
      simp at h4
  rw [Act.bind_assoc] at h
  obtain ⟨r, s3, h3, -⟩ := Act.bind_eq_ok.1 h
  unfold VSt.challengesU Transcript.challenges at h3
  rw [h2, if_pos he] at h3
  simp at h3

/-- The value of a handle, `0` where there is none. -/
def valD (s : VSt F C B) (P : C → List F → F) (h : Nat) (x : List F) : F := ((valueAt s P h x).toOption).getD 0

theorem Spec.HandleDegree.val {s : VSt F C B} {P : C → List F → F} {N D h : Nat} (hd : HandleDegree s P N D h) {y : List F} (hy : y.length = N) (hv : ∃ w, valueAt s P h y = .ok w) :
    (∀ x, x.length = N → valueAt s P h x = .ok (valD s P h x)) ∧ IndivDegree (valD s P h) N D := by
  obtain ⟨f, h1, h2⟩ := hd.resolve_right fun h1 => by
    obtain ⟨w, hv⟩ := hv
    obtain ⟨e, he⟩ := h1 y hy
    rw [he] at hv
    simp at hv
  have e : ∀ x, x.length = N → valD s P h x = f x := fun x hx => by unfold valD; rw [h1 x hx]; rfl
  exact ⟨fun x hx => by rw [h1 x hx, e x hx], indivDegree_congr e h2⟩

/-- The exceptional values of a challenge. -/
noncomputable def claimsBad (s : VSt F C B) (N D : Nat) (h : List (TEvent F C)) (P : C → List F → F) : Finset F :=
  nextBad N D (s.own.zeroClaims.map (valD s P)) (s.own.sumClaims.map fun c => (valD s P c.1, c.2)) (chalsIn (h.drop s.own.transcript.events.length))
    (msgsIn (h.drop s.own.transcript.events.length))

theorem valueAt_withProof (s : VSt F C B) (pf : CompiledProof F C B) (P : C → List F → F) : valueAt (withProof s pf) P = valueAt s P := rfl

theorem sound_verification {s : VSt F C B} (hs : Sane s) (N D : Nat) : SoundVerification s N D := by
  refine ⟨claimsBad s N D, ?_⟩
  intro pf hN hnat H agg sm s1 sub tr hagg hsc
  have hd := sumcheck_degree_pos H sm pf.scProof pf.scMaxDegree N _ _ _ hsc
  have hne := aggregate_nonempty H hagg
  obtain ⟨cs, tr1, r, tr2, ds, tr3, agg', s1', a1, a2, a3, a4, a5, a6, -, a8, -, -, -, a12, a13, -, -, -, a17⟩ :=
    VSt.aggregate_run H (s := withProof s pf) hN ⟨hs.wf.refs, hs.wf.lt⟩ hne hs.zeros hs.sums
  rw [hagg] at a8
  obtain ⟨e1, rfl⟩ := Prod.mk.inj a8
  obtain ⟨rfl, rfl⟩ := Prod.mk.inj (Except.ok.inj e1)
  obtain ⟨p1, p2, p3, p4, -, p6⟩ := (sumcheckVerify_iff H _ pf.scProof pf.scMaxDegree N hd hnat _ _ _).1 hsc
  -- the transcript
  obtain ⟨ev1, t1, l1, d1⟩ := drawn_loop H _ _ _ _ _ a1
  have a3' : tr1.challengeLoop H "0check r" N = .ok (r, tr2) := by
    unfold Transcript.challenges at a3
    split at a3
    · simp at a3
    · exact a3
  obtain ⟨ev2, t2, l2, d2⟩ := drawn_loop H _ _ _ _ _ a3'
  obtain ⟨ev3, t3, l3, d3⟩ := drawn_loop H _ _ _ _ _ a5
  rw [a12] at p3 p4 p6
  obtain ⟨ev4, t4, d4⟩ := drawn_rounds H (pf.scProof.proofs.take N) (tr3.append "aux info" (.aux pf.scMaxDegree N))
  change s.own.transcript.challengeLoop H _ _ = _ at a1
  change _ = s.own.transcript.events ++ ev1 at t1
  change tr1.label = s.own.transcript.label at l1
  change DrawnAs H s.own.transcript.label s.own.transcript.events _ _ _ _ at d1
  set base := s.own.transcript.events with hbase
  set L := s.own.transcript.label with hL
  have e1' : tr1.events = base ++ ev1 := t1
  have e2' : tr2.events = base ++ (ev1 ++ ev2) := by rw [t2, e1', List.append_assoc]
  have e3' : tr3.events = base ++ (ev1 ++ (ev2 ++ ev3)) := by rw [t3, e2', List.append_assoc, List.append_assoc]
  have l2' : tr2.label = L := l2.trans l1
  have l3' : tr3.label = L := l3.trans l2'
  have e4' : tr.events = base ++ (ev1 ++ (ev2 ++ (ev3 ++ (.absorb "aux info" (.aux pf.scMaxDegree N) :: ev4)))) := by
    rw [p4, t4]
    simp [Transcript.append, e3']
  have dAux : DrawnAs H L (base ++ (ev1 ++ (ev2 ++ ev3))) (.absorb "aux info" (.aux pf.scMaxDegree N) :: ev4) sub.point (pf.scProof.proofs.take N) 0 := by
    have d0 : DrawnAs H L (base ++ (ev1 ++ (ev2 ++ ev3))) [.absorb "aux info" (.aux pf.scMaxDegree N)] [] [] 0 :=
      ⟨rfl, rfl, rfl, fun k h hk => by simp [squeezes] at hk⟩
    have := d0.append (ev2 := ev4) (cs2 := sub.point) (ms := pf.scProof.proofs.take N) (K := 0) (by
      have h := d4
      rw [show (tr3.append "aux info" (.aux pf.scMaxDegree N)).label = L from l3', ← p3,
        show (tr3.append "aux info" (.aux pf.scMaxDegree N)).events = base ++ (ev1 ++ (ev2 ++ ev3)) ++ [.absorb "aux info" (.aux pf.scMaxDegree N)] by
          simp [Transcript.append, e3']] at h
      exact h)
    exact this
  rw [l1, e1'] at d2
  rw [l2', e2'] at d3
  have D1 := d3.append (K := 0) (cs2 := sub.point) (ms := pf.scProof.proofs.take N) (ev2 := .absorb "aux info" (.aux pf.scMaxDegree N) :: ev4) (by
    simpa [List.append_assoc] using dAux)
  have D2 := d2.append (by simpa [List.append_assoc] using D1)
  have DD := d1.append D2
  have hdrop : tr.events.drop base.length = ev1 ++ (ev2 ++ (ev3 ++ (.absorb "aux info" (.aux pf.scMaxDegree N) :: ev4))) := by rw [e4', List.drop_left]
  have hdrawn : drawnUntil s tr = squeezes base (ev1 ++ (ev2 ++ (ev3 ++ (.absorb "aux info" (.aux pf.scMaxDegree N) :: ev4)))) := by
    unfold drawnUntil; rw [hdrop]
  rw [hdrawn]
  have c1 : cs.length = s.own.zeroClaims.length := a2
  have c3 : ds.length = s.own.sumClaims.length + 1 := a6
  have hpt : sub.point.length = N := by rw [p3, roundChals_length]; simp [p2]
  have hml : (pf.scProof.proofs.take N).length = N := by simp [p2]
  have hK : cs.length + (r.length + ds.length) = s.own.zeroClaims.length + N + (s.own.sumClaims.length + 1) := by omega
  rw [hK] at DD
  have hbad : ∀ k h, (squeezes base (ev1 ++ (ev2 ++ (ev3 ++ (.absorb "aux info" (.aux pf.scMaxDegree N) :: ev4)))))[k]? = some h → ∀ P,
      claimsBad s N D h P = nextBad N D (s.own.zeroClaims.map (valD s P)) (s.own.sumClaims.map fun c => (valD s P c.1, c.2))
        ((cs ++ (r ++ (ds ++ sub.point))).take k) ((pf.scProof.proofs.take N).take (k + 1 - (s.own.zeroClaims.length + N + (s.own.sumClaims.length + 1)))) := by
    intro k h hk P
    obtain ⟨ev', f1, f2, f3, f4⟩ := DD.each k h hk
    unfold claimsBad
    rw [f1, List.drop_left, f2, f3]
  refine ⟨by rw [DD.len]; simp; omega, fun k h hk => ⟨fun P => ?_, fun P P' hP => ?_⟩, fun P hdeg hval hno => ?_⟩
  · rw [hbad k h hk P]
    have hkl : k < (cs ++ (r ++ (ds ++ sub.point))).length := by
      rw [← DD.len]
      exact (List.getElem?_eq_some_iff.1 hk).1
    have htk : ((cs ++ (r ++ (ds ++ sub.point))).take k).length = k := by rw [List.length_take]; omega
    split_ifs with hlt
    · exact nextBad_card_one _ _ _ _ _ _ (by rw [htk]; simpa using hlt)
    · refine (nextBad_card _ _ _ _ _ _ (by rw [htk]; simpa using hlt)).trans (max_le_max ?_ le_rfl)
      obtain ⟨j, hj⟩ : ∃ j, k + 1 - (s.own.zeroClaims.length + N + (s.own.sumClaims.length + 1)) = j + 1 := ⟨k - (s.own.zeroClaims.length + N + (s.own.sumClaims.length + 1)), by omega⟩
      have hjl : j < (pf.scProof.proofs.take N).length := by
        simp only [List.length_append] at hkl
        omega
      rw [hj, List.take_succ_eq_append_getElem hjl, List.getLastD_eq_getLast?, List.getLast?_append_of_ne_nil _ (by simp)]
      have hmem := accepted_lengths p6 _ (List.getElem_mem hjl)
      show (pf.scProof.proofs.take N)[j].length - 1 ≤ _
      omega
  · rw [hbad k h hk P, hbad k h hk P']
    obtain ⟨ev', f1, -⟩ := DD.each k h hk
    have hv : ∀ i, valD s P i = valD s P' i := by
      intro i
      funext x
      unfold valD
      rw [valueAt_congr (P' := P') fun j c hj => hP c (by rw [f1]; exact List.mem_append_left _ (hs.absorbed j c hj))]
    have hv' : valD s P = valD s P' := funext hv
    rw [hv']
  · have hans : answer s1 P = answer (withProof s pf) P := by funext i x; unfold answer; rw [a13]
    have hall := VSt.aggregate_values H hagg ⟨hs.wf.refs, hs.wf.lt⟩ hs.zeros hs.sums (answer (withProof s pf) P) sub.point sub.expectedEvaluation (by rw [← hans]; exact hval)
    have hzd := fun h hh => (hdeg.1 h hh).val hpt (hall.1 h hh)
    have hsd := fun c hc => (hdeg.2 c hc).val hpt (hall.2 c hc)
    have hfold : foldedAt (s.own.zeroClaims.map (valD s P)) ((s.own.sumClaims.map fun c => (valD s P c.1, c.2)).map (·.1)) cs r ds sub.point = sub.expectedEvaluation := by
      have := a17 (answer (withProof s pf) P) sub.point (fun i => valD s P i sub.point) hpt (fun c hc => (hzd c hc).1 _ hpt) (fun c hc => (hsd c hc).1 _ hpt)
      unfold valueAt at hval
      rw [hans] at hval
      have e := Except.ok.inj (hval.symm.trans this)
      rw [e]
      simp [foldedAt, List.map_map, Function.comp_def]
      rfl
    have core := verification_core (N := N) (D := D) (d := pf.scMaxDegree) (zs := s.own.zeroClaims.map (valD s P))
      (vs := s.own.sumClaims.map fun c => (valD s P c.1, c.2)) (by
        intro z hz
        obtain ⟨h, hh, rfl⟩ := List.mem_map.1 hz
        exact (hzd h hh).2) (by
        intro v hv
        obtain ⟨c, hc, rfl⟩ := List.mem_map.1 hv
        exact (hsd c hc).2) hnat (cs := cs) (r := r) (ds := ds) (pt := sub.point) (ms := pf.scProof.proofs.take N) (by simpa using c1) a4 (by simpa using c3) hpt hml (by
        rw [hfold]
        have := p6
        rw [← p3] at this
        rw [List.map_map]
        exact this) (by
        intro k c hk
        have hkl : k < (squeezes base (ev1 ++ (ev2 ++ (ev3 ++ (.absorb "aux info" (.aux pf.scMaxDegree N) :: ev4))))).length := by
          rw [DD.len]
          exact (List.getElem?_eq_some_iff.1 hk).1
        have hg := List.getElem?_eq_getElem hkl
        have hb := hno _ (List.mem_of_getElem? hg)
        rw [hbad k _ hg P] at hb
        obtain ⟨ev', -, -, -, f4⟩ := DD.each k _ hg
        rw [hk] at f4
        rw [Option.some.inj f4]
        simpa using hb)
    refine ⟨fun h hh b hb => ?_, fun c hc => ?_⟩
    · rw [(hzd h hh).1 _ (by simp)]
      exact congrArg _ (core.1 _ (List.mem_map.2 ⟨_, List.mem_map.2 ⟨h, hh, rfl⟩, rfl⟩) b hb)
    · refine ⟨fun b => valD s P c.1 (boolPt N b), fun b hb => (hsd c hc).1 _ (by simp), ?_⟩
      exact core.2 _ (List.mem_map.2 ⟨_, List.mem_map.2 ⟨c, hc, rfl⟩, rfl⟩)

end Zksql
