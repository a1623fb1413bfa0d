import Verif.Lemmas.Crash
import Verif.Props.Compile
/-!
C90: no proof makes the verifier panic.
-/
set_option linter.unusedSectionVars false
namespace Zksql
open Spec PTracker
variable {F : Type} [Field F] [DecidableEq F] {E : Curve F}

/-- C90 in full: whatever proof a verifier has loaded and whatever it has done since, `verify_claims` returns. -/
def C90_statement : Prop :=
  ∀ (F : Type) [Field F] [DecidableEq F] (E : Curve F) (H : Oracle F E.G1) (g : E.G1) (h : E.G2) (T : List F) (debug : Bool)
    (vs : VState F E.G1 (BatchProof E)), VReachable debug H vs → NoPanic (VSt.verifyClaims (kzgOf H g h T) H vs.st).1

/-- C90, partial: with a proof of the right shape, and challenges that are no interpolation nodes, `verify_claims` returns `Ok` or `Err`.  Missing: the shape is
not checked (`C90_malformed_panics`, `C90_untracked_panics`), nor are the nodes (C20). -/
theorem C90_well_shaped_partial (H : Oracle F E.G1) (g : E.G1) (h : E.G2) (T : List F) (debug : Bool) (vs : VState F E.G1 (BatchProof E))
    (hr : VReachable debug H vs) (hw : WellShaped vs) (hn : NatsNonzero F (max 2 vs.st.own.proof.scMaxDegree))
    (hav : FutureAvoids H vs.st.own.transcript (max 2 vs.st.own.proof.scMaxDegree)) : NoPanic (VSt.verifyClaims (kzgOf H g h T) H vs.st).1 := by
  obtain ⟨ops, hrun⟩ := hr
  have hinv : VInv vs := (runVOps_stepOk vinv_init _ hrun).inv
  obtain ⟨agg, sm, s1, hagg, e1, e2, _, e4, e5⟩ := aggregate_reach H hinv hw.absorbed
  rw [verifyClaims_result _ H hagg, e1, e2]
  have hn1 : NatsNonzero F vs.st.own.proof.scMaxDegree := fun i a b => hn i a (b.trans (le_max_right _ _))
  have hav1 : FutureAvoids H s1.own.transcript (max 2 vs.st.own.proof.scMaxDegree) := hav.mono e4 e5 (le_refl _)
  have hs := noPanic_sumcheck H sm vs.st.own.proof.scProof vs.st.own.proof.scMaxDegree vs.st.own.proof.scNumVars hw.degree hn1 s1.own.transcript hw.rounds
    (hav1.mono rfl (le_refl _) (le_max_right _ _))
  rcases hv : sumcheckVerify H sm vs.st.own.proof.scProof vs.st.own.proof.scMaxDegree vs.st.own.proof.scNumVars s1.own.transcript with (e | _) | ⟨sub, tr1⟩
  · intro hc; cases hc
  · exact absurd hv hs
  · dsimp only
    obtain ⟨t1, t2⟩ := sumcheckVerify_tr H sm _ _ _ hw.degree hn1 _ _ _ hv
    obtain ⟨comms, m1, m2⟩ := mapM_lookup vs.st.own.matComms (sortedIds vs.st.own.proof.comms) fun id hid => hw.tracked id ((mem_sortedIds _ _).1 hid)
    obtain ⟨bp, b1, b2, b3⟩ := hw.opening
    rw [m1, ok_bind, idx, b1, unwrap_some, ok_bind]
    rw [length_sortedIds] at m2
    refine Spec.NoPanic.bind ?_ fun _ _ => noPanic_ok _
    exact noPanic_batch H (verifierParamOf g h T) (by simp [verifierParamOf]) comms _ (by simp [length_sortedIds, m2]) bp (by omega) b3
      (fun i a b => hn i a (b.trans (le_max_left _ _))) tr1 (hav1.mono t1 t2 (le_max_left _ _))

/-- The ways to break a proof that the verifier does not notice before it indexes: a round more than there are messages; messages of one value, with degree 0;
no opening; an opening without values; an opening without messages. -/
inductive Breaks {E : Curve F} (p : CompiledProof F E.G1 (BatchProof E)) : CompiledProof F E.G1 (BatchProof E) → Prop where
  | rounds : Breaks p { p with scNumVars := p.scProof.proofs.length + 1 }
  | degree : Breaks p { p with scMaxDegree := 0, scProof := ⟨p.scProof.point, p.scProof.proofs.map (·.take 1)⟩ }
  | opening : Breaks p { p with pcsProof := [] }
  | values (bp : BatchProof E) (rest : List (BatchProof E)) : p.pcsProof = bp :: rest → Breaks p { p with pcsProof := { bp with evals := [] } :: rest }
  | messages (bp : BatchProof E) (rest : List (BatchProof E)) : p.pcsProof = bp :: rest →
      Breaks p { p with pcsProof := { bp with sumCheckProof := ⟨bp.sumCheckProof.point, []⟩ } :: rest }

/-- The states after a history depend on the proof only through what the history reads. -/
theorem reload (debug : Bool) (H : Oracle F E.G1) (p p' : CompiledProof F E.G1 (BatchProof E)) (h1 : p'.comms = p.comms) (h2 : p'.sumcheckClaims = p.sumcheckClaims)
    (h3 : p'.queryMap = p.queryMap) (ops : List (VOp F E.G1 (BatchProof E))) (hops : ∀ q, VOp.setProof q ∉ ops) (vs : VState F E.G1 (BatchProof E))
    (hrun : runVOps debug H VState.init (.setProof p :: ops) = .ok vs) :
    runVOps debug H VState.init (.setProof p' :: ops) = .ok (vs.re p') ∧ vs.st.own.proof = p := by
  unfold runVOps at hrun ⊢
  rw [List.foldlM_cons, withProof_run, ok_bind] at hrun ⊢
  exact swap_ops (p := p) (p' := p') debug H h1 h2 h3 ops hops rfl hrun

/-- C90, how it fails: let a verifier load an accepted proof.  Break the proof in any of the five ways of `Breaks`: up to `verify_claims` the verifier does the
same, on the same handles and with the same claims, and `verify_claims` panics. -/
theorem C90_malformed_panics (debug : Bool) (H : Oracle F E.G1) (pp : ProverParam E) (vp : VerifierParam E) (p p' : CompiledProof F E.G1 (BatchProof E))
    (ops : List (VOp F E.G1 (BatchProof E))) (hops : ∀ q, VOp.setProof q ∉ ops) (vs : VState F E.G1 (BatchProof E))
    (hrun : runVOps debug H VState.init (.setProof p :: ops) = .ok vs) (hne : vs.st.own.transcript.isEmpty = false) (hacc : Accepts (kzgPcs H pp vp) H vs)
    (hb : Breaks p p') :
    ∃ vs', runVOps debug H VState.init (.setProof p' :: ops) = .ok vs' ∧ vs'.handles = vs.handles ∧ vs'.st.own.zeroClaims = vs.st.own.zeroClaims ∧
      vs'.st.own.sumClaims = vs.st.own.sumClaims ∧ vs'.st.sh = vs.st.sh ∧ (VSt.verifyClaims (kzgPcs H pp vp) H vs'.st).1 = .error .panic := by
  have hinv : VInv vs := (runVOps_stepOk vinv_init _ hrun).inv
  obtain ⟨agg, sm, s1, hagg, e1, e2, _, _, _⟩ := aggregate_reach H hinv hne
  have hp0 : vs.st.own.proof = p := (reload debug H p p rfl rfl rfl ops hops vs hrun).2
  obtain ⟨sub, tr1, comms, bp, b, tr2, a1, a2, a3, a4⟩ := (verifyClaims_iff (kzgPcs H pp vp) H hagg).1 ⟨_, Prod.ext hacc rfl⟩
  rw [e1, hp0] at a1 a2 a3 a4
  rw [e2] at a2
  have shape := sumcheckVerify_shape H _ _ _ _ _ _ _ a1
  -- the claims folded with the broken proof
  have fold : ∀ q : CompiledProof F E.G1 (BatchProof E), VInv (vs.re q) → ∃ agg' sm' s1', VSt.aggregate H (vs.re q).st = (.ok (agg', sm'), s1') ∧ s1'.own.proof = q ∧
      s1'.own.matComms = vs.st.own.matComms ∧ (q.scNumVars = p.scNumVars → sm' = sm ∧ s1'.own.transcript = s1.own.transcript) := by
    intro q hq
    obtain ⟨cs, t1, r, t2, ds, t3, g, u, b1, _, b3, _, b5, _, _, bagg, _, _, _, b8, b9, b10, _, _, _⟩ :=
      VSt.aggregate_run H (s := (vs.re q).st) rfl hq.wf hne hq.claims.2 hq.claims.1
    refine ⟨g, _, u, bagg, b10, b9, fun hnv => ?_⟩
    obtain ⟨cs', t1', r', t2', ds', t3', g', u', c1, _, c3, _, c5, _, _, cagg, _, _, _, c8, _⟩ :=
      VSt.aggregate_run H (s := vs.st) rfl hinv.wf hne hinv.claims.2 hinv.claims.1
    have c1' : vs.st.own.transcript.challengeLoop H "zerocheck challenge" vs.st.own.zeroClaims.length = .ok (cs, t1) := b1
    rw [c1] at c1'
    obtain ⟨rfl, rfl⟩ := Prod.mk.inj (Except.ok.inj c1')
    have c3' : t1'.challenges H "0check r" vs.st.own.proof.scNumVars = .ok (r, t2) := by
      rw [hp0, ← hnv]; exact b3
    rw [c3] at c3'
    obtain ⟨rfl, rfl⟩ := Prod.mk.inj (Except.ok.inj c3')
    have c5' : t2'.challengeLoop H "sumcheck challenge" (vs.st.own.sumClaims.length + 1) = .ok (ds, t3) := b5
    rw [c5] at c5'
    obtain ⟨rfl, rfl⟩ := Prod.mk.inj (Except.ok.inj c5')
    rw [hagg] at cagg
    obtain ⟨x1, rfl⟩ := Prod.mk.inj cagg
    obtain ⟨_, x2⟩ := Prod.mk.inj (Except.ok.inj x1)
    exact ⟨x2.symm, by rw [b8, c8]⟩
  have main : ∀ q : CompiledProof F E.G1 (BatchProof E), q.comms = p.comms → q.sumcheckClaims = p.sumcheckClaims → q.queryMap = p.queryMap →
      (VInv (vs.re q) → (VSt.verifyClaims (kzgPcs H pp vp) H (vs.re q).st).1 = .error .panic) →
      ∃ vs', runVOps debug H VState.init (.setProof q :: ops) = .ok vs' ∧ vs'.handles = vs.handles ∧ vs'.st.own.zeroClaims = vs.st.own.zeroClaims ∧
        vs'.st.own.sumClaims = vs.st.own.sumClaims ∧ vs'.st.sh = vs.st.sh ∧ (VSt.verifyClaims (kzgPcs H pp vp) H vs'.st).1 = .error .panic := by
    intro q q1 q2 q3 hq
    have hr := (reload debug H p q q1 q2 q3 ops hops vs hrun).1
    exact ⟨vs.re q, hr, rfl, rfl, rfl, rfl, hq (runVOps_stepOk vinv_init _ hr).inv⟩
  cases hb with
  | rounds =>
    refine main _ rfl rfl rfl fun hq => ?_
    obtain ⟨agg', sm', s1', f1, f2, _, _⟩ := fold _ hq
    rw [verifyClaims_result _ H f1, f2]
    dsimp only
    rw [C18_short_panics H sm' p.scProof p.scMaxDegree (p.scProof.proofs.length + 1) s1'.own.transcript (Nat.lt_succ_self _)]
  | degree =>
    refine main _ rfl rfl rfl fun hq => ?_
    obtain ⟨agg', sm', s1', f1, f2, _, _⟩ := fold _ hq
    rw [verifyClaims_result _ H f1, f2]
    dsimp only
    rw [sumcheckVerify_degree_zero H sm' ⟨p.scProof.point, p.scProof.proofs.map (·.take 1)⟩ p.scNumVars s1'.own.transcript shape.1 (by simpa using shape.2.1) (by
      intro m hm
      rw [← List.map_take] at hm
      obtain ⟨m', hm', rfl⟩ := List.mem_map.1 hm
      have := shape.2.2 m' hm'
      simp [this])]
  | opening =>
    refine main _ rfl rfl rfl fun hq => ?_
    obtain ⟨agg', sm', s1', f1, f2, f3, f4⟩ := fold _ hq
    obtain ⟨rfl, f5⟩ := f4 rfl
    rw [verifyClaims_result _ H f1, f2, f3, f5]
    dsimp only
    rw [a1]
    dsimp only
    rw [a2, ok_bind]
    rfl
  | values bp' rest hbp =>
    obtain rfl : bp' = bp := by
      rw [hbp] at a3
      exact Option.some.inj a3
    refine main _ rfl rfl rfl fun hq => ?_
    obtain ⟨agg', sm', s1', f1, f2, f3, f4⟩ := fold _ hq
    obtain ⟨rfl, f5⟩ := f4 rfl
    rw [verifyClaims_result _ H f1, f2, f3, f5]
    dsimp only
    rw [a1]
    dsimp only
    rw [a2, ok_bind]
    have := batchVerify_no_values H vp comms _ bp' tr1 tr2 b a4
    show (batchVerify H vp comms _ { bp' with evals := [] } tr1 >>= fun _ => Except.ok ()) = _
    rw [this, error_bind]
  | messages bp' rest hbp =>
    obtain rfl : bp' = bp := by
      rw [hbp] at a3
      exact Option.some.inj a3
    refine main _ rfl rfl rfl fun hq => ?_
    obtain ⟨agg', sm', s1', f1, f2, f3, f4⟩ := fold _ hq
    obtain ⟨rfl, f5⟩ := f4 rfl
    rw [verifyClaims_result _ H f1, f2, f3, f5]
    dsimp only
    rw [a1]
    dsimp only
    rw [a2, ok_bind]
    have := batchVerify_no_messages H vp comms _ bp' tr1 tr2 b a4
    show (batchVerify H vp comms _ { bp' with sumCheckProof := ⟨bp'.sumCheckProof.point, []⟩ } tr1 >>= fun _ => Except.ok ()) = _
    rw [this, error_bind]

theorem keys_of_lookup {α : Type} {m : List (Nat × α)} {i : Nat} {a : α} (h : m.lookup i = some a) : i ∈ m.map (·.1) := by
  induction m with
  | nil => cases h
  | cons e m ih =>
    rw [List.map_cons]
    by_cases he : i = e.1
    · exact List.mem_cons.2 (Or.inl he)
    · rw [List.lookup_cons, beq_false_of_ne he] at h
      exact List.mem_cons_of_mem _ (ih h)

/-- C90, another way to fail: a proof with a commitment that the verifier has not taken over is never turned down with an error after its sumcheck: if the
sumcheck checks, `verify_claims` panics. -/
theorem C90_untracked_panics {F C B : Type} [Field F] [DecidableEq F] (pcs : Pcs F C B) (H : Oracle F C) (vs : VState F C B) (id : Nat) (hid : id ∈ vs.st.own.proof.comms.map (·.1))
    (hun : id ∉ vs.st.own.matComms.map (·.1)) {agg : Nat} {sm : F} {s1 : VSt F C B} {sub : SubClaim F} {tr1 : Transcript F C}
    (hr : ∃ debug, VReachable debug H vs) (hne : vs.st.own.transcript.isEmpty = false) (hagg : VSt.aggregate H vs.st = (.ok (agg, sm), s1))
    (hs : sumcheckVerify H sm vs.st.own.proof.scProof vs.st.own.proof.scMaxDegree vs.st.own.proof.scNumVars s1.own.transcript = .ok (sub, tr1)) :
    (VSt.verifyClaims pcs H vs.st).1 = .error .panic := by
  obtain ⟨debug, ops, hrun⟩ := hr
  have hinv : VInv vs := (runVOps_stepOk vinv_init _ hrun).inv
  obtain ⟨agg', sm', s1', hagg', e1, e2, _⟩ := aggregate_reach H hinv hne
  rw [hagg] at hagg'
  obtain ⟨x1, rfl⟩ := Prod.mk.inj hagg'
  rw [verifyClaims_result pcs H hagg, e1, hs, e2]
  dsimp only
  have hp : ∀ l : List Nat, id ∈ l → (l.mapM fun id => unwrap (vs.st.own.matComms.lookup id)) = .error .panic := by
    intro l
    induction l with
    | nil => intro h; exact (List.not_mem_nil h).elim
    | cons x l ih =>
      intro h
      rw [List.mapM_cons]
      rcases hl : vs.st.own.matComms.lookup x with _ | c
      · rw [unwrap_none, error_bind]
      · rw [unwrap_some, ok_bind, ih ((List.mem_cons.1 h).resolve_left fun hx => hun (by rw [hx]; exact keys_of_lookup hl))]
        rfl
  rw [hp _ ((mem_sortedIds _ _).2 hid), error_bind]

namespace PfEx

/-- The verdict on a proof after the history of `falseOps`. -/
def after (p : CompiledProof (ZMod 7) (ZMod 7) (BatchProof E7)) : Res (Res Unit) := do
  let vs ← runVOps true orc VState.init (.setProof p :: falseOps)
  .ok (VSt.verifyClaims (kzgOf (E := E7) orc (1 : ZMod 7) (1 : ZMod 7) [3]) orc vs.st).1

end PfEx

/-- An accepted proof and its broken versions. -/
example : PfEx.after PfEx.lie = .ok (.ok ()) ∧ PfEx.after { PfEx.lie with scNumVars := 2 } = .ok (.error .panic) ∧
    PfEx.after { PfEx.lie with pcsProof := [] } = .ok (.error .panic) ∧
    PfEx.after { PfEx.lie with scMaxDegree := 0, scProof := ⟨[], [[0]]⟩ } = .ok (.error .panic) ∧
    PfEx.after { PfEx.lie with pcsProof := [⟨⟨[6], [[0, 0, 0]]⟩, [], [0]⟩] } = .ok (.error .panic) ∧
    PfEx.after { PfEx.lie with pcsProof := [⟨⟨[6], []⟩, [0, 0], [0]⟩] } = .ok (.error .panic) ∧
    PfEx.after { PfEx.lie with comms := [(0, 2), (1, 3), (5, 1)] } = .ok (.error .panic) ∧
    PfEx.after { PfEx.lie with pcsProof := [⟨⟨[6, 6], [[0, 0, 0], [0, 0, 0]]⟩, [0, 0], [0]⟩] } = .ok (.error (.err .invalidParameters)) := by
  decide +kernel

/-- The hypotheses of `C90_well_shaped_partial` hold after that history, and those of `C90_malformed_panics`. -/
example : ∃ vs, runVOps true PfEx.orc VState.init (.setProof PfEx.lie :: PfEx.falseOps) = .ok vs ∧ WellShaped (E := PfEx.E7) vs ∧
    NatsNonzero (ZMod 7) (max 2 vs.st.own.proof.scMaxDegree) ∧ FutureAvoids PfEx.orc vs.st.own.transcript (max 2 vs.st.own.proof.scMaxDegree) ∧
    vs.st.own.proof = PfEx.lie := by
  rcases hv : runVOps true PfEx.orc VState.init (.setProof PfEx.lie :: PfEx.falseOps) with e | vs
  · exact absurd hv (by intro h; cases h)
  · cases hv
    refine ⟨_, rfl, ⟨rfl, le_refl 1, le_refl 1, by decide +kernel, ⟨⟨⟨[6], [[0, 0, 0]]⟩, [0, 0], [0]⟩, rfl, le_refl 2, le_refl 1⟩⟩, fun i a b => PfEx.nats i a (by
      have : max 2 PfEx.lie.scMaxDegree = 2 := rfl
      have b : i ≤ 2 := b
      omega), ?_, rfl⟩
    intro evs _ i hi
    have hi : i ≤ 2 := hi
    unfold PfEx.orc
    have : i = 0 ∨ i = 1 ∨ i = 2 := by omega
    rcases this with rfl | rfl | rfl <;> split <;> decide

/-- C90 is false. -/
theorem C90_violated : ¬ C90_statement := by
  intro hall
  have hx : PfEx.after { PfEx.lie with pcsProof := [] } = .ok (.error .panic) := by decide +kernel
  unfold PfEx.after at hx
  rcases hv : runVOps true PfEx.orc VState.init (.setProof { PfEx.lie with pcsProof := [] } :: PfEx.falseOps) with e | vs
  · rw [hv] at hx; simp at hx
  rw [hv, ok_bind] at hx
  exact hall (ZMod 7) PfEx.E7 PfEx.orc (1 : ZMod 7) (1 : ZMod 7) [3] true vs ⟨_, hv⟩ (Except.ok.inj hx)

/-! ## C18: malformed sumcheck proofs are rejected with an error, not a panic -/

section
variable {C : Type}

/-- C18: with enough messages, and challenges that are no interpolation nodes, the sumcheck verifier returns: it accepts, or rejects with an error. -/
theorem C18_returns (H : Oracle F C) (claim : F) (pf : IOPProof F) (d n : Nat) (hd : 0 < d) (hchar : NatsNonzero F d) (tr : Transcript F C)
    (hlen : n ≤ pf.proofs.length) (hav : FutureAvoids H tr d) :
    (∃ r, sumcheckVerify H claim pf d n tr = .ok r) ∨ ∃ e, sumcheckVerify H claim pf d n tr = .error (.err e) := by
  have h := noPanic_sumcheck H claim pf d n hd hchar tr hlen hav
  rcases hv : sumcheckVerify H claim pf d n tr with (e | _) | r
  · exact .inr ⟨e, rfl⟩
  · exact absurd hv h
  · exact .inl ⟨r, rfl⟩

/-- C18: a message of the wrong length, in any round, is rejected with an error. -/
theorem C18_wrong_length_error (H : Oracle F C) (claim : F) (pf : IOPProof F) (d n : Nat) (hd : 0 < d) (hchar : NatsNonzero F d) (tr : Transcript F C)
    (hlen : n ≤ pf.proofs.length) (hav : FutureAvoids H tr d) (k : Nat) (m : List F) (hk : k < n) (hm : pf.proofs[k]? = some m)
    (hl : m.length ≠ d + 1) : ∃ e, sumcheckVerify H claim pf d n tr = .error (.err e) := by
  obtain ⟨e, he⟩ := C18_wrong_length H claim pf d n hd hchar tr k m hk hm hl
  rcases C18_returns H claim pf d n hd hchar tr hlen hav with ⟨r, hr⟩ | h
  · rw [hr] at he; cases he
  · exact h

/-- C18: a first round that does not add up to the claim is rejected with an error. -/
theorem C18_wrong_sum_error (H : Oracle F C) (claim : F) (pf : IOPProof F) (d n : Nat) (hd : 0 < d) (hchar : NatsNonzero F d) (tr : Transcript F C)
    (hlen : n ≤ pf.proofs.length) (hav : FutureAvoids H tr d) (m : List F) (hm : pf.proofs[0]? = some m)
    (hs : m.getD 0 0 + m.getD 1 0 ≠ claim) : ∃ e, sumcheckVerify H claim pf d n tr = .error (.err e) := by
  obtain ⟨e, he⟩ := C18_wrong_sum H claim pf d n hd hchar tr m hm hs
  rcases C18_returns H claim pf d n hd hchar tr hlen hav with ⟨r, hr⟩ | h
  · rw [hr] at he; cases he
  · exact h

/-- In an accepted run, a round adds up to the polynomial of the round before at the challenge of that round. -/
theorem accepted_round (d : Nat) (hd : 0 < d) (hchar : NatsNonzero F d) : ∀ (ms : List (List F)) (cs : List F) (claim out : F) (k : Nat) (m m' : List F) (c : F)
    (q : Polynomial F), Accepted d claim ms cs out → ms[k]? = some m → ms[k + 1]? = some m' → cs[k]? = some c → IsMessagePoly d m q →
    m'.getD 0 0 + m'.getD 1 0 = q.eval c
  | [], _, _, _, _, _, _, _, _, _, h, _, _, _ => by simp at h
  | _ :: _, [], _, _, _, _, _, _, _, h, _, _, _, _ => by simp [Accepted] at h
  | a :: ms, b :: cs, claim, out, k, m, m', c, q, h, h1, h2, h3, hq => by
    simp only [Accepted] at h
    obtain ⟨p, hp, _, hrest⟩ := h
    cases k with
    | succ k => exact accepted_round d hd hchar ms cs _ out k m m' c q hrest (by simpa using h1) (by simpa using h2) (by simpa using h3) hq
    | zero =>
      obtain rfl : a = m := by simpa using h1
      obtain rfl : b = c := by simpa using h3
      cases ms with
      | nil => simp at h2
      | cons a' ms =>
        obtain rfl : a' = m' := by simpa using h2
        cases cs with
        | nil => simp [Accepted] at hrest
        | cons b' cs =>
          simp only [Accepted] at hrest
          obtain ⟨p', hp', hsum, _⟩ := hrest
          have e0 := hp'.2.2 0 (by omega)
          have e1 := hp'.2.2 1 (by omega)
          rw [Nat.cast_zero] at e0
          rw [Nat.cast_one] at e1
          rw [← e0, ← e1, hsum, messagePoly_unique hchar hp hq]

/-- C18: a later round that does not add up to the polynomial of the round before, at the challenge drawn after that round, is rejected with an error. -/
theorem C18_wrong_round_error (H : Oracle F C) (claim : F) (pf : IOPProof F) (d n : Nat) (hd : 0 < d) (hchar : NatsNonzero F d) (tr : Transcript F C)
    (hlen : n ≤ pf.proofs.length) (hav : FutureAvoids H tr d) (k : Nat) (m m' : List F) (c : F) (q : Polynomial F) (hk : k + 1 < n)
    (hm : pf.proofs[k]? = some m) (hm' : pf.proofs[k + 1]? = some m') (hq : IsMessagePoly d m q)
    (hc : (roundChals H (pf.proofs.take n) (tr.append "aux info" (.aux d n))).1[k]? = some c) (hs : m'.getD 0 0 + m'.getD 1 0 ≠ q.eval c) :
    ∃ e, sumcheckVerify H claim pf d n tr = .error (.err e) := by
  rcases C18_returns H claim pf d n hd hchar tr hlen hav with ⟨⟨sub, tr'⟩, hr⟩ | h
  · obtain ⟨_, _, _, _, _, hacc⟩ := (sumcheckVerify_iff H claim pf d n hd hchar tr tr' sub).1 hr
    exact absurd (accepted_round d hd hchar _ _ _ _ k m m' c q hacc (by rw [List.getElem?_take, if_pos (by omega), hm])
      (by rw [List.getElem?_take, if_pos hk, hm']) hc hq) hs
  · exact h

/-- Challenge 5 is no node of degree 1; the second round adds up to 3 instead of `q(5) = 6`, where `q = X + 1`. -/
example : (∃ e, sumcheckVerify (fun _ _ => 5 : Oracle (ZMod 7) (ZMod 7)) 3 ⟨[], [[1, 2], [1, 2]]⟩ 1 2 (Transcript.new "t") = .error (.err e)) ∧
    FutureAvoids (fun _ _ => 5 : Oracle (ZMod 7) (ZMod 7)) (Transcript.new "t") 1 := by
  have hav : FutureAvoids (fun _ _ => 5 : Oracle (ZMod 7) (ZMod 7)) (Transcript.new "t") 1 := by
    intro _ _ i hi
    obtain rfl | rfl : i = 0 ∨ i = 1 := by omega
    · show (5 : ZMod 7) ≠ ((0 : Nat) : ZMod 7); decide
    · show (5 : ZMod 7) ≠ ((1 : Nat) : ZMod 7); decide
  refine ⟨C18_wrong_round_error _ _ _ 1 2 (by decide) (PfEx.nats.mono (by omega)) _ (by decide) hav 0 [1, 2] [1, 2] 5 (Polynomial.X + 1)
    (by decide) rfl rfl ?_ rfl ?_, hav⟩
  · refine ⟨Polynomial.natDegree_X_add_C 1 |>.le, rfl, fun i hi => ?_⟩
    obtain rfl | rfl : i = 0 ∨ i = 1 := by omega
    · simp
    · simp; decide
  · simp; decide

end
/-- C90, the reasons: if the sumcheck proof is rejected with an error, of whatever kind, `verify_claims` returns `InvalidVerifier`; if the sumcheck
checks and batch verification of the openings returns an error, `verify_claims` returns that error. -/
theorem C90_reasons {F C B : Type} [Field F] [DecidableEq F] (pcs : Pcs F C B) (H : Oracle F C) (s s1 : VSt F C B) (agg : Nat) (sm : F)
    (ha : VSt.aggregate H s = (.ok (agg, sm), s1)) :
    (∀ k, sumcheckVerify H sm s1.own.proof.scProof s1.own.proof.scMaxDegree s1.own.proof.scNumVars s1.own.transcript = .error (.err k) →
      (VSt.verifyClaims pcs H s).1 = .error (.err .invalidVerifier)) ∧
    ∀ sub tr1 comms bp e, sumcheckVerify H sm s1.own.proof.scProof s1.own.proof.scMaxDegree s1.own.proof.scNumVars s1.own.transcript = .ok (sub, tr1) →
      ((PTracker.sortedIds s1.own.proof.comms).mapM fun id => unwrap (s1.own.matComms.lookup id)) = .ok comms → s1.own.proof.pcsProof[0]? = some bp →
      pcs.batchVerify comms ((PTracker.sortedIds s1.own.proof.comms).map fun _ => sub.point) bp tr1 = .error e →
      (VSt.verifyClaims pcs H s).1 = .error e := by
  rw [verifyClaims_result pcs H ha]
  refine ⟨fun k h => by rw [h], fun sub tr1 comms bp e h1 h2 h3 h4 => ?_⟩
  rw [h1]
  dsimp only
  rw [h2, ok_bind]
  simp only [idx, h3, unwrap_some, ok_bind, h4]
  rfl
/-- A first round with another sum: the sumcheck returns another kind of error than `verify_claims`. -/
example : sumcheckVerify (fun _ _ => 5 : Oracle (ZMod 7) (ZMod 7)) 0 ⟨[], [[1, 1]]⟩ 1 1 (Transcript.new "t") = .error (.err .invalidProof) ∧
    PfEx.after { PfEx.lie with scProof := ⟨[], [[1, 1]]⟩ } = .ok (.error (.err .invalidVerifier)) :=
  ⟨rfl, by decide +kernel⟩

end Zksql
