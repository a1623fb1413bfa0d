import Verif.Lemmas.Accept
import Verif.Lemmas.Forgery
import Verif.Props.Batch
import Verif.Props.Joint
/-!
# Properties C45-C47, C50, C51, C77: compiled proofs

`Spec.Accepts` says that `verify_claims` returns `Ok`; `Spec.FinalCheck` and `Spec.OpeningCheck` are the two checks a verifier has to make after
the sumcheck; `Spec.kzgOf` is the KZG scheme for a trapdoor.
-/
set_option linter.unusedSectionVars false
namespace Zksql
open Spec PTracker
variable {F : Type} [Field F] [DecidableEq F] {E : Curve F} {H : Oracle F E.G1} {g : E.G1} {h : E.G2} {T : List F} {ps : PState F E.G1}

/-! ### A concrete history -/

namespace PfEx

/-- Curve over `ZMod 7`. -/
abbrev E7 : Curve (ZMod 7) := fieldCurve (ZMod 7)

/-- Two committed columns, the claim that their product has a certain sum, and the claim that a difference vanishes. -/
def ops : List (POp (ZMod 7) (ZMod 7)) :=
  [.commit ⟨1, [3, 5]⟩ rfl, .commit ⟨1, [1, 2]⟩ rfl, .mul 0 1, .sumClaim 2 6, .sub 0 0, .zeroClaim 3]

/-- Columns of different sizes. -/
def opsMixed : List (POp (ZMod 7) (ZMod 7)) :=
  [.commit ⟨1, [3, 5]⟩ rfl, .commit ⟨2, [1, 2, 4, 6]⟩ rfl, .sumClaim 1 6]

/-- One committed column. -/
def opsSingle : List (POp (ZMod 7) (ZMod 7)) := [.commit ⟨1, [3, 5]⟩ rfl, .sumClaim 0 1]

/-- The commitment function. -/
def com (T : List (ZMod 7)) : Mle (ZMod 7) → Res (ZMod 7) := kzgCommit (proverParamOf (E := E7) (1 : ZMod 7) (1 : ZMod 7) T)

/-- The scheme. -/
def pcs (T : List (ZMod 7)) : Pcs (ZMod 7) (ZMod 7) (BatchProof E7) := kzgOf (E := E7) exBatchH (1 : ZMod 7) (1 : ZMod 7) T

/-- The prover's state after a history. -/
def state (T : List (ZMod 7)) (ops : List (POp (ZMod 7) (ZMod 7))) : PState (ZMod 7) (ZMod 7) :=
  match runOps (com T) exBatchH PState.init ops with
  | .ok s => s
  | .error _ => PState.init

/-- The compiled proof after a history. -/
def proof (T : List (ZMod 7)) (ops : List (POp (ZMod 7) (ZMod 7))) : Res (CompiledProof (ZMod 7) (ZMod 7) (BatchProof E7)) :=
  (compile true (pcs T) exBatchH (state T ops).tracker).1

/-- The outcome of verification after the matching history. -/
def verdict (T : List (ZMod 7)) (ops : List (POp (ZMod 7) (ZMod 7))) : Res Unit := do
  let p ← proof T ops
  let vs ← runVOps true exBatchH VState.init (.setProof p :: mirrorOps JEx.closed ops)
  (VSt.verifyClaims (pcs T) exBatchH vs.st).1

theorem run_verdict : verdict [3] ops = .ok () := by decide +kernel
theorem run : runOps (com [3]) exBatchH PState.init ops = .ok (state [3] ops) := by decide +kernel

end PfEx

/-! ### C50 -/

/-- C50: the prover runs any history with successful commitments and true zero claims (its sum claims are recomputed), with at least two commitments,
some table with a variable, all tables within the parameters, and claims that are sums of products of at most `d` tables (any `d` with `1, .., d + 1`
non-zero in the field).  Then it compiles a proof; the verifier that loads it and follows the history never fails, stays in step, and accepts,
unless a sumcheck challenge is one of the interpolation nodes (C20). -/
theorem C50_honest_accepted (debug : Bool) {d : Nat} {pub : Mle F → List F → Res F} (ops : List (POp F E.G1)) (hc : CommitsOk (kzgCommit (proverParamOf g h T)) ops)
    (hrun : runOps (kzgCommit (proverParamOf g h T)) H PState.init ops = .ok ps) (hm : Sized ps T.length) (h2 : 2 ≤ ps.tracker.comms.length)
    (hd : 1 ≤ d) (hdeg : ClaimDegree ps d) (hchar : NatsNonzero F (d + 1)) (hz : ZerosTrue ps) :
    ∃ (p : CompiledProof F E.G1 (BatchProof E)) (bp : BatchProof E) (vs : VState F E.G1 (BatchProof E)),
      (compile debug (kzgOf H g h T) H ps.tracker).1 = .ok p ∧ p.pcsProof = [bp] ∧
      runVOps debug H VState.init (.setProof p :: mirrorOps pub ops) = .ok vs ∧ InStep ps vs ∧
      (Avoids p.scProof.point (d + 1) → Avoids bp.sumCheckProof.point 2 → Accepts (kzgOf H g h T) H vs) := by
  obtain ⟨p, bp, h1, h3, h4, vs, h5, h6, h7⟩ := accept_honest (pub := pub) debug ops hc hrun hm h2 hd hdeg hchar hz
  exact ⟨p, bp, vs, h1, h3, h5, h6, fun a b => (h7 (fun c hc i hi => a c hc i (hi.trans h4)) b).1⟩

namespace PfEx

theorem commits (T : List (ZMod 7)) (ops : List (POp (ZMod 7) (ZMod 7))) (hT : ∀ p wf, POp.commit p wf ∈ ops → p.numVars ≤ T.length) : CommitsOk (com T) ops := by
  intro p wf hp
  have h1 := hT p wf hp
  exact ⟨_, kzgCommit_spec (E := E7) (1 : ZMod 7) (1 : ZMod 7) T p wf h1⟩

theorem degree (ops : List (POp (ZMod 7) (ZMod 7))) (T : List (ZMod 7)) (d : Nat)
    (h : ∀ e ∈ (state T ops).tracker.virts, ∀ q ∈ e.2, q.2.length ≤ d) : ClaimDegree (state T ops) d := by
  intro id _ v hv q hq
  have hm : (id, v) ∈ (state T ops).tracker.virts := by
    obtain ⟨l1, l2, e, _⟩ := List.lookup_eq_some_iff.1 hv
    rw [e]; simp
  exact h (id, v) hm q hq

theorem zeros (ops : List (POp (ZMod 7) (ZMod 7))) (T : List (ZMod 7))
    (h : ∀ a ∈ (state T ops).handles, a.id ∈ (state T ops).tracker.zeroClaims → ∀ y ∈ (evalsOf (state T ops) a).toOption.getD [], y = 0) : ZerosTrue (state T ops) := by
  intro a ha hz l hl y hy
  have := h a ha hz y
  rw [hl] at this
  exact this hy

theorem nats : NatsNonzero (ZMod 7) 3 := by
  intro i h1 h2
  have : i = 1 ∨ i = 2 ∨ i = 3 := by omega
  rcases this with rfl | rfl | rfl <;> decide

theorem sized : Sized (state [3] ops) 1 := by
  constructor
  · decide +kernel
  · decide +kernel

/-- The hypotheses of C50 hold of the example history, with products of two tables. -/
theorem honest : CommitsOk (com [3]) ops ∧ runOps (com [3]) exBatchH PState.init ops = .ok (state [3] ops) ∧ Sized (state [3] ops) 1 ∧
    2 ≤ (state [3] ops).tracker.comms.length ∧ ClaimDegree (state [3] ops) 2 ∧ NatsNonzero (ZMod 7) 3 ∧ ZerosTrue (state [3] ops) := by
  refine ⟨commits _ _ ?_, run, sized, by decide +kernel, degree _ _ _ (by decide +kernel), nats, zeros _ _ (by decide +kernel)⟩
  intro p wf hp
  simp only [ops, List.mem_cons, reduceCtorEq, List.not_mem_nil, or_false] at hp
  rcases hp with hp | hp <;> injection hp with hp <;> rw [hp] <;> exact le_refl _

/-- Its challenges are not interpolation nodes, and the proof is accepted. -/
example : (∀ p, proof [3] ops = .ok p → Avoids p.scProof.point 3 ∧ ∀ bp ∈ p.pcsProof, Avoids bp.sumCheckProof.point 2) ∧ verdict [3] ops = .ok () := by
  refine ⟨fun p hp => ?_, run_verdict⟩
  have h : ((proof [3] ops).toOption.map fun p => (p.scProof.point, p.pcsProof.map fun b => b.sumCheckProof.point)) = some ([4], [[4]]) := by decide +kernel
  rw [hp] at h
  simp only [Except.toOption, Option.map_some, Option.some.injEq, Prod.mk.injEq] at h
  have av : ∀ d, d ≤ 3 → Avoids ([4] : List (ZMod 7)) d := by
    intro d hd c hc i hi
    obtain rfl : c = 4 := by simpa using hc
    have : i = 0 ∨ i = 1 ∨ i = 2 ∨ i = 3 := by omega
    rcases this with rfl | rfl | rfl | rfl <;> decide
  refine ⟨by rw [h.1]; exact av 3 (le_refl _), fun bp hb => ?_⟩
  have : bp.sumCheckProof.point ∈ p.pcsProof.map fun b => b.sumCheckProof.point := List.mem_map.2 ⟨bp, hb, rfl⟩
  rw [h.2] at this
  rw [List.mem_singleton.1 this]
  exact av 2 (by decide)

end PfEx

/-! ### C51 -/

/-- C51 in full: every tracker with true claims and at least one commitment compiles. -/
def C51_statement : Prop :=
  ∀ (F : Type) [Field F] [DecidableEq F] (E : Curve F) (H : Oracle F E.G1) (g : E.G1) (h : E.G2) (T : List F) (ps : PState F E.G1) (debug : Bool) (d : Nat),
    Reachable (kzgCommit (proverParamOf g h T)) H ps → Sized ps T.length → 1 ≤ ps.tracker.comms.length → 1 ≤ d → ClaimDegree ps d → NatsNonzero F (d + 1) →
    ZerosTrue ps → SumsTrue ps → ∃ p, (compile debug (kzgOf H g h T) H ps.tracker).1 = .ok p

/-- C51, partial: trackers with at least two commitments compile.  The sum claims need not be true: `compile_proof` replaces their values.
Missing: exactly one commitment (`C51_single_refused`). -/
theorem C51_compiles_partial (debug : Bool) {d : Nat} (hr : Reachable (kzgCommit (proverParamOf g h T)) H ps) (hm : Sized ps T.length)
    (h2 : 2 ≤ ps.tracker.comms.length) (hd : 1 ≤ d) (hdeg : ClaimDegree ps d) (hchar : NatsNonzero F (d + 1)) (hz : ZerosTrue ps) :
    ∃ p, (compile debug (kzgOf H g h T) H ps.tracker).1 = .ok p ∧ p.comms = ps.tracker.comms := by
  obtain ⟨N, te, cs, tr1, r, tr2, ds, tr3, vp, pf, tr4, polys, extra, bp, tr5, hN, hle, hex, c1, c2, c3, heq, hsp, ⟨heap, hvi⟩, hvn, hvd, hvd', hsum,
    hpl, hids, hts, hext, hpn, hps', hcomp, hbl, hbv⟩ := compile_kzg debug hr hm h2 hd hdeg hchar hz
  exact ⟨_, hcomp, rfl⟩

/-- C51 fails for exactly one commitment, whatever it is: `compile_proof` returns `InvalidProver`. -/
theorem C51_single_refused (debug : Bool) {d : Nat} (hr : Reachable (kzgCommit (proverParamOf g h T)) H ps) (hm : Sized ps T.length)
    (h1 : ps.tracker.comms.length = 1) (hd : 1 ≤ d) (hdeg : ClaimDegree ps d) (hchar : NatsNonzero F (d + 1)) (hz : ZerosTrue ps) :
    (compile debug (kzgOf H g h T) H ps.tracker).1 = .error (.err .invalidProver) := by
  have hne : ps.tracker.transcript.isEmpty = false := hr.absorbed (by rintro e; rw [e] at h1; simp at h1)
  obtain ⟨N, te, cs, tr1, r, tr2, ds, tr3, vp, pf, tr4, polys, evals, extra, _, _, _, _, _, _, _, _, _, _, _, _, _, _, _, h4, _, _, _, hpn, _, _, hcomp, _⟩ :=
    compile_run debug (kzgOf H g h T) H hr.inv.inv hm.2 hne (claims_hasNv hr).1 (claims_hasNv hr).2 hd
      (fun id v hs hv => hdeg id hs v hv) hchar fun _ => zerosTrue_gval hr hz
  rw [hcomp]
  rw [length_sortedIds, h1] at hpn
  obtain ⟨q, rfl⟩ : ∃ q, polys = [q] := List.length_eq_one_iff.1 hpn
  have : (kzgOf H g h T).multiOpen [q] ((sortedIds ps.tracker.comms).map fun _ => pf.point) evals tr4 = .error (.err .invalidParameters) :=
    (C31_single_refused H _ (verifierParamOf g h T) q 0 _ _ ⟨⟨[], []⟩, [], []⟩ tr4 h4).1
  rw [this]
  rfl

/-- One committed column with a true sum claim. -/
theorem PfEx.single : runOps (PfEx.com [3]) exBatchH PState.init PfEx.opsSingle = .ok (PfEx.state [3] PfEx.opsSingle) ∧ Sized (PfEx.state [3] PfEx.opsSingle) 1 ∧
    (PfEx.state [3] PfEx.opsSingle).tracker.comms.length = 1 ∧ ClaimDegree (PfEx.state [3] PfEx.opsSingle) 2 ∧ ZerosTrue (PfEx.state [3] PfEx.opsSingle) ∧
    SumsTrue (PfEx.state [3] PfEx.opsSingle) := by
  refine ⟨by decide +kernel, ⟨by decide +kernel, by decide +kernel⟩, by decide +kernel, PfEx.degree _ _ _ (by decide +kernel), PfEx.zeros _ _ (by decide +kernel), ?_⟩
  have key : (PfEx.state [3] PfEx.opsSingle).handles = [⟨0, 1⟩] ∧ (PfEx.state [3] PfEx.opsSingle).tracker.sumClaims = [(0, 1)] ∧
      evalsOf (PfEx.state [3] PfEx.opsSingle) ⟨0, 1⟩ = .ok [3, 5] := by decide +kernel
  intro a ha v hv l hl
  rw [key.1] at ha
  rw [key.2.1] at hv
  obtain rfl : a = _ := by simpa using ha
  obtain rfl : v = 1 := by simpa using hv
  rw [key.2.2] at hl
  injection hl with hl
  subst hl
  decide

/-- C51 is false. -/
theorem C51_violated : ¬ C51_statement := by
  intro hall
  obtain ⟨h1, h2, h3, h4, h5, h6⟩ := PfEx.single
  obtain ⟨p, hp⟩ := hall (ZMod 7) PfEx.E7 exBatchH (1 : ZMod 7) (1 : ZMod 7) [3] _ true 2 ⟨PfEx.opsSingle, h1⟩ h2 (by rw [h3]) (by decide) h4 PfEx.nats h5 h6
  have := C51_single_refused (E := PfEx.E7) (g := (1 : ZMod 7)) (h := (1 : ZMod 7)) (T := [3]) true ⟨PfEx.opsSingle, h1⟩ h2 h3 (by decide) h4 PfEx.nats h5
  rw [hp] at this
  simp at this

theorem compile_of_aggregate {F C B : Type} [Field F] [DecidableEq F] {debug : Bool} {pcs : Pcs F C B} {H : Oracle F C} {t : PTracker F C}
    (h : ∃ t', (equalize >>= fun nv => convertZero H nv) t = (.error .panic, t')) : (compile debug pcs H t).1 = .error .panic := by
  obtain ⟨t', h⟩ := h
  have h1 : aggregate H t = (.error .panic, t') := by
    unfold aggregate
    rw [Act.bind_run] at h ⊢
    rcases he : equalize t with ⟨r | nv, t1⟩
    · rw [he] at h; simpa using h
    · rw [he] at h; exact Act.bind_error h
  unfold compile
  rw [Act.bind_error h1]

/-- C51: a prover that has nothing to prove panics in `compile_proof` instead of returning an error: when its transcript is empty (nothing was committed or
appended), and when all its columns have a single entry. -/
theorem C51_nothing_panics {F C B : Type} [Field F] [DecidableEq F] {commit : Mle F → Res C} {H : Oracle F C} {ps : PState F C} (debug : Bool) (pcs : Pcs F C B)
    (hr : Reachable commit H ps) (h0 : ps.tracker.transcript.isEmpty = true ∨ ∀ e ∈ ps.tracker.mats, e.2.mle.numVars = 0) :
    (compile debug pcs H ps.tracker).1 = .error .panic := by
  refine compile_of_aggregate ?_
  rcases hm : ps.tracker.mats with _ | ⟨e0, ms⟩
  · refine ⟨ps.tracker, Act.bind_error ?_⟩
    unfold equalize
    rw [Act.bind_error]
    rw [Act.reads_run]
    unfold maxMatNv
    rw [hm]
  · have hI := hr.inv.inv
    obtain ⟨N, t1, te, hle, hex, hE, hI1, heq, hIe, hpe, hcnt, htr, hcm, hzc, hsc, _⟩ := equalize_run hI (by rw [hm]; simp) (claims_hasNv hr).1
    rw [Act.bind_ok heq]
    have hze : ∀ c ∈ te.zeroClaims, te.HasNv c N := fun c h => by
      obtain ⟨nv, hnv⟩ := (claims_hasNv hr).2 c (hzc ▸ h)
      exact hpe.nv _ _ (hE.hasNv hnv).2
    unfold convertZero
    rw [Act.bind_ok (a := constMle N 0) (s' := te) (by simp [zeroMle_ok]), Act.bind_ok (trackMat_run _ te), Act.reads_bind, show (te.pushMat (constMle N 0)).zeroClaims = te.zeroClaims from rfl]
    rcases hemp : te.transcript.isEmpty with _ | _
    · have hN : N = 0 := by
        rcases h0 with h0 | h0
        · rw [← htr, hemp] at h0; simp at h0
        · obtain ⟨e, he, rfl⟩ := hex
          exact h0 e he
      subst hN
      obtain ⟨cs, tr1, agg, t2, f1, f2, f3, f4, f5, f6, f7, f8, f9, f10, f11, f12, f13⟩ := foldZeroClaims_run (t := te.pushMat (constMle 0 0)) H
        te.zeroClaims (inv_pushMat hIe _ (constMle_wf 0 (0 : F))) hemp (fun c h => (hze c h).keep hIe (keep_pushMat hIe _)) (hasNv_pushMat te _)
      rw [Act.bind_ok f4]
      obtain ⟨r, tr2, g1, g2, g3⟩ := challenges_ok H "0check r" 0 tr1 f3
      obtain rfl : r = [] := List.length_eq_zero_iff.1 g2
      rw [Act.bind_ok (a := []) (s' := { t2 with transcript := tr2 }) (by simp only [challengesU, f8, g1])]
      exact ⟨_, Act.bind_error rfl⟩
    · rcases hzl : te.zeroClaims with _ | ⟨c, cl⟩
      · refine ⟨te.pushMat (constMle N 0), ?_⟩
        rw [Act.bind_ok (m := foldZeroClaims H [] te.idCounter) (a := te.idCounter) (s' := te.pushMat (constMle N 0)) rfl]
        refine Act.bind_error ?_
        have : (te.pushMat (constMle N 0)).transcript.isEmpty = true := hemp
        simp only [challengesU, Transcript.challenges, this, if_true]
      · refine ⟨te.pushMat (constMle N 0), Act.bind_error ?_⟩
        have : (te.pushMat (constMle N 0)).transcript.isEmpty = true := hemp
        unfold foldZeroClaims
        refine Act.bind_error ?_
        simp only [challengeU, Act.expect, challenge, Transcript.challenge, this, if_true]

/-- The hypotheses are met by a prover with one committed column of a single entry and a claim about it. -/
example : let ops : List (POp (ZMod 7) (ZMod 7)) := [.commit ⟨0, [3]⟩ rfl, .sumClaim 0 3]
    runOps (PfEx.com [3]) exBatchH PState.init ops = .ok (PfEx.state [3] ops) ∧ (PfEx.state [3] ops).tracker.comms.length = 1 ∧
      (∀ e ∈ (PfEx.state [3] ops).tracker.mats, e.2.mle.numVars = 0) ∧ (PfEx.state [3] ops).tracker.transcript.isEmpty = false := by
  decide +kernel

/-! ### C47 -/

/-- C47 in full: for every committed identifier, the compiled query map holds the evaluation at the sumcheck point of the polynomial under that
identifier (in the tracker after compiling). -/
def C47_statement : Prop :=
  ∀ (F C B : Type) [Field F] [DecidableEq F] (commit : Mle F → Res C) (H : Oracle F C) (pcs : Pcs F C B) (debug : Bool) (ps : PState F C)
    (p : CompiledProof F C B) (t' : PTracker F C), Reachable commit H ps → compile debug pcs H ps.tracker = (.ok p, t') →
    ∀ id c, t'.comms.lookup id = some c → ∀ y, t'.evaluate id p.scProof.point = .ok (some y) → p.queryMap.lookup (id, p.scProof.point) = some y

theorem compile_queries {F C B : Type} [Field F] [DecidableEq F] {H : Oracle F C} {pcs : Pcs F C B} {debug : Bool} {t t' : PTracker F C} {p : CompiledProof F C B}
    (h : compile debug pcs H t = (.ok p, t')) : p.comms = t'.comms ∧ p.queryMap = (sortedIds t'.comms).map fun id => ((id, p.scProof.point), 0) := by
  unfold compile at h
  obtain ⟨agg, s1, _, h⟩ := Act.bind_eq_ok.1 h
  obtain ⟨_, s2, _, h⟩ := Act.bind_eq_ok.1 h
  obtain ⟨vp, s3, _, h⟩ := Act.bind_eq_ok.1 h
  obtain ⟨pf, s4, h4, h⟩ := Act.bind_eq_ok.1 h
  obtain ⟨ids, s5, h5, h⟩ := Act.bind_eq_ok.1 h
  obtain ⟨e5, rfl⟩ := Prod.mk.inj h5
  obtain rfl := Except.ok.inj e5
  obtain ⟨polys, s6, h6, h⟩ := Act.bind_eq_ok.1 h
  obtain ⟨-, rfl⟩ := Prod.mk.inj h6
  obtain ⟨evals, s7, h7, h⟩ := Act.bind_eq_ok.1 h
  obtain ⟨-, rfl⟩ := Prod.mk.inj h7
  obtain ⟨bp, s8, h8, h⟩ := Act.bind_eq_ok.1 h
  obtain ⟨e, rfl⟩ := Prod.mk.inj h
  obtain rfl := Except.ok.inj e
  have hcm : s8.comms = s4.comms := by
    unfold openBatch at h8
    rcases hmo : pcs.multiOpen polys ((sortedIds s4.comms).map fun _ => pf.point) evals s4.transcript with (e | _) | ⟨b, tr⟩ <;> rw [hmo] at h8
    · simp at h8
    · simp at h8
    · obtain ⟨-, rfl⟩ := Prod.mk.inj h8
      rfl
  exact ⟨rfl, by rw [hcm]⟩

/-- C47, partial: the compiled query map has exactly the committed identifiers at the sumcheck point as keys, but every value is 0; so it is right
exactly when the evaluation is 0.  Missing: the evaluations (`C47_violated`). -/
theorem C47_keys_partial {F C B : Type} [Field F] [DecidableEq F] {H : Oracle F C} {pcs : Pcs F C B} {debug : Bool} {t t' : PTracker F C} {p : CompiledProof F C B}
    (h : compile debug pcs H t = (.ok p, t')) :
    (∀ id x, (id, x) ∈ p.queryMap.map (·.1) ↔ x = p.scProof.point ∧ ∃ c, t'.comms.lookup id = some c) ∧ (∀ e ∈ p.queryMap, e.2 = 0) := by
  obtain ⟨_, hq⟩ := compile_queries h
  rw [hq]
  constructor
  · intro id x
    simp only [List.map_map, List.mem_map, Function.comp_def, Prod.mk.injEq]
    constructor
    · rintro ⟨i, hi, rfl, rfl⟩
      exact ⟨rfl, lookup_of_mem_keys _ _ ((mem_sortedIds _ _).1 hi)⟩
    · rintro ⟨rfl, c, hc⟩
      refine ⟨id, (mem_sortedIds _ _).2 ?_, rfl, rfl⟩
      obtain ⟨l1, l2, e, _⟩ := List.lookup_eq_some_iff.1 hc
      rw [e]; simp
  · intro e he
    obtain ⟨i, _, rfl⟩ := List.mem_map.1 he
    rfl

theorem act_view {S α : Type} {m : Act S α} {s : S} (P : α → S → Bool) (h : (match m s with
    | (.ok a, s') => P a s'
    | _ => false) = true) : ∃ a s', m s = (.ok a, s') ∧ P a s' = true := by
  rcases hm : m s with ⟨e | a, s'⟩
  · rw [hm] at h; simp at h
  · rw [hm] at h; exact ⟨a, s', rfl, h⟩

/-- The example compiles, its map has the two committed identifiers, and the first committed column evaluates to 4 at the sumcheck point. -/
theorem PfEx.queries : ∃ p t', compile true (PfEx.pcs [3]) exBatchH (PfEx.state [3] PfEx.ops).tracker = (.ok p, t') ∧ p.queryMap = [((0, [4]), 0), ((1, [4]), 0)] ∧
    p.scProof.point = [4] ∧ t'.evaluate 0 [4] = .ok (some 4) ∧ t'.comms.lookup 0 = some 2 := by
  obtain ⟨p, t', h1, h2⟩ := act_view (m := compile true (PfEx.pcs [3]) exBatchH) (s := (PfEx.state [3] PfEx.ops).tracker)
    (fun p t' => decide (p.queryMap = [((0, [4]), 0), ((1, [4]), 0)] ∧ p.scProof.point = [4] ∧ t'.evaluate 0 [4] = .ok (some 4) ∧ t'.comms.lookup 0 = some 2))
    (by decide +kernel)
  exact ⟨p, t', h1, of_decide_eq_true h2⟩

/-- C47 is false. -/
theorem C47_violated : ¬ C47_statement := by
  intro hall
  obtain ⟨p, t', h1, h2, h3, h4, h5⟩ := PfEx.queries
  have := hall (ZMod 7) (ZMod 7) (BatchProof PfEx.E7) (PfEx.com [3]) exBatchH (PfEx.pcs [3]) true _ p t' ⟨PfEx.ops, PfEx.run⟩ h1 0 2 h5 4 (by rw [h3]; exact h4)
  rw [h2, h3] at this
  exact absurd this (by decide)

/-! ### C77 -/

/-- C77 in full: the opening proof inside an honest compiled proof verifies. -/
def C77_statement : Prop :=
  ∀ (F : Type) [Field F] [DecidableEq F] (E : Curve F) (H : Oracle F E.G1) (g : E.G1) (h : E.G2) (T : List F) (ps : PState F E.G1) (debug : Bool) (d : Nat)
    (pub : Mle F → List F → Res F) (ops : List (POp F E.G1)) (p : CompiledProof F E.G1 (BatchProof E)) (bp : BatchProof E) (vs : VState F E.G1 (BatchProof E)),
    CommitsOk (kzgCommit (proverParamOf g h T)) ops → runOps (kzgCommit (proverParamOf g h T)) H PState.init ops = .ok ps → Sized ps T.length →
    2 ≤ ps.tracker.comms.length → 1 ≤ d → ClaimDegree ps d → NatsNonzero F (d + 1) → ZerosTrue ps →
    (compile debug (kzgOf H g h T) H ps.tracker).1 = .ok p → p.pcsProof = [bp] → runVOps debug H VState.init (.setProof p :: mirrorOps pub ops) = .ok vs →
    Avoids p.scProof.point (d + 1) → Avoids bp.sumCheckProof.point 2 → OpeningCheck (kzgOf H g h T) H vs

/-- C77, partial: it verifies when every committed table is as large as any table of the tracker.  Missing: commitments of smaller tables, which
`compile_proof` opens as if they were commitments to the padded tables (`C77_violated`). -/
theorem C77_opening_partial (debug : Bool) {d : Nat} {pub : Mle F → List F → Res F} (ops : List (POp F E.G1)) (hc : CommitsOk (kzgCommit (proverParamOf g h T)) ops)
    (hrun : runOps (kzgCommit (proverParamOf g h T)) H PState.init ops = .ok ps) (hm : Sized ps T.length) (h2 : 2 ≤ ps.tracker.comms.length)
    (hd : 1 ≤ d) (hdeg : ClaimDegree ps d) (hchar : NatsNonzero F (d + 1)) (hz : ZerosTrue ps) (hsame : SameSizes ps)
    {p : CompiledProof F E.G1 (BatchProof E)} {bp : BatchProof E} {vs : VState F E.G1 (BatchProof E)}
    (hp : (compile debug (kzgOf H g h T) H ps.tracker).1 = .ok p) (hb : p.pcsProof = [bp])
    (hv : runVOps debug H VState.init (.setProof p :: mirrorOps pub ops) = .ok vs) (a1 : Avoids p.scProof.point (d + 1)) (a2 : Avoids bp.sumCheckProof.point 2) :
    OpeningCheck (kzgOf H g h T) H vs := by
  obtain ⟨p', bp', h1, h3, h4, vs', h5, h6, h7⟩ := accept_honest (pub := pub) debug ops hc hrun hm h2 hd hdeg hchar hz
  obtain rfl := Except.ok.inj (hp.symm.trans h1)
  obtain rfl : bp = bp' := by
    rw [hb] at h3
    injection h3
  obtain rfl := Except.ok.inj (hv.symm.trans h5)
  exact (h7 (fun c hc i hi => a1 c hc i (hi.trans h4)) a2).2 hsame

/-- What the opening check of `verify_claims` computes (for examples). -/
def openingBit {F C B : Type} [Field F] [DecidableEq F] (pcs : Pcs F C B) (H : Oracle F C) (vs : VState F C B) : Option Bool :=
  match VSt.aggregate H vs.st with
  | (.ok (_, sm), s1) =>
    match sumcheckVerify H sm vs.st.own.proof.scProof vs.st.own.proof.scMaxDegree vs.st.own.proof.scNumVars s1.own.transcript with
    | .ok (sub, tr1) =>
      match (PTracker.sortedIds vs.st.own.proof.comms).mapM fun id => unwrap (vs.st.own.matComms.lookup id) with
      | .ok comms =>
        match vs.st.own.proof.pcsProof[0]? with
        | some bp =>
          match pcs.batchVerify comms ((PTracker.sortedIds vs.st.own.proof.comms).map fun _ => sub.point) bp tr1 with
          | .ok (b, _) => some b
          | .error _ => none
        | none => none
      | .error _ => none
    | .error _ => none
  | _ => none

theorem openingBit_false {F C B : Type} [Field F] [DecidableEq F] {pcs : Pcs F C B} {H : Oracle F C} {vs : VState F C B} (h : openingBit pcs H vs = some false) :
    ¬ OpeningCheck pcs H vs := by
  intro ho
  unfold openingBit at h
  rcases h1 : VSt.aggregate H vs.st with ⟨e | ⟨agg, sm⟩, s1⟩
  · rw [h1] at h; simp at h
  rw [h1] at h
  simp only at h
  rcases h2 : sumcheckVerify H sm vs.st.own.proof.scProof vs.st.own.proof.scMaxDegree vs.st.own.proof.scNumVars s1.own.transcript with e | ⟨sub, tr1⟩
  · rw [h2] at h; simp at h
  rw [h2] at h
  simp only at h
  obtain ⟨comms, bp, tr2, a1, a2, a3⟩ := ho agg sm s1 sub tr1 h1 h2
  rw [a1] at h
  simp only at h
  rw [a2] at h
  simp only at h
  rw [a3] at h
  simp at h

/-- The opening check on the proof of a history. -/
def PfEx.opening (T : List (ZMod 7)) (ops : List (POp (ZMod 7) (ZMod 7))) : Res (Option Bool × List (ZMod 7) × List (List (ZMod 7))) := do
  let p ← PfEx.proof T ops
  let vs ← runVOps true exBatchH VState.init (.setProof p :: mirrorOps JEx.closed ops)
  .ok (openingBit (PfEx.pcs T) exBatchH vs, p.scProof.point, p.pcsProof.map fun b => b.sumCheckProof.point)

/-- The proof of the equal-sized example opens correctly, and its sizes are equal. -/
example : (PfEx.opening [3] PfEx.ops).toOption.map (·.1) = some (some true) ∧ SameSizes (PfEx.state [3] PfEx.ops) := by
  refine ⟨by decide +kernel, fun id c a _ ha e he => ?_⟩
  have key : ∀ e ∈ (PfEx.state [3] PfEx.ops).tracker.mats, e.2.mle.numVars = 1 := by decide +kernel
  obtain ⟨l1, l2, e', _⟩ := List.lookup_eq_some_iff.1 ha
  have := key (id, a) (by rw [e']; simp)
  rw [key e he, this]

theorem PfEx.mixed : PfEx.opening [3, 5] PfEx.opsMixed = .ok (some false, [4, 5], [[5, 4]]) := by decide +kernel

/-- C77 is false: a two-row column next to a four-row one. -/
theorem C77_violated : ¬ C77_statement := by
  intro hall
  have hx := PfEx.mixed
  unfold PfEx.opening at hx
  rcases hp : PfEx.proof [3, 5] PfEx.opsMixed with e | p
  · rw [hp] at hx; simp at hx
  rw [hp, ok_bind] at hx
  rcases hv : runVOps true exBatchH VState.init (.setProof p :: mirrorOps JEx.closed PfEx.opsMixed) with e | vs
  · rw [hv] at hx; simp at hx
  rw [hv, ok_bind] at hx
  have hx := Except.ok.inj hx
  obtain ⟨hx1, hx2, hx3⟩ : openingBit (PfEx.pcs [3, 5]) exBatchH vs = some false ∧ p.scProof.point = [4, 5] ∧ (p.pcsProof.map fun b => b.sumCheckProof.point) = [[5, 4]] :=
    ⟨congrArg (·.1) hx, congrArg (·.2.1) hx, congrArg (·.2.2) hx⟩
  obtain ⟨bp, hb⟩ : ∃ bp, p.pcsProof = [bp] := List.length_eq_one_iff.1 (by simpa using congrArg List.length hx3)
  have av : ∀ l : List (ZMod 7), (∀ c ∈ l, c = 5 ∨ c = 4) → ∀ d, d ≤ 3 → Avoids l d := by
    intro l hl d hd c hc i hi
    have hi' : i = 0 ∨ i = 1 ∨ i = 2 ∨ i = 3 := by omega
    have hc' := hl c hc
    rcases hc' with rfl | rfl <;> rcases hi' with rfl | rfl | rfl | rfl <;> decide
  refine openingBit_false hx1 ?_
  refine hall (ZMod 7) PfEx.E7 exBatchH (1 : ZMod 7) (1 : ZMod 7) [3, 5] (PfEx.state [3, 5] PfEx.opsMixed) true 2 JEx.closed PfEx.opsMixed p bp vs
    (PfEx.commits _ _ ?_) (by decide +kernel) ⟨by decide +kernel, by decide +kernel⟩ (by decide +kernel) (by decide) (PfEx.degree _ _ _ (by decide +kernel)) PfEx.nats
    (PfEx.zeros _ _ (by decide +kernel)) hp hb hv (by rw [hx2]; exact av _ (by decide) 3 (le_refl _)) ?_
  · intro p wf hp
    simp only [PfEx.opsMixed, List.mem_cons, reduceCtorEq, List.not_mem_nil, or_false] at hp
    rcases hp with hp | hp <;> injection hp with hp <;> rw [hp] <;> show _ ≤ 2 <;> decide
  · rw [hb] at hx3
    have : bp.sumCheckProof.point = [5, 4] := by simpa using hx3
    rw [this]
    exact av _ (by decide) 2 (by decide)

/-! ### C46 -/

/-- C46 in full: `verify_claims` accepts only if the opening proof verifies. -/
def C46_statement : Prop :=
  ∀ (F C B : Type) [Field F] [DecidableEq F] (pcs : Pcs F C B) (H : Oracle F C) (debug : Bool) (vs : VState F C B), VReachable debug H vs →
    Accepts pcs H vs → OpeningCheck pcs H vs

/-- C46, partial: `verify_claims` accepts exactly when the claims can be aggregated, the sumcheck proof checks, the commitments of the proof were
transferred, and the opening check returns without an error: its verdict is not looked at.  Missing: rejecting the verdict `false` (`C46_violated`). -/
theorem C46_error_partial {F C B : Type} [Field F] [DecidableEq F] (pcs : Pcs F C B) (H : Oracle F C) {vs : VState F C B} {agg : Nat} {sm : F} {s1 : VSt F C B}
    {sub : SubClaim F} {tr1 : Transcript F C} {comms : List C} {bp : B} (h1 : VSt.aggregate H vs.st = (.ok (agg, sm), s1))
    (h2 : sumcheckVerify H sm s1.own.proof.scProof s1.own.proof.scMaxDegree s1.own.proof.scNumVars s1.own.transcript = .ok (sub, tr1))
    (h3 : ((sortedIds s1.own.proof.comms).mapM fun id => unwrap (s1.own.matComms.lookup id)) = .ok comms) (h4 : s1.own.proof.pcsProof[0]? = some bp) :
    Accepts pcs H vs ↔ ∃ b tr2, pcs.batchVerify comms ((sortedIds s1.own.proof.comms).map fun _ => sub.point) bp tr1 = .ok (b, tr2) := by
  have key : Accepts pcs H vs ↔ ∃ s', VSt.verifyClaims pcs H vs.st = (.ok (), s') := by
    unfold Accepts
    constructor
    · intro h; exact ⟨_, Prod.ext h rfl⟩
    · rintro ⟨s', h⟩; rw [h]
  rw [key, verifyClaims_iff pcs H h1]
  constructor
  · rintro ⟨sub', tr1', comms', bp', b, tr2, a1, a2, a3, a4⟩
    obtain ⟨rfl, rfl⟩ := Prod.mk.inj (Except.ok.inj (h2.symm.trans a1))
    obtain rfl := Except.ok.inj (h3.symm.trans a2)
    obtain rfl := Option.some.inj (h4.symm.trans a3)
    exact ⟨b, tr2, a4⟩
  · rintro ⟨b, tr2, a4⟩
    exact ⟨sub, tr1, comms, bp, b, tr2, h2, h3, h4, a4⟩

/-- C46 is false: the proof of the mixed-size history is accepted although its opening proof fails. -/
theorem C46_violated : ¬ C46_statement := by
  intro hall
  have hx := PfEx.mixed
  have hy : PfEx.verdict [3, 5] PfEx.opsMixed = .ok () := by decide +kernel
  unfold PfEx.opening at hx
  unfold PfEx.verdict at hy
  rcases hp : PfEx.proof [3, 5] PfEx.opsMixed with e | p
  · rw [hp] at hx; simp at hx
  rw [hp, ok_bind] at hx hy
  rcases hv : runVOps true exBatchH VState.init (.setProof p :: mirrorOps JEx.closed PfEx.opsMixed) with e | vs
  · rw [hv] at hx; simp at hx
  rw [hv, ok_bind] at hx hy
  exact openingBit_false (congrArg (·.1) (Except.ok.inj hx)) (hall (ZMod 7) (ZMod 7) (BatchProof PfEx.E7) (PfEx.pcs [3, 5]) exBatchH true vs ⟨_, hv⟩ hy)

/-! ### C45 -/

/-- C45 in full: `verify_claims` accepts only if the value left by the sumcheck is the evaluation of the aggregated polynomial. -/
def C45_statement : Prop :=
  ∀ (F C B : Type) [Field F] [DecidableEq F] (pcs : Pcs F C B) (H : Oracle F C) (debug : Bool) (vs : VState F C B), VReachable debug H vs →
    Accepts pcs H vs → FinalCheck H vs

/-- C45, partial: an accepted proof contains a sumcheck proof that checks against the folded sum of the claims.  Missing: the value it leaves is never
compared with anything (`C45_forgery`, `C45_violated`). -/
theorem C45_sumcheck_partial {F C B : Type} [Field F] [DecidableEq F] (pcs : Pcs F C B) (H : Oracle F C) {vs : VState F C B} (ha : Accepts pcs H vs) :
    ∃ agg sm s1 sub tr1, VSt.aggregate H vs.st = (.ok (agg, sm), s1) ∧
      sumcheckVerify H sm s1.own.proof.scProof s1.own.proof.scMaxDegree s1.own.proof.scNumVars s1.own.transcript = .ok (sub, tr1) := by
  rcases h1 : VSt.aggregate H vs.st with ⟨e | ⟨agg, sm⟩, s1⟩
  · unfold Accepts VSt.verifyClaims at ha
    rw [Act.bind_error h1] at ha
    simp at ha
  · obtain ⟨sub, tr1, _, _, _, _, h2, _⟩ := (verifyClaims_iff pcs H h1).1 ⟨_, Prod.ext ha rfl⟩
    exact ⟨agg, sm, s1, sub, tr1, rfl, h2⟩

/-- What the final check would compute (for examples). -/
def finalBit {F C B : Type} [Field F] [DecidableEq F] (H : Oracle F C) (vs : VState F C B) : Option Bool :=
  match VSt.aggregate H vs.st with
  | (.ok (agg, sm), s1) =>
    match sumcheckVerify H sm vs.st.own.proof.scProof vs.st.own.proof.scMaxDegree vs.st.own.proof.scNumVars s1.own.transcript with
    | .ok (sub, _) => some (decide (VSt.evalVirtual s1.sh agg sub.point = .ok sub.expectedEvaluation))
    | .error _ => none
  | _ => none

theorem finalBit_false {F C B : Type} [Field F] [DecidableEq F] {H : Oracle F C} {vs : VState F C B} (h : finalBit H vs = some false) : ¬ FinalCheck H vs := by
  intro ho
  unfold finalBit at h
  rcases h1 : VSt.aggregate H vs.st with ⟨e | ⟨agg, sm⟩, s1⟩
  · rw [h1] at h; simp at h
  rw [h1] at h
  simp only at h
  rcases h2 : sumcheckVerify H sm vs.st.own.proof.scProof vs.st.own.proof.scMaxDegree vs.st.own.proof.scNumVars s1.own.transcript with e | ⟨sub, tr1⟩
  · rw [h2] at h; simp at h
  rw [h2] at h
  simp [ho agg sm s1 sub tr1 h1 h2] at h

/-- C45, how it fails: whatever a verifier does after loading a proof (any operations on any handles, any claims, true or false), there is a proof with the
same commitments, claimed sums and evaluations with which it does the same and accepts; even the opening proof verifies.  Needed: at least two
commitments, all transferred, and challenges after the history that are none of 0, 1, 2 and 1/2. -/
theorem C45_forgery (debug : Bool) (H : Oracle F E.G1) (pp : ProverParam E) (vp : VerifierParam E) (hvp : 1 ≤ vp.numVars) (hmask : vp.hMask.length = vp.numVars)
    (hchar : NatsNonzero F 2) (p : CompiledProof F E.G1 (BatchProof E)) (ops : List (VOp F E.G1 (BatchProof E))) (hops : ∀ q, VOp.setProof q ∉ ops)
    (vs : VState F E.G1 (BatchProof E)) (hrun : runVOps debug H VState.init (.setProof p :: ops) = .ok vs) (h2 : 2 ≤ p.comms.length)
    (hcov : ∀ id ∈ p.comms.map (·.1), id ∈ vs.st.own.matComms.map (·.1)) (hne : vs.st.own.transcript.isEmpty = false)
    (hgood : ∀ evs, vs.st.own.transcript.events.length < evs.length →
      H vs.st.own.transcript.label evs ≠ 0 ∧ H vs.st.own.transcript.label evs ≠ 1 ∧ H vs.st.own.transcript.label evs ≠ 2 ∧
        2 * H vs.st.own.transcript.label evs ≠ 1) :
    ∃ p', p'.comms = p.comms ∧ p'.sumcheckClaims = p.sumcheckClaims ∧ p'.queryMap = p.queryMap ∧
      ∃ vs', runVOps debug H VState.init (.setProof p' :: ops) = .ok vs' ∧ vs'.handles = vs.handles ∧ vs'.st.own.zeroClaims = vs.st.own.zeroClaims ∧
        vs'.st.own.sumClaims = vs.st.own.sumClaims ∧ vs'.st.sh = vs.st.sh ∧ Accepts (kzgPcs H pp vp) H vs' ∧ OpeningCheck (kzgPcs H pp vp) H vs' := by
  have hinv : VInv vs := (runVOps_stepOk vinv_init _ hrun).inv
  -- the challenges drawn while folding
  obtain ⟨cs, tr1, c1, _, c1e⟩ := challengeLoop_ok H "zerocheck challenge" vs.st.own.zeroClaims.length vs.st.own.transcript hne
  obtain ⟨r, tr2, c2, _, c2e⟩ := challenges_ok H "0check r" 1 tr1 c1e
  obtain ⟨ds, tr3, c3, _, c3e⟩ := challengeLoop_ok H "sumcheck challenge" (vs.st.own.sumClaims.length + 1) tr2 c2e
  have hl3 : tr3.label = vs.st.own.transcript.label ∧ vs.st.own.transcript.events.length ≤ tr3.events.length := by
    obtain ⟨a1, a2⟩ := challengeLoop_from _ _ _ _ _ _ c1
    obtain ⟨b1, b2⟩ := challenges_from _ _ _ _ _ _ c2
    obtain ⟨d1, d2⟩ := challengeLoop_from _ _ _ _ _ _ c3
    exact ⟨d1.trans (b1.trans a1), a2.trans (b2.trans d2)⟩
  set S := foldedSum ds (vs.st.own.sumClaims.map (·.2)) with hS
  -- the sumcheck
  set pf : IOPProof F := ⟨[], [[S, 0]]⟩ with hpf
  set trA := tr3.append "aux info" (.aux 1 1) with htrA
  set rc := roundChals H [[S, 0]] trA with hrc
  obtain ⟨f1, f2, f3⟩ := roundChals_from H [[S, 0]] trA
  have hA : trA.label = vs.st.own.transcript.label ∧ vs.st.own.transcript.events.length ≤ trA.events.length := by
    refine ⟨hl3.1, hl3.2.trans ?_⟩
    simp [htrA, Transcript.append]
  have hrc1 : ∃ c, rc.1 = [c] := ⟨_, rfl⟩
  obtain ⟨c, hc⟩ := hrc1
  have hcgood : c ≠ 0 ∧ c ≠ 1 ∧ c ≠ 2 ∧ 2 * c ≠ 1 := by
    obtain ⟨evs, e1, e2⟩ := f1 c (by rw [← hrc, hc]; simp)
    rw [hA.1] at e2
    rw [e2]
    exact hgood evs (lt_of_le_of_lt hA.2 e1)
  have hsv : sumcheckVerify H S pf 1 1 tr3 = .ok (⟨[c], S * (1 - c)⟩, rc.2) := by
    rw [sumcheckVerify_iff H S pf 1 1 (by decide) (fun i h1 h3 => hchar i h1 (by omega))]
    refine ⟨by decide, by simp [hpf], ?_⟩
    show [c] = rc.1 ∧ rc.2 = rc.2 ∧ (∀ x ∈ rc.1, ∀ i : Nat, i ≤ 1 → x ≠ (i : F)) ∧ Accepted 1 S [[S, 0]] rc.1 (S * (1 - c))
    refine ⟨hc.symm, rfl, ?_, ?_⟩
    · rw [hc]
      intro x hx i hi
      obtain rfl : x = c := by simpa using hx
      have : i = 0 ∨ i = 1 := by omega
      rcases this with rfl | rfl
      · simpa using hcgood.1
      · simpa using hcgood.2.1
    · rw [hc]
      refine ⟨Polynomial.C S * (1 - Polynomial.X), ⟨?_, rfl, ?_⟩, ?_, ?_⟩
      · refine (Polynomial.natDegree_C_mul_le _ _).trans ((Polynomial.natDegree_sub_le _ _).trans ?_)
        simp
      · intro i hi
        have : i = 0 ∨ i = 1 := by omega
        rcases this with rfl | rfl <;> simp
      · simp
      · show S * (1 - c) = _
        simp
  -- the opening
  obtain ⟨comms, m1, m2⟩ := mapM_lookup vs.st.own.matComms (sortedIds p.comms) fun id hid => hcov id ((mem_sortedIds _ _).1 hid)
  rw [length_sortedIds] at m2
  have h4e : rc.2.isEmpty = false := roundChals_notEmpty H _ _ rfl
  obtain ⟨bp, _, _, t, trB, ht, hbv⟩ := C32_forgery H vp comms (by omega) [c] hvp hmask 0 (by simp) (by simpa using hcgood.2.2.2) hchar rc.2 h4e
  obtain ⟨tr5, hb⟩ := hbv (by
    intro x hx i hi
    obtain ⟨g1, _, _⟩ := roundChals_from H bp.sumCheckProof.proofs (trB.append "aux info" (.aux 2 1))
    obtain ⟨evs, e1, e2⟩ := g1 x hx
    obtain ⟨t1, t2⟩ := challenges_from _ _ _ _ _ _ ht
    have el : (trB.append "aux info" (TItem.aux 2 1)).label = vs.st.own.transcript.label := t1.trans (f2.trans hA.1)
    rw [el] at e2
    have e1' : vs.st.own.transcript.events.length < evs.length := by
      have : trB.events.length ≤ (trB.append "aux info" (TItem.aux 2 1)).events.length := by simp [Transcript.append]
      have := hA.2
      have := f3
      rw [← hrc] at this
      omega
    have := hgood evs e1'
    rw [e2]
    have hi' : i = 0 ∨ i = 1 ∨ i = 2 := by omega
    rcases hi' with rfl | rfl | rfl
    · simpa using this.1
    · simpa using this.2.1
    · simpa using this.2.2.1)
  -- the proof
  set p' : CompiledProof F E.G1 (BatchProof E) := { p with scProof := pf, scMaxDegree := 1, scNumVars := 1, pcsProof := [bp] } with hp'
  have hrun0 := hrun
  unfold runVOps at hrun0
  rw [List.foldlM_cons, withProof_run, ok_bind] at hrun0
  obtain ⟨q1, q2⟩ := swap_ops (p := p) (p' := p') debug H rfl rfl rfl ops hops rfl hrun0
  have hrun' : runVOps debug H VState.init (.setProof p' :: ops) = .ok (vs.re p') := by
    unfold runVOps at q1 ⊢
    rw [List.foldlM_cons, withProof_run, ok_bind]
    exact q1
  have hinv' : VInv (vs.re p') := (runVOps_stepOk vinv_init _ hrun').inv
  obtain ⟨cs', tr1', r', tr2', ds', tr3', agg, s1, a1, _, a3, _, a5, _, _, hagg, _, _, _, a8, a9, a10, _, _, _⟩ :=
    VSt.aggregate_run H (s := (vs.re p').st) (N := 1) rfl hinv'.wf hne hinv'.claims.2 hinv'.claims.1
  have a1' : vs.st.own.transcript.challengeLoop H "zerocheck challenge" vs.st.own.zeroClaims.length = .ok (cs', tr1') := a1
  rw [c1] at a1'
  obtain ⟨rfl, rfl⟩ := Prod.mk.inj (Except.ok.inj a1')
  rw [c2] at a3
  obtain ⟨rfl, rfl⟩ := Prod.mk.inj (Except.ok.inj a3)
  have a5' : tr2.challengeLoop H "sumcheck challenge" (vs.st.own.sumClaims.length + 1) = .ok (ds', tr3') := a5
  rw [c3] at a5'
  obtain ⟨rfl, rfl⟩ := Prod.mk.inj (Except.ok.inj a5')
  have hagg' : VSt.aggregate H (vs.re p').st = (.ok (agg, S), s1) := hagg
  have hprf : s1.own.proof = p' := a10
  have hmat : s1.own.matComms = vs.st.own.matComms := a9
  have hpts : ((sortedIds p.comms).map fun _ => [c]) = List.replicate comms.length [c] := by
    rw [List.map_const', length_sortedIds, m2]
  refine ⟨p', rfl, rfl, rfl, vs.re p', hrun', rfl, rfl, rfl, rfl, ?_, ?_⟩
  · obtain ⟨s', h'⟩ := (verifyClaims_iff (kzgPcs H pp vp) H hagg').2 ⟨⟨[c], S * (1 - c)⟩, rc.2, comms, bp, true, tr5, by rw [hprf, a8]; exact hsv,
      by rw [hprf, hmat]; exact m1, by rw [hprf]; rfl, by
        rw [hprf]
        show batchVerify H vp comms ((sortedIds p.comms).map fun _ => [c]) bp rc.2 = _
        rw [hpts]; exact hb⟩
    unfold Accepts
    rw [h']
  · intro agg' sm' s1' sub trx e1 e2
    rw [hagg'] at e1
    obtain ⟨e3, rfl⟩ := Prod.mk.inj e1
    obtain ⟨rfl, rfl⟩ := Prod.mk.inj (Except.ok.inj e3)
    rw [a8] at e2
    have e2' : sumcheckVerify H S pf 1 1 tr3 = .ok (sub, trx) := e2
    rw [hsv] at e2'
    obtain ⟨rfl, rfl⟩ := Prod.mk.inj (Except.ok.inj e2')
    refine ⟨comms, bp, tr5, m1, rfl, ?_⟩
    show batchVerify H vp comms ((sortedIds p.comms).map fun _ => [c]) bp rc.2 = _
    rw [hpts]; exact hb

namespace PfEx

/-- An oracle whose answers are never 0, 1, 2 or 1/2 (which is 4). -/
def orc : Oracle (ZMod 7) (ZMod 7) := fun _ es => if es.length % 2 = 0 then 5 else 3

/-- A proof with two commitments. -/
def blank : CompiledProof (ZMod 7) (ZMod 7) (BatchProof E7) := { (CompiledProof.default : CompiledProof (ZMod 7) (ZMod 7) (BatchProof E7)) with comms := [(0, 2), (1, 3)] }

/-- The verifier's history: both commitments, and the claim that the constant polynomial 1 vanishes. -/
def falseOps : List (VOp (ZMod 7) (ZMod 7) (BatchProof E7)) := [.transferNext, .transferNext, .virt (fun _ => .ok 1), .zeroClaim 2]

/-- The verifier's state. -/
def falseState : Res (VState (ZMod 7) (ZMod 7) (BatchProof E7)) := runVOps true orc VState.init (.setProof blank :: falseOps)

end PfEx

/-- A false claim is accepted: after committing to two columns, that the constant polynomial 1 vanishes everywhere. -/
theorem PfEx.false_accepted : ∃ (p' : CompiledProof (ZMod 7) (ZMod 7) (BatchProof PfEx.E7)) (vs' : VState (ZMod 7) (ZMod 7) (BatchProof PfEx.E7)),
    runVOps true PfEx.orc VState.init (.setProof p' :: PfEx.falseOps) = .ok vs' ∧ vs'.st.own.zeroClaims = [2] ∧
      (∀ x, VSt.evalVirtual vs'.st.sh 2 x = .ok 1) ∧ Accepts (kzgOf (E := PfEx.E7) PfEx.orc (1 : ZMod 7) (1 : ZMod 7) [3]) PfEx.orc vs' := by
  rcases hv : PfEx.falseState with e | vs
  · exact absurd hv (by intro h; cases h)
  · have hvs : vs.st.own.zeroClaims = [2] ∧ vs.st.own.matComms.map (·.1) = [1, 0] ∧ vs.st.own.transcript.isEmpty = false ∧ (∀ x, VSt.evalVirtual vs.st.sh 2 x = .ok 1) := by
      have : PfEx.falseState = .ok vs := hv
      cases this
      exact ⟨rfl, rfl, rfl, fun _ => rfl⟩
    obtain ⟨p', _, _, _, vs', h1, _, h3, _, h5, h6, _⟩ := C45_forgery (E := PfEx.E7) true PfEx.orc (proverParamOf (1 : ZMod 7) (1 : ZMod 7) [3])
      (verifierParamOf (1 : ZMod 7) (1 : ZMod 7) [3]) (le_refl 1) rfl (fun i a b => PfEx.nats i a (by omega)) PfEx.blank PfEx.falseOps
      (by intro q hq; simp [PfEx.falseOps] at hq) vs hv (le_refl 2) (by rw [hvs.2.1]; decide) hvs.2.2.1 (by
        intro evs _
        unfold PfEx.orc
        split <;> decide)
    exact ⟨p', vs', h1, h3.trans hvs.1, by rw [h5]; exact hvs.2.2.2, h6⟩

namespace PfEx

/-- A proof that the constant polynomial 1 vanishes. -/
def lie : CompiledProof (ZMod 7) (ZMod 7) (BatchProof E7) :=
  { blank with scProof := ⟨[], [[0, 0]]⟩, scMaxDegree := 1, scNumVars := 1, pcsProof := [⟨⟨[6], [[0, 0, 0]]⟩, [0, 0], [0]⟩] }

/-- The verdict, and the check that is missing. -/
def lieVerdict : Res (Res Unit × Option Bool) := do
  let vs ← runVOps true orc VState.init (.setProof lie :: falseOps)
  .ok ((VSt.verifyClaims (kzgOf (E := E7) orc (1 : ZMod 7) (1 : ZMod 7) [3]) orc vs.st).1, finalBit orc vs)

end PfEx

/-- C45 is false. -/
theorem C45_violated : ¬ C45_statement := by
  intro hall
  have hx : PfEx.lieVerdict = .ok (.ok (), some false) := by decide +kernel
  unfold PfEx.lieVerdict at hx
  rcases hv : runVOps true PfEx.orc VState.init (.setProof PfEx.lie :: PfEx.falseOps) with e | vs
  · rw [hv] at hx; simp at hx
  rw [hv, ok_bind] at hx
  have hx := Except.ok.inj hx
  exact finalBit_false (congrArg (·.2) hx) (hall (ZMod 7) (ZMod 7) (BatchProof PfEx.E7) (kzgOf (E := PfEx.E7) PfEx.orc (1 : ZMod 7) (1 : ZMod 7) [3]) PfEx.orc true vs ⟨_, hv⟩
    (congrArg Prod.fst hx))

end Zksql
