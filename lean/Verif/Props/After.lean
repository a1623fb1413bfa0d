import Verif.Lemmas.After
import Verif.Props.Program
/-!
C99: after an accepted proof both trackers are in the same state.  Also C23 without conditions on the polynomial, and `get_next_id` (C33).
-/
set_option linter.unusedSectionVars false
namespace Zksql
open Spec
variable {F : Type} [Field F] [DecidableEq F] {E : Curve F} {H : Oracle F E.G1} {g : E.G1} {h : E.G2} {T : List F}

/-- C99: any history of the prover, the matching history of the verifier.  If the prover compiles a proof and the verifier accepts it, both end in the same state. -/
theorem C99_same_state (debug : Bool) {pub : Mle F → List F → Res F} (ops : List (POp F E.G1)) {ps : PState F E.G1} {t : PTracker F E.G1}
    {p : CompiledProof F E.G1 (BatchProof E)} {vs : VState F E.G1 (BatchProof E)} {s : VSt F E.G1 (BatchProof E)}
    (hc : CommitsOk (kzgCommit (proverParamOf g h T)) ops)
    (hrun : runOps (kzgCommit (proverParamOf g h T)) H PState.init ops = .ok ps) (hcomp : PTracker.compile debug (kzgOf H g h T) H ps.tracker = (.ok p, t))
    (hrv : runVOps debug H VState.init (.setProof p :: mirrorOps pub ops) = .ok vs) (hv : VSt.verifyClaims (kzgOf H g h T) H vs.st = (.ok (), s)) :
    Level t s ∧ s.own.proof = p := by
  have hr : Reachable (kzgCommit (proverParamOf g h T)) H ps := ⟨ops, hrun⟩
  obtain ⟨hs, hzc⟩ := claims_hasNv hr
  have hne := hr.absorbed (compile_comms_ne hcomp)
  have hcar := compile_carries hr.inv.inv hne hs hzc hcomp
  obtain ⟨vs', r1, r2, r3, r4, _⟩ := joint_all (debug := debug) (pub := pub) p ops hc hrun ⟨hcar.comms, hcar.sums⟩
  rw [hrv] at r1
  obtain rfl := Except.ok.inj r1
  have hsr : SumsRead vs := by
    unfold runVOps at hrv
    rw [List.foldlM_cons, withProof_run, ok_bind] at hrv
    exact runVOps_sums _ (mirrorOps_reading pub ops) (by intro c hc; simp [VState.withProof, VSt.new] at hc) hrv
  exact level_after hr.inv.inv hne hs hzc ⟨r2.counter, r2.transcript, r2.comms, r2.sums, r2.zeros, hsr⟩ r4 hcomp hv

/-- C99, the protocols: a protocol whose two sides fit together ends level. -/
theorem C99_protocol {V : Env F E.G1} {N : Nat} {t : PTracker F E.G1} {P : E.G1 → List F → F} {α β : Type} {m : Env F E.G1 → Act (PTracker F E.G1) α} {v : Env F E.G1 → Act (VSt F E.G1 (BatchProof E)) β}
    {bad : List (TEvent F E.G1) → Finset F} {bounds : List Nat} {Inputs Contents : VSt F E.G1 (BatchProof E) → Prop} {Valid Fits : Prop}
    (hc : CompletesOutside bad V P N m v t bounds Inputs Contents Valid Fits) : EndsLevelOutside bad V g h T m v t Inputs Valid := by
  intro H a t1 t2 p b s s1 s2 hval hst hzt hav hm hcomp hsa htog hin hpf hv hvc
  obtain ⟨a', t1', h1, h2, hkeep, h3, h4, h5, h6, h7⟩ := hc H
  rw [hm] at h1
  obtain ⟨_, rfl⟩ := Prod.mk.inj h1
  have hsn : ∀ c ∈ t1.sumClaims, ∃ nv, t1.HasNv c.1 nv := fun c hc => by
    obtain ⟨a, U, e, k, -⟩ := h5 hst c hc
    exact ⟨a.numVars, e ▸ (k.ph h2).nv⟩
  have hzn : ∀ c ∈ t1.zeroClaims, ∃ nv, t1.HasNv c nv := fun c hc => by
    obtain ⟨a, U, e, k, -⟩ := h6 hval hav hzt c hc
    exact ⟨a.numVars, e ▸ (k.ph h2).nv⟩
  have hcar := compile_carries h2.inv h2.started hsn hzn hcomp
  rcases h7 s hsa htog hin (by rw [hpf]; exact hcar) with ⟨b', s', k1, k2, k3, k4, -⟩ | ⟨s', k1, _⟩
  · rw [hv] at k1
    obtain ⟨_, rfl⟩ := Prod.mk.inj k1
    exact (level_after h2.inv h2.started hsn hzn k3 (k4.trans hpf) hcomp hvc).1
  · rw [hv] at k1
    exact absurd (Prod.mk.inj k1).1 (by simp)

/-- C99, programs: any list of steps over committed columns ends level. -/
theorem C99_program {V : Env F E.G1} {N : Nat} {t : PTracker F E.G1} {hs : List TPoly} {W : List (Column F)} {prog : List (Step F)} (h2 : (2 : F) ≠ 0)
    (hC : CanCommit V.commit N) (hr : Spec.Ready V.commit t) (hh : HoldsAllP t hs W) (hf : Step.FitsAll N W prog) (hn : Step.RunsAll V.debug W prog) :
    ∃ bad : List (TEvent F E.G1) → Finset F,
      (∀ (H : Oracle F E.G1) (hs' : List TPoly) (t' : PTracker F E.G1), Step.proveAll (V.withH H) prog hs t = (.ok hs', t') →
        ∀ k hist, (drawn t t')[k]? = some hist → (bad hist).card ≤ (Step.boundsAll W prog).getD k 0) ∧
      EndsLevelOutside bad V g h T (fun V => Step.proveAll V prog hs) (fun V => Step.verifyAll V prog hs) t (fun s => KnownAll s hs) (Step.ValidAll V.rep W prog) := by
  obtain ⟨bad, hb⟩ := C85_program_complete (B := BatchProof E) (E := V) (P := fun _ _ => 0) h2 hC hr hh hf hn
  refine ⟨bad, fun H hs' t' he k hist hk => ?_, C99_protocol hb⟩
  obtain ⟨a, t1, e1, _, _, _, e2, _⟩ := hb H
  beta_reduce at e1
  rw [he] at e1
  obtain ⟨_, rfl⟩ := Prod.mk.inj e1
  exact e2 k hist hk
/-- The states of both trackers in the run with two columns, a claimed sum and a claimed zero. -/
def PfEx.ends (T : List (ZMod 7)) (ops : List (POp (ZMod 7) (ZMod 7))) : Res (PTracker (ZMod 7) (ZMod 7) × VSt (ZMod 7) (ZMod 7) (BatchProof PfEx.E7)) := do
  let ps ← runOps (PfEx.com T) exBatchH PState.init ops
  let r := PTracker.compile true (PfEx.pcs T) exBatchH ps.tracker
  let p ← r.1
  let vs ← runVOps true exBatchH VState.init (.setProof p :: mirrorOps JEx.closed ops)
  let q := VSt.verifyClaims (PfEx.pcs T) exBatchH vs.st
  let _ ← q.1
  .ok (r.2, q.2)

/-- Concrete instance: the proof is compiled and accepted, and the hypotheses of `C99_same_state` hold.  Both counters are at 14, both trackers have the claims that number 2
sums to 6 and, added in aggregating, that number 8 sums to 0. -/
example : (PfEx.ends [3] PfEx.ops).toOption.map (fun e => (e.1.idCounter, e.1.sumClaims, e.1.zeroClaims)) = some (14, [(2, 6), (8, 0)], [3]) ∧
    (PfEx.ends [3] PfEx.ops).toOption.map (fun e => (e.2.own.idCounter, e.2.own.sumClaims, e.2.own.zeroClaims)) = some (14, [(2, 6), (8, 0)], [3]) := by
  constructor <;> decide +kernel

/-- Columns of different sizes: the claimed sum is doubled for both. -/
example : (PfEx.ends [3, 5] (.commit ⟨1, [3, 5]⟩ rfl :: .commit ⟨2, [1, 2, 4, 6]⟩ rfl :: [.sumClaim 0 1])).toOption.map (fun e => e.2.own.sumClaims) = some [(0, 2), (4, 0)] := by
  decide +kernel

/-- C23 without conditions on the polynomial: however it was built, whenever `prove` returns a proof and `verify` returns a subclaim on it, for any claimed sum, the subclaim's point
is the proof's point and the transcripts are equal. -/
theorem C23_same_challenges_always {C : Type} {H : Oracle F C} {vp : VirtPoly F} {tr trp trv : Transcript F C} {pf : IOPProof F} {claim : F} {sub : SubClaim F}
    (hp : sumcheckProve H vp tr = .ok (pf, trp)) (hv : sumcheckVerify H claim pf vp.maxDegree vp.numVariables tr = .ok (sub, trv)) :
    sub.point = pf.point ∧ trv = trp := sumcheck_same hp hv

/-- C33, looking ahead: `get_next_id` changes nothing, however often it is called, and names the identifier that the next tracking or committing call, sum, difference, product or
multiple gets. -/
theorem C33_next_id_prover {C : Type} (t : PTracker F C) : ∃ i, PTracker.getNextId t = (.ok i, t) ∧ (∀ p, (TPoly.trackMat p t).1 = .ok ⟨i, p.numVars⟩) ∧
    (∀ commit p c, commit p = .ok c → (TPoly.trackAndCommit commit p t).1 = .ok ⟨i, p.numVars⟩) ∧
    (∀ a b x t', TPoly.add a b t = (.ok x, t') → x.id = i) ∧ (∀ a b x t', TPoly.sub a b t = (.ok x, t') → x.id = i) ∧
    (∀ a b x t', TPoly.mul a b t = (.ok x, t') → x.id = i) ∧ (∀ a c x t', TPoly.mulScalar a c t = (.ok x, t') → x.id = i) := by
  refine ⟨t.idCounter, rfl, fun p => rfl, fun commit p c hc => ?_, fun a b x t' h => ?_, fun a b x t' h => ?_, fun a b x t' h => ?_, fun a c x t' h => ?_⟩
  · unfold TPoly.trackAndCommit PTracker.trackAndCommit
    rw [Act.bind_assoc, Act.bind_ok (m := Act.lift (commit p)) (a := c) (s' := t) (by simp [hc])]
    rfl
  · exact id_addSub (id_wrap (id_assert_bind h))
  · exact id_addSub (id_wrap (id_assert_bind h))
  · exact id_mul (id_wrap (id_assert_bind h))
  · exact id_mulScalar (id_wrap h)

/-- The verifier's. -/
theorem C33_next_id_verifier {C B : Type} (s : VSt F C B) : ∃ i, VSt.getNextId s = (.ok i, s) ∧ (∀ c, (VSt.trackMatComm c s).1 = .ok i) ∧ (∀ f, (VSt.trackVirtual (.fn f) s).1 = .ok i) ∧
    (∀ a b, (VSt.addComms a b s).1 = .ok i) ∧ (∀ a b, (VSt.subComms a b s).1 = .ok i) ∧ (∀ a b, (VSt.mulComms a b s).1 = .ok i) ∧
    (∀ a c, (VSt.mulScalar a c s).1 = .ok i) :=
  ⟨s.own.idCounter, rfl, fun _ => rfl, fun _ => rfl, fun _ _ => rfl, fun _ _ => rfl, fun _ _ => rfl, fun _ _ => rfl⟩

end Zksql
