import Verif.Lemmas.FinalPass
import Verif.Props.SumBinding
/-!
C96: the value that the sumcheck in an honest proof leaves to be checked is the value of the aggregated polynomial.
-/
set_option linter.unusedSectionVars false
namespace Zksql
open Spec PTracker
variable {F C B : Type} [Field F] [DecidableEq F] {commit : Mle F → Res C} {H : Oracle F C} {ps : PState F C}

/-- C96 in full, for debug and for release builds: let the prover run a history with true claims that reads no evaluations which reading would change, and
compile a proof; let the verifier load it and follow the history.  Then the comparison that `verify_claims` leaves out holds, made with the committed
polynomials, unless a sumcheck challenge is one of the interpolation nodes. -/
def C96_statement (debug : Bool) : Prop :=
  ∀ (F C B : Type) [Field F] [DecidableEq F] (commit : Mle F → Res C) (H : Oracle F C) (pcs : Pcs F C B) (pub : Mle F → List F → Res F) (d : Nat)
    (ops : List (POp F C)) (ps : PState F C) (p : CompiledProof F C B) (vs : VState F C B) (P : C → List F → F),
    CommitsOk commit ops → runOps commit H PState.init ops = .ok ps → (∃ e ∈ ps.tracker.mats, e.2.mle.numVars ≠ 0) → ps.tracker.comms ≠ [] →
    1 ≤ d → ClaimDegree ps d → NatsNonzero F (d + 1) → ZerosTrue ps → SumsTrue ps → FaithfulRun commit H PState.init ops → PubLong pub → Behind P ps →
    (compile debug pcs H ps.tracker).1 = .ok p → runVOps debug H VState.init (.setProof p :: mirrorOps pub ops) = .ok vs →
    Avoids p.scProof.point p.scMaxDegree → TrueFinalCheck H P vs.st

/-- C96, partial: it holds in release builds if reading the evaluations of the polynomials whose sums are claimed changes nothing.  Missing: debug
builds, and other sums, for which it is false (`C96_violated_debug`, `C96_violated_release`). -/
theorem C96_release_partial (pcs : Pcs F C B) {pub : Mle F → List F → Res F} {d : Nat} (ops : List (POp F C)) {p : CompiledProof F C B} {P : C → List F → F}
    (hc : CommitsOk commit ops) (hrun : runOps commit H PState.init ops = .ok ps) (hm : ∃ e ∈ ps.tracker.mats, e.2.mle.numVars ≠ 0) (hne : ps.tracker.comms ≠ [])
    (hd : 1 ≤ d) (hdeg : ClaimDegree ps d) (hchar : NatsNonzero F (d + 1)) (hz : ZerosTrue ps) (hf : FaithfulRun commit H PState.init ops) (hpub : PubLong pub)
    (hP : Behind P ps) (hsteady : SumsSteady ps) (hp : (compile false pcs H ps.tracker).1 = .ok p) :
    ∃ vs : VState F C B, runVOps false H VState.init (.setProof p :: mirrorOps pub ops) = .ok vs ∧
      (Avoids p.scProof.point p.scMaxDegree → TrueFinalCheck H P vs.st) := by
  have hr : Reachable commit H ps := ⟨ops, hrun⟩
  obtain ⟨hs, hzc⟩ := claims_hasNv hr
  obtain ⟨N, te, heq, hcm, hlook, hlen, hfin⟩ := final_T (H := H) pcs hr.inv.inv (hr.absorbed hne) hm hs hzc hd (fun id v hi hv q hq => hdeg id hi v hv q hq) hchar
    (zerosTrue_gval hr hz) hp
  obtain ⟨vs, r1, r2, r3, r4, hA⟩ := joint_all (debug := false) (pub := pub) p ops hc hrun ⟨fun id c h => by show p.comms.lookup id = _; rw [hcm]; exact h,
    fun e he => hlook e.1 (List.mem_map.2 ⟨e, he, rfl⟩)⟩
  refine ⟨vs, r1, fun hav agg sm s1 sub tr1 k1 k2 => ?_⟩
  have hsr : SumsRead vs := by
    unfold runVOps at r1
    rw [List.foldlM_cons, withProof_run, ok_bind] at r1
    exact runVOps_sums _ (mirrorOps_reading pub ops) (by intro c hc; simp [VState.withProof, VSt.new] at hc) r1
  have hAgree := hA (fun n x => n ≤ x.length) Points.long (answer vs.st P) hpub (by
    intro id c hl nv x y hx hy
    unfold answer
    rw [r2.comms, hl]
    exact congrArg Except.ok (hP id c hl nv x y hx hy)) hf
  obtain ⟨hmc, hev⟩ := hfin vs r3.wf r3.claims.2 r3.claims.1 r4 r2.transcript r2.sums r2.zeros hsr hav (answer vs.st P) (by
    intro id hid
    obtain ⟨a, ha, rfl⟩ : ∃ a ∈ ps.handles, id = a.id := by
      rcases hid with hid | hid
      · obtain ⟨a, ha, e⟩ := hr.claimed.2 id hid
        exact ⟨a, ha, e.symm⟩
      · obtain ⟨c, hc', rfl⟩ := List.mem_map.1 hid
        obtain ⟨a, ha, e⟩ := hr.claimed.1 c hc'
        exact ⟨a, ha, e.symm⟩
    have hmne : ps.tracker.mats ≠ [] := by
      obtain ⟨e, he, _⟩ := hm
      rintro h; rw [h] at he; simp at he
    have hle : a.numVars ≤ p.scProof.point.length := by
      obtain ⟨N', t1, te', _, _, hE, _, heq', _⟩ := equalize_run hr.inv.inv hmne hs
      rw [heq] at heq'
      obtain ⟨eN, _⟩ := Prod.mk.inj heq'
      injection eN with eN
      rw [hlen, eN]
      exact (hE.hasNv (hr.inv.known a ha)).1
    rw [equalize_value hr.inv hmne hs heq ha (hsteady a ha) _ hlen]
    exact hAgree a ha _ hle) agg sm s1 sub tr1 k1 k2
  unfold valueAt
  have : answer s1 P = answer vs.st P := by
    funext id x
    unfold answer
    rw [hmc]
  rw [this]
  exact hev

/-- C96, what a debug build does instead: the sumcheck in its proofs is always about a multilinear polynomial, whatever the degree of the claims, because
`compile_proof` reads the evaluations of the aggregated polynomial. -/
theorem C96_debug_multilinear (pcs : Pcs F C B) {d : Nat} {p : CompiledProof F C B} (hr : Reachable commit H ps) (hm : ∃ e ∈ ps.tracker.mats, e.2.mle.numVars ≠ 0)
    (hne : ps.tracker.comms ≠ []) (hd : 1 ≤ d) (hdeg : ClaimDegree ps d) (hchar : NatsNonzero F (d + 1)) (hz : ZerosTrue ps)
    (hp : (compile true pcs H ps.tracker).1 = .ok p) : p.scMaxDegree = 1 := by
  obtain ⟨hs, hzc⟩ := claims_hasNv hr
  obtain ⟨N, te, cs, tr1, r, tr2, ds, tr3, vp, pf, tr4, polys, evals, extra, _, _, _, _, _, _, _, _, _, _, _, _, _, _, _, _, _, _, _, _, _, _, hcomp, _, hdeg1⟩ :=
    compile_run true pcs H hr.inv.inv hm (hr.absorbed hne) hs hzc hd (fun id v hi hv q hq => hdeg id hi v hv q hq) hchar (fun _ => zerosTrue_gval hr hz)
  rw [hcomp] at hp
  rcases hmo : pcs.multiOpen polys ((sortedIds ps.tracker.comms).map fun _ => pf.point) evals tr4 with (e | _) | ⟨bp, tr5⟩
  · rw [hmo] at hp; cases hp
  · rw [hmo] at hp; cases hp
  rw [hmo] at hp
  obtain rfl : mkProof ps.tracker.comms (te.sumClaims ++ [(extra, 0)]) pf vp bp = p := by injection hp
  exact hdeg1 rfl

/-- The committed polynomials are behind the commitments. -/
theorem behind_of {P : C → List F → F}
    (h : ∀ e ∈ ps.tracker.comms, ∃ a, ps.tracker.mats.lookup e.1 = some a ∧ a.mle.WF ∧ ∀ x : List F, P e.2 x = mle a.mle.tbl (x.take a.mle.numVars)) : Behind P ps := by
  intro id c hl nv x y hx hy
  obtain ⟨l1, l2, e, _⟩ := List.lookup_eq_some_iff.1 hl
  obtain ⟨a, h1, h2, h3⟩ := h (id, c) (by rw [e]; simp)
  unfold PTracker.evaluate at hy
  rw [h1] at hy
  have hy := Except.ok.inj hy
  by_cases hn : (x.take nv).length = a.mle.numVars
  · rw [evaluate_eq _ h2 _ hn] at hy
    rw [h3 x]
    rw [List.length_take, Nat.min_eq_left hx] at hn
    rw [← hn]
    exact Option.some.inj hy
  · rw [Mle.evaluate, if_neg (fun e => hn e.symm)] at hy
    cases hy

namespace FpEx
open PfEx

/-- Two committed columns, the claim that their product vanishes and the claim of the sum of one of them. -/
def ops : List (POp (ZMod 7) (ZMod 7)) := [.commit ⟨1, [1, 0]⟩ rfl, .commit ⟨1, [0, 3]⟩ rfl, .mul 0 1, .zeroClaim 2, .sumClaim 1 3]

/-- Closed forms (the histories track nothing, so any do). -/
def pub (p : Mle (ZMod 7)) (x : List (ZMod 7)) : Res (ZMod 7) := .ok (mle p.tbl (x.take p.numVars))

theorem pubLong : PubLong pub := fun _ _ _ _ => rfl

/-- The polynomials behind the commitments. -/
def P (tables : List (ZMod 7 × Mle (ZMod 7))) (c : ZMod 7) (x : List (ZMod 7)) : ZMod 7 := mle ((tables.lookup c).getD ⟨0, [0]⟩).tbl (x.take 1)

/-- The tables of `ops`. -/
def tables : List (ZMod 7 × Mle (ZMod 7)) := [(5, ⟨1, [1, 0]⟩), (2, ⟨1, [0, 3]⟩)]
/-- The tables of `PfEx.ops`. -/
def tables' : List (ZMod 7 × Mle (ZMod 7)) := [(2, ⟨1, [3, 5]⟩), (4, ⟨1, [1, 2]⟩)]

/-- The outcome of the comparison for an honest proof. -/
def outcome (debug : Bool) (ops : List (POp (ZMod 7) (ZMod 7))) (tables : List (ZMod 7 × Mle (ZMod 7))) : Res (List (ZMod 7) × Nat × Option Bool) := do
  let p ← (compile debug (pcs [3]) exBatchH (state [3] ops).tracker).1
  let vs ← runVOps debug exBatchH VState.init (.setProof p :: mirrorOps pub ops)
  .ok (p.scProof.point, p.scMaxDegree, trueBit exBatchH (P tables) vs.st)

theorem outcome_release : outcome false PfEx.ops tables' = .ok ([4], 2, some false) := by decide +kernel
theorem outcome_debug : outcome true ops tables = .ok ([4], 1, some false) := by decide +kernel
theorem outcome_ok : outcome false ops tables = .ok ([4], 3, some true) := by decide +kernel

end FpEx
theorem trueBit_false {F C B : Type} [Field F] [DecidableEq F] {H : Oracle F C} {P : C → List F → F} {s : VSt F C B} (h : trueBit H P s = some false) :
    ¬ TrueFinalCheck H P s := by
  intro hall
  unfold trueBit at h
  split at h
  · rename_i agg sm s1 ha
    split at h
    · rename_i sub tr1 hv
      rw [hall agg sm s1 sub tr1 ha hv] at h
      simp at h
    · cases h
  · cases h

namespace FpEx
open PfEx

theorem run : runOps (com [3]) exBatchH PState.init ops = .ok (state [3] ops) := by decide +kernel

theorem commits : CommitsOk (com [3]) ops := by
  refine PfEx.commits _ _ fun p wf hp => ?_
  simp only [ops, List.mem_cons, reduceCtorEq, List.not_mem_nil, or_false] at hp
  rcases hp with hp | hp <;> injection hp with hp <;> rw [hp] <;> exact le_refl _

theorem faithful : FaithfulRun (com [3]) exBatchH PState.init ops := C42_arithmetic_faithful _ _ _ _ (by simp [ops])
theorem faithful' : FaithfulRun (com [3]) exBatchH PState.init PfEx.ops := C42_arithmetic_faithful _ _ _ _ (by simp [PfEx.ops])

theorem sums (ops : List (POp (ZMod 7) (ZMod 7))) (h : ∀ a ∈ (state [3] ops).handles, ∀ e ∈ (state [3] ops).tracker.sumClaims, e.1 = a.id →
    ((evalsOf (state [3] ops) a).toOption.getD []).sum = e.2) : SumsTrue (state [3] ops) := by
  intro a ha v hv l hl
  have := h a ha _ hv rfl
  rwa [hl] at this

theorem behind : Behind (P tables) (state [3] ops) := by
  have hc : (state [3] ops).tracker.comms = [(1, 2), (0, 5)] := by decide +kernel
  have h0 : ((state [3] ops).tracker.mats.lookup 0).map (·.mle) = some ⟨1, [1, 0]⟩ := by decide +kernel
  have h1 : ((state [3] ops).tracker.mats.lookup 1).map (·.mle) = some ⟨1, [0, 3]⟩ := by decide +kernel
  refine behind_of fun e he => ?_
  rw [hc] at he
  simp only [List.mem_cons, List.not_mem_nil, or_false] at he
  rcases he with rfl | rfl
  · obtain ⟨a, e1, e2⟩ := Option.map_eq_some_iff.1 h1
    exact ⟨a, e1, by rw [e2]; rfl, fun x => by rw [e2]; rfl⟩
  · obtain ⟨a, e1, e2⟩ := Option.map_eq_some_iff.1 h0
    exact ⟨a, e1, by rw [e2]; rfl, fun x => by rw [e2]; rfl⟩

theorem behind' : Behind (P tables') (state [3] PfEx.ops) := by
  have hc : (state [3] PfEx.ops).tracker.comms = [(1, 4), (0, 2)] := by decide +kernel
  have h0 : ((state [3] PfEx.ops).tracker.mats.lookup 0).map (·.mle) = some ⟨1, [3, 5]⟩ := by decide +kernel
  have h1 : ((state [3] PfEx.ops).tracker.mats.lookup 1).map (·.mle) = some ⟨1, [1, 2]⟩ := by decide +kernel
  refine behind_of fun e he => ?_
  rw [hc] at he
  simp only [List.mem_cons, List.not_mem_nil, or_false] at he
  rcases he with rfl | rfl
  · obtain ⟨a, e1, e2⟩ := Option.map_eq_some_iff.1 h1
    exact ⟨a, e1, by rw [e2]; rfl, fun x => by rw [e2]; rfl⟩
  · obtain ⟨a, e1, e2⟩ := Option.map_eq_some_iff.1 h0
    exact ⟨a, e1, by rw [e2]; rfl, fun x => by rw [e2]; rfl⟩

theorem hasVar : ∃ e ∈ (state [3] ops).tracker.mats, e.2.mle.numVars ≠ 0 := by decide +kernel
theorem committed : (state [3] ops).tracker.comms ≠ [] := by decide +kernel
theorem degree : ClaimDegree (state [3] ops) 2 := PfEx.degree _ _ _ (by decide +kernel)
theorem zeros : ZerosTrue (state [3] ops) := PfEx.zeros _ _ (by decide +kernel)
theorem sumsTrue : SumsTrue (state [3] ops) := sums _ (by decide +kernel)

theorem steady : SumsSteady (state [3] ops) := by
  intro a _ hid
  have hs : (state [3] ops).tracker.sumClaims.map (·.1) = [1] := by decide +kernel
  rw [hs] at hid
  have h1 : ((state [3] ops).tracker.mats.lookup 1).isSome := by decide +kernel
  refine sameAfter_mat ?_
  rw [List.mem_singleton.1 hid]
  exact h1

theorem avoids {x : List (ZMod 7)} {n : Nat} (h : x = [4]) (hn : n ≤ 3) : Avoids x n := by
  intro c hc i hi
  rw [h, List.mem_singleton] at hc
  subst hc
  have : i = 0 ∨ i = 1 ∨ i = 2 ∨ i = 3 := by omega
  rcases this with rfl | rfl | rfl | rfl <;> decide

/-- A history meets the hypotheses of `C96_release_partial`, the proof is compiled and its challenges are not interpolation nodes. -/
example : ∃ (p : CompiledProof (ZMod 7) (ZMod 7) (BatchProof E7)) (vs : VState (ZMod 7) (ZMod 7) (BatchProof E7)),
    (compile false (pcs [3]) exBatchH (state [3] ops).tracker).1 = .ok p ∧ runVOps false exBatchH VState.init (.setProof p :: mirrorOps pub ops) = .ok vs ∧
    p.scMaxDegree = 3 ∧ TrueFinalCheck exBatchH (P tables) vs.st := by
  have h := outcome_ok
  unfold outcome at h
  rcases hp : (compile false (pcs [3]) exBatchH (state [3] ops).tracker).1 with e | p
  · rw [hp] at h; cases h
  obtain ⟨vs, h1, h2⟩ := C96_release_partial (pcs [3]) ops commits run hasVar committed (by decide : 1 ≤ 2) degree PfEx.nats zeros faithful pubLong behind steady hp
  rw [hp, ok_bind, h1, ok_bind] at h
  have h := Except.ok.inj h
  simp only [Prod.mk.injEq] at h
  exact ⟨p, vs, rfl, h1, h.2.1, h2 (avoids h.1 (by omega))⟩

end FpEx

/-- C96 is false in debug builds: the claim that the product of two columns vanishes is proved with a sumcheck about the zero polynomial. -/
theorem C96_violated_debug : ¬ C96_statement true := by
  intro hall
  have h := FpEx.outcome_debug
  unfold FpEx.outcome at h
  rcases hp : (compile true (PfEx.pcs [3]) exBatchH (PfEx.state [3] FpEx.ops).tracker).1 with e | p
  · rw [hp] at h; cases h
  rw [hp, ok_bind] at h
  rcases hv : runVOps true exBatchH VState.init (.setProof p :: mirrorOps FpEx.pub FpEx.ops) with e | vs
  · rw [hv] at h; cases h
  rw [hv, ok_bind] at h
  have h := Except.ok.inj h
  simp only [Prod.mk.injEq] at h
  exact trueBit_false h.2.2 (hall _ _ _ (PfEx.com [3]) exBatchH (PfEx.pcs [3]) FpEx.pub 2 FpEx.ops _ p vs _ FpEx.commits FpEx.run FpEx.hasVar FpEx.committed (by decide)
    FpEx.degree PfEx.nats FpEx.zeros FpEx.sumsTrue FpEx.faithful FpEx.pubLong FpEx.behind hp hv (FpEx.avoids h.1 (by rw [h.2.1]; decide)))

/-- C96 is false in release builds too: a claimed sum of a product of two columns is proved with a sumcheck about the multilinear extension of the
product's table. -/
theorem C96_violated_release : ¬ C96_statement false := by
  intro hall
  have h := FpEx.outcome_release
  unfold FpEx.outcome at h
  rcases hp : (compile false (PfEx.pcs [3]) exBatchH (PfEx.state [3] PfEx.ops).tracker).1 with e | p
  · rw [hp] at h; cases h
  rw [hp, ok_bind] at h
  rcases hv : runVOps false exBatchH VState.init (.setProof p :: mirrorOps FpEx.pub PfEx.ops) with e | vs
  · rw [hv] at h; cases h
  rw [hv, ok_bind] at h
  have h := Except.ok.inj h
  simp only [Prod.mk.injEq] at h
  obtain ⟨h1, h2, _, h4, h5, h6, h7⟩ := PfEx.honest
  exact trueBit_false h.2.2 (hall _ _ _ (PfEx.com [3]) exBatchH (PfEx.pcs [3]) FpEx.pub 2 PfEx.ops _ p vs _ h1 h2 PfEx.sized.2 (by rintro e; rw [e] at h4; simp at h4) (by decide)
    h5 h6 h7 (FpEx.sums _ (by decide +kernel)) FpEx.faithful' FpEx.pubLong FpEx.behind' hp hv (FpEx.avoids h.1 (by rw [h.2.1]; decide)))

end Zksql
