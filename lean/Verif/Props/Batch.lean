import Verif.Lemmas.Batch
import Verif.Props.Kzg
/-!
Property theorems C31, C32, C74: batch opening.
-/
set_option linter.unusedSectionVars false
namespace Zksql
open Spec
variable {F : Type} [Field F] [DecidableEq F] {E : Curve F}

/-! ## C31 -/

theorem log2Ceil_one : log2Ceil 1 = 0 := by decide +kernel

/-- The full property C31: every non-empty list of polynomials of equal positive size can be batch opened. -/
def C31_statement (F : Type) [Field F] [DecidableEq F] : Prop :=
  ∀ (E : Curve F) (H : Oracle F E.G1) (g : E.G1) (h : E.G2) (T : List F) (n : Nat), 0 < n → n ≤ T.length →
    ∀ (polys : List (Mle F)), (∀ p ∈ polys, p.WF ∧ p.numVars = n) → 0 < polys.length →
    ∀ (points : List (List F)), points.length = polys.length → (∀ x ∈ points, x.length = n) →
    ∀ (tr : Transcript F E.G1), tr.isEmpty = false → ∀ evals : List F, evals.length = polys.length →
    (∀ i < polys.length, evals.getD i 0 = mle (polys.getD i Mle.zero).tbl (points.getD i [])) →
    ∃ pf tr', multiOpen H (proverParamOf g h T) polys points evals tr = .ok (pf, tr')

/-- C31 is false: a single polynomial cannot be batch opened, because the eq table over zero challenges is an error. -/
theorem C31_violated : ¬ C31_statement (ZMod 7) := by
  intro hall
  obtain ⟨pf, tr', h⟩ := hall (fieldCurve (ZMod 7)) (fun _ _ => (5 : ZMod 7)) (1 : ZMod 7) (1 : ZMod 7) [3] 1 (by decide) (by decide)
    [⟨1, [1, 2]⟩] (by simp [Mle.WF]) (by decide) [[4]] rfl (by simp) ((Transcript.new "t").append "a" (.bytes [])) rfl
    [mle (⟨1, [1, 2]⟩ : Mle (ZMod 7)).tbl [4]] rfl (by
      intro i hi
      obtain rfl : i = 0 := by simpa using hi
      rfl)
  simp [multiOpen, idx, Transcript.challenges, Transcript.challengeLoop, log2Ceil_one, Transcript.append, Transcript.new, buildEqVec,
    buildEqHelper] at h

/-- C31: a single polynomial is always refused, by prover and verifier, with an error. -/
theorem C31_single_refused (H : Oracle F E.G1) (pp : ProverParam E) (vp : VerifierParam E) (p : Mle F) (c : E.G1)
    (points : List (List F)) (evals : List F) (pf : BatchProof E) (tr : Transcript F E.G1) (htr : tr.isEmpty = false) :
    multiOpen H pp [p] points evals tr = .error (.err .invalidParameters) ∧
      batchVerify H vp [c] points pf tr = .error (.err .invalidParameters) := by
  constructor
  · simp [multiOpen, idx, Transcript.challenges, Transcript.challengeLoop, log2Ceil_one, htr, buildEqVec, buildEqHelper]
  · simp [batchVerify, Transcript.challenges, Transcript.challengeLoop, log2Ceil_one, htr, buildEqVec, buildEqHelper]

/-- C31 for two or more polynomials: for every parameters, polynomials in `n ≥ 1` variables, points (shared or distinct) and non-empty
transcript, the batch proof exists, and if no sumcheck challenge is 0, 1 or 2 it is accepted against the commitments and the true
values, prover and verifier transcripts ending equal.
Missing from the full property: a single polynomial, which is refused. -/
theorem C31_batch_completeness_partial (H : Oracle F E.G1) (g : E.G1) (h : E.G2) (T : List F) (n : Nat) (hn : 0 < n)
    (hnT : n ≤ T.length) (polys : List (Mle F)) (hpolys : ∀ p ∈ polys, p.WF ∧ p.numVars = n) (hk : 2 ≤ polys.length)
    (points : List (List F)) (hpl : points.length = polys.length) (hpts : ∀ x ∈ points, x.length = n) (hchar : NatsNonzero F 2)
    (tr : Transcript F E.G1) (htr : tr.isEmpty = false) (evals : List F) (hevl : evals.length = polys.length)
    (hev : ∀ i < polys.length, evals.getD i 0 = mle (polys.getD i Mle.zero).tbl (points.getD i []))
    (comms : List E.G1) (hcl : comms.length = polys.length)
    (hcomm : ∀ i < polys.length, kzgCommit (proverParamOf g h T) (polys.getD i Mle.zero) = .ok (comms.getD i 0)) :
    ∃ pf tr', multiOpen H (proverParamOf g h T) polys points evals tr = .ok (pf, tr') ∧ pf.sumCheckProof.point.length = n ∧
      pf.evals = evals ∧
      ((∀ c ∈ pf.sumCheckProof.point, ∀ i : Nat, i ≤ 2 → c ≠ (i : F)) →
        batchVerify H (verifierParamOf g h T) comms points pf tr = .ok (true, tr')) := by
  obtain ⟨pf, tr', h1, h2, h3, _, _, h4⟩ := batch_complete H g h T n hn hnT polys hpolys hk points hpl hpts hchar tr htr evals hevl hev
    comms hcl hcomm
  exact ⟨pf, tr', h1, h2, h3, h4⟩

/-- Two polynomials in one variable, one shared and one distinct point each: accepted end to end; with a wrong value for the second: rejected. -/
def exBatchTr : Transcript (ZMod 7) (ZMod 7) := (Transcript.new "t").append "a" (.bytes [])

def exBatchH : Oracle (ZMod 7) (ZMod 7) := fun _ es => if es.length % 2 = 0 then 5 else 4

def exBatch (points : List (List (ZMod 7))) (evals : List (ZMod 7)) : Res Bool := do
  let pp := proverParamOf (E := fieldCurve (ZMod 7)) (1 : ZMod 7) (1 : ZMod 7) [3]
  let vp := verifierParamOf (E := fieldCurve (ZMod 7)) (1 : ZMod 7) (1 : ZMod 7) [3]
  let polys : List (Mle (ZMod 7)) := [⟨1, [1, 2]⟩, ⟨1, [4, 6]⟩]
  let c0 ← kzgCommit pp ⟨1, [1, 2]⟩
  let c1 ← kzgCommit pp ⟨1, [4, 6]⟩
  let (pf, _) ← multiOpen exBatchH pp polys points evals exBatchTr
  let (b, _) ← batchVerify exBatchH vp [c0, c1] points pf exBatchTr
  .ok b

example : exBatch [[4], [4]] [5, 5] = .ok true := by decide +kernel
example : exBatch [[4], [5]] [5, 0] = .ok true := by decide +kernel
example : exBatch [[4], [5]] [5, 1] ≠ .ok true := by decide +kernel

/-! ## C32 -/

/-- The full property C32: if `batch_verify` accepts, the point inside the proof is the point derived from the transcript. -/
def C32_statement (F : Type) [Field F] [DecidableEq F] : Prop :=
  ∀ (E : Curve F) (H : Oracle F E.G1) (vp : VerifierParam E) (comms : List E.G1) (points : List (List F)) (proof : BatchProof E)
    (tr tr' : Transcript F E.G1), batchVerify H vp comms points proof tr = .ok (true, tr') →
    ∀ t tr1 sum sub tr2, tr.challenges H "t" (log2Ceil comms.length) = .ok (t, tr1) →
      sumcheckVerify H sum proof.sumCheckProof 2 proof.sumCheckProof.point.length tr1 = .ok (sub, tr2) →
      proof.sumCheckProof.point = sub.point

theorem accepted_zero (n : Nat) (cs : List F) (hcs : cs.length = n) :
    Accepted 2 (0 : F) (List.replicate n [0, 0, 0]) cs 0 := by
  induction n generalizing cs with
  | zero =>
    obtain rfl : cs = [] := by simpa using hcs
    simp [Accepted]
  | succ n ih =>
    cases cs with
    | nil => simp at hcs
    | cons c cs =>
      rw [List.replicate_succ]
      refine ⟨0, ⟨by simp, by simp, ?_⟩, by simp, ?_⟩
      · intro i hi
        have : i = 0 ∨ i = 1 ∨ i = 2 := by omega
        rcases this with rfl | rfl | rfl <;> simp
      · simpa using ih cs (by simpa using hcs)

/-- C32, how it fails: for every curve, oracle, parameters and commitments whatsoever, at a shared point with a coordinate other than 1/2, there
is a proof for which the verifier accepts the value 0 for all of them, as long as no sumcheck challenge is 0, 1 or 2.  The proof embeds a
point at which `eq` vanishes, instead of the derived one. -/
theorem C32_forgery (H : Oracle F E.G1) (vp : VerifierParam E) (comms : List E.G1) (hk : 2 ≤ comms.length) (pt : List F)
    (hvp : pt.length ≤ vp.numVars) (hmask : vp.hMask.length = vp.numVars) (j : Nat) (hj : j < pt.length)
    (hhalf : 2 * pt.getD j 0 ≠ 1) (hchar : NatsNonzero F 2) (tr : Transcript F E.G1) (htr : tr.isEmpty = false) :
    ∃ proof : BatchProof E, proof.evals = List.replicate comms.length 0 ∧ proof.sumCheckProof.point.length = pt.length ∧
      ∃ t tr1, tr.challenges H "t" (log2Ceil comms.length) = .ok (t, tr1) ∧
        ((∀ c ∈ (roundChals H proof.sumCheckProof.proofs (tr1.append "aux info" (.aux 2 pt.length))).1, ∀ i : Nat, i ≤ 2 → c ≠ (i : F)) →
          ∃ tr', batchVerify H vp comms (List.replicate comms.length pt) proof tr = .ok (true, tr')) := by
  set k := comms.length with hkdef
  set n := pt.length with hndef
  let p := pt.getD j 0
  let a2 : List F := pt.set j ((p - 1) / (2 * p - 1))
  have ha2l : a2.length = n := by simp [a2, hndef]
  have hd : 2 * p - 1 ≠ 0 := sub_ne_zero.2 hhalf
  have heq : eqPoly a2 pt = 0 := by
    unfold eqPoly
    apply Finset.prod_eq_zero (i := j) (by rw [ha2l]; exact Finset.mem_range.2 hj)
    have h1 : a2.getD j 0 = (p - 1) / (2 * p - 1) := by
      have hj' : j < pt.length := hj
      simp only [a2, List.getD_eq_getElem?_getD]
      rw [List.getElem?_set_self hj']
      rfl
    rw [h1]
    show (p - 1) / (2 * p - 1) * p + (1 - (p - 1) / (2 * p - 1)) * (1 - p) = 0
    have h2 : (p - 1) / (2 * p - 1) * (2 * p - 1) = p - 1 := div_mul_cancel₀ _ hd
    linear_combination h2
  obtain ⟨t, tr1, ht, htl, _⟩ := challenges_ok H "t" (log2Ceil k) tr htr
  have htne : t ≠ [] := by
    rintro rfl
    have := log2Ceil_pos hk
    simp at htl; omega
  have heqT : buildEqVec t = .ok ((List.range (2 ^ t.length)).map (eqWeight t)) := buildEqHelper_spec t htne
  set eqT := (List.range (2 ^ t.length)).map (eqWeight t) with heqTdef
  have hkT : k ≤ eqT.length := by
    rw [heqTdef]; simp only [List.length_map, List.length_range]; rw [htl]; exact le_two_pow_log2Ceil k
  refine ⟨⟨⟨a2, List.replicate n [0, 0, 0]⟩, List.replicate k 0, List.replicate n 0⟩, rfl, ha2l, t, tr1, ht, ?_⟩
  intro havoid
  simp only at havoid
  have hgc : gPrimeCommit a2 eqT comms (List.replicate k pt) = .ok 0 := by
    unfold gPrimeCommit
    rw [mapM_ok (g := fun _ => 0), ok_bind]
    · simp
    · intro pi hpi
      rw [zipIdx_range _ []] at hpi
      obtain ⟨i, hi, rfl⟩ := List.mem_map.1 hpi
      simp only [List.length_replicate, List.mem_range] at hi
      have hpi : (List.replicate k pt).getD i [] = pt := by
        simp [List.getD_eq_getElem?_getD, hi]
      simp only
      rw [hpi, eqEval_eq _ _ (by rw [ha2l]), ok_bind, idx_getD (by omega), ok_bind, idx_ok (a := comms[i]) (by
        simp), ok_bind, heq, zero_mul, zero_smul]
  have hterms : ((eqT.take k).zipIdx.mapM fun ei => (do
      let v ← idx (List.replicate k (0 : F)) ei.2
      .ok (ei.1 * v) : Res F)) = .ok ((eqT.take k).zipIdx.map fun _ => (0 : F)) := by
    apply mapM_ok
    intro ei hei
    rw [zipIdx_range _ 0] at hei
    obtain ⟨i, hi, rfl⟩ := List.mem_map.1 hei
    have hi' : i < k := by
      rw [List.mem_range, List.length_take] at hi; omega
    rw [idx_ok (a := 0) (by simp [hi']), ok_bind, mul_zero]
  have hsc : sumcheckVerify H (0 : F) ⟨a2, List.replicate n [0, 0, 0]⟩ 2 n tr1 =
      .ok (⟨(roundChals H (List.replicate n [0, 0, 0]) (tr1.append "aux info" (.aux 2 n))).1, 0⟩,
        (roundChals H (List.replicate n [0, 0, 0]) (tr1.append "aux info" (.aux 2 n))).2) := by
    rw [sumcheckVerify_iff H _ _ _ _ (by omega) hchar]
    have : (List.replicate n ([0, 0, 0] : List F)).take n = List.replicate n [0, 0, 0] := by
      rw [List.take_of_length_le (by simp)]
    simp only [this]
    exact ⟨by omega, by simp, trivial, trivial, havoid, accepted_zero n _ (by rw [roundChals_length]; simp)⟩
  have hver : kzgVerify vp (0 : E.G1) a2 0 (List.replicate n 0) = .ok true := by
    unfold kzgVerify
    rw [if_neg (by omega)]
    simp only
    rw [mapM_ok (g := fun i => vp.hMask.getD (vp.numVars - a2.length + i) 0 - a2.getD i 0 • vp.h), ok_bind]
    · congr 1
      rw [decide_eq_true_iff]
      have : ∀ (m : Nat) (l : List E.G2), (List.zipWith (fun x y => E.e x y) (List.replicate m (0 : E.G1)) l).sum = 0 := by
        intro m
        induction m with
        | zero => simp
        | succ m ih =>
          intro l
          cases l with
          | nil => simp
          | cons y l => simp [List.replicate_succ, ih]
      rw [this]
      simp
    · intro i hi
      rw [List.mem_range] at hi
      rw [idx_ok (a := vp.hMask.getD (vp.numVars - a2.length + i) 0) (by
          have : vp.numVars - a2.length + i < vp.hMask.length := by omega
          simp [List.getD_eq_getElem?_getD, this]), ok_bind, idx_getD hi, ok_bind]
  refine ⟨(roundChals H (List.replicate n [0, 0, 0]) (tr1.append "aux info" (.aux 2 n))).2, ?_⟩
  unfold batchVerify
  simp only [← hkdef, ht, ok_bind, heqT, hgc, hterms, ha2l]
  rw [show ((eqT.take k).zipIdx.map fun _ => (0 : F)).sum = 0 by simp, hsc]
  simp only [wrapSumcheck, ok_bind, hver]

/-- The forged proof on concrete data: two commitments to the constant polynomial 1, claimed values 0. -/
def exForged : BatchProof (fieldCurve (ZMod 7)) := ⟨⟨[1], [[0, 0, 0]]⟩, [0, 0], [(0 : ZMod 7)]⟩

def exForgedH : Oracle (ZMod 7) (fieldCurve (ZMod 7)).G1 := fun _ _ => 5
def exForgedTr : Transcript (ZMod 7) (fieldCurve (ZMod 7)).G1 := (Transcript.new "t").append "a" (.bytes [])

/-- C32, concretely: the true values are 1, the claimed ones 0, and the verifier accepts. -/
theorem C32_false_values_accepted :
    kzgCommit (proverParamOf (E := fieldCurve (ZMod 7)) (1 : ZMod 7) (1 : ZMod 7) [3]) ⟨1, [1, 1]⟩ = .ok (1 : ZMod 7) ∧
    (⟨1, [1, 1]⟩ : Mle (ZMod 7)).evaluate [0] = some 1 ∧ exForged.evals = [0, 0] ∧
    (batchVerify exForgedH (verifierParamOf (E := fieldCurve (ZMod 7)) (1 : ZMod 7) (1 : ZMod 7) [3]) [(1 : ZMod 7), (1 : ZMod 7)]
      [[0], [0]] exForged exForgedTr).toOption.map (·.1) = some true := by decide +kernel

/-- C32 is false. -/
theorem C32_violated : ¬ C32_statement (ZMod 7) := by
  intro hall
  have h1 : (batchVerify exForgedH (verifierParamOf (E := fieldCurve (ZMod 7)) (1 : ZMod 7) (1 : ZMod 7) [3]) [(1 : ZMod 7), (1 : ZMod 7)]
      [[0], [0]] exForged exForgedTr).toOption.map (·.1) = some true := by decide +kernel
  rcases h2 : batchVerify exForgedH (verifierParamOf (E := fieldCurve (ZMod 7)) (1 : ZMod 7) (1 : ZMod 7) [3]) [(1 : ZMod 7), (1 : ZMod 7)]
      [[0], [0]] exForged exForgedTr with e | ⟨b, tr'⟩
  · rw [h2] at h1; simp [Except.toOption] at h1
  · rw [h2] at h1
    have hb : b = true := by simpa [Except.toOption] using h1
    subst hb
    have h3 : (do
        let (_, tr1) ← exForgedTr.challenges exForgedH "t" (log2Ceil 2)
        let (sub, _) ← sumcheckVerify exForgedH 0 exForged.sumCheckProof 2 1 tr1
        .ok sub.point : Res (List (ZMod 7))) = .ok [5] := by decide +kernel
    rcases h4 : exForgedTr.challenges exForgedH "t" (log2Ceil 2) with e | ⟨t, tr1⟩
    · rw [h4] at h3; simp at h3
    · rw [h4] at h3
      simp only [ok_bind] at h3
      rcases h5 : sumcheckVerify exForgedH 0 exForged.sumCheckProof 2 1 tr1 with e | ⟨sub, tr2⟩
      · rw [h5] at h3; simp at h3
      · rw [h5] at h3
        simp only [ok_bind, Except.ok.injEq] at h3
        have := hall _ _ _ _ _ _ _ _ h2 t tr1 0 sub tr2 h4 h5
        rw [h3] at this
        exact absurd this (by decide)

/-- C32, what the verifier does guarantee: if it accepts, the embedded point is the derived one, and the value it opened is the right one for
the committed polynomials, then either the eq-weighted sum of the claimed values is right, or some round's challenge is one at which the
polynomial sent and the true, different one (both of degree at most 2) agree.
Missing from the full property: the verifier does not check that the embedded point is the derived one. -/
theorem C32_bound_partial (H : Oracle F E.G1) (vp : VerifierParam E) (n : Nat) (polys : List (Mle F))
    (comms : List E.G1) (hcl : comms.length = polys.length) (points : List (List F))
    (hpl : points.length = polys.length) (hpts : ∀ x ∈ points, x.length = n) (hchar : NatsNonzero F 2)
    (proof : BatchProof E) (hn : proof.sumCheckProof.point.length = n) (hevl : proof.evals.length = polys.length) (tr tr' : Transcript F E.G1)
    (hacc : batchVerify H vp comms points proof tr = .ok (true, tr')) :
    ∃ t tr1 sub, tr.challenges H "t" (log2Ceil comms.length) = .ok (t, tr1) ∧
      sumcheckVerify H (∑ i ∈ Finset.range polys.length, eqWeight t i * proof.evals.getD i 0) proof.sumCheckProof 2 n tr1 = .ok (sub, tr') ∧
      (sub.point = proof.sumCheckProof.point →
        sub.expectedEvaluation = ∑ i ∈ Finset.range polys.length,
          eqWeight t i * (mle (polys.getD i Mle.zero).tbl sub.point * eqPoly sub.point (points.getD i [])) →
        (∑ i ∈ Finset.range polys.length, eqWeight t i * proof.evals.getD i 0 =
          ∑ i ∈ Finset.range polys.length, eqWeight t i * mle (polys.getD i Mle.zero).tbl (points.getD i [])) ∨
        ∃ k m c q g, proof.sumCheckProof.proofs[k]? = some m ∧ sub.point[k]? = some c ∧ IsMessagePoly 2 m q ∧
          IsRoundPoly (fun x => ∑ i ∈ Finset.range polys.length,
            eqWeight t i * (mle (polys.getD i Mle.zero).tbl x * eqPoly x (points.getD i []))) n 2 (sub.point.take k) g ∧
          q ≠ g ∧ q.eval c = g.eval c) := by
  unfold batchVerify at hacc
  dsimp only at hacc
  rcases ht : tr.challenges H "t" (log2Ceil comms.length) with e | ⟨t, tr1⟩
  · rw [ht] at hacc; simp at hacc
  rw [ht] at hacc
  simp only [ok_bind] at hacc
  have htl : t.length = log2Ceil comms.length := by
    have hne : tr.isEmpty = false := by
      by_contra hcon
      simp only [Bool.not_eq_false] at hcon
      simp [Transcript.challenges, hcon] at ht
    obtain ⟨t', tr1', h1, h2, _⟩ := challenges_ok H "t" (log2Ceil comms.length) tr hne
    rw [ht] at h1
    injection h1 with h1
    injection h1 with h1 _
    rw [h1, h2]
  have htne : t ≠ [] := by
    rintro rfl
    simp [buildEqVec, buildEqHelper] at hacc
  rw [show buildEqVec t = .ok ((List.range (2 ^ t.length)).map (eqWeight t)) from buildEqHelper_spec t htne, ok_bind] at hacc
  rcases hgc : gPrimeCommit proof.sumCheckProof.point ((List.range (2 ^ t.length)).map (eqWeight t)) comms points with e | gc
  · rw [hgc] at hacc; simp at hacc
  rw [hgc, ok_bind] at hacc
  have hk2 : comms.length ≤ 2 ^ t.length := by rw [htl]; exact le_two_pow_log2Ceil _
  have hterms : ((((List.range (2 ^ t.length)).map (eqWeight t)).take comms.length).zipIdx.mapM fun ei => (do
      let v ← idx proof.evals ei.2
      .ok (ei.1 * v) : Res F)) = .ok ((List.range comms.length).map fun i => eqWeight t i * proof.evals.getD i 0) := by
    have hl : (((List.range (2 ^ t.length)).map (eqWeight t)).take comms.length).length = comms.length := by simp; omega
    rw [zipIdx_range _ 0, hl, mapM_ok (g := fun ei => ei.1 * proof.evals.getD ei.2 0)]
    · rw [List.map_map]
      congr 1
      apply List.map_congr_left
      intro i hi
      rw [List.mem_range] at hi
      have : i < 2 ^ t.length := by omega
      simp [List.getD_eq_getElem?_getD, hi, this]
    · intro ei hei
      obtain ⟨i, hi, rfl⟩ := List.mem_map.1 hei
      rw [List.mem_range] at hi
      simp only
      rw [idx_getD (by omega), ok_bind]
  rw [hterms, ok_bind, list_sum_range_gen, hn, hcl] at hacc
  rcases hsc : sumcheckVerify H (∑ i ∈ Finset.range polys.length, eqWeight t i * proof.evals.getD i 0) proof.sumCheckProof 2 n tr1
    with e | ⟨sub, tr2⟩
  · rw [hsc] at hacc
    cases e <;> simp [wrapSumcheck] at hacc
  rw [hsc] at hacc
  simp only [wrapSumcheck, ok_bind] at hacc
  have htr2 : tr2 = tr' := by
    rcases hkv : kzgVerify vp gc proof.sumCheckProof.point sub.expectedEvaluation proof.gPrimeProof with e | b
    · rw [hkv] at hacc; simp at hacc
    · rw [hkv] at hacc
      simp only [ok_bind, Except.ok.injEq, Prod.mk.injEq] at hacc
      exact hacc.2
  subst htr2
  refine ⟨t, tr1, sub, rfl, hsc, ?_⟩
  intro hpt hval
  by_cases hsum : (∑ i ∈ Finset.range polys.length, eqWeight t i * proof.evals.getD i 0 =
          ∑ i ∈ Finset.range polys.length, eqWeight t i * mle (polys.getD i Mle.zero).tbl (points.getD i []))
  · exact Or.inl hsum
  · right
    have hXl : ∀ i < polys.length, (points.getD i []).length = n := by
      intro i hi
      have hi' : i < points.length := by omega
      apply hpts
      simp only [List.getD_eq_getElem?_getD, List.getElem?_eq_getElem hi', Option.getD_some]
      exact List.getElem_mem _
    set f : List F → F := fun x => ∑ i ∈ Finset.range polys.length,
      eqWeight t i * (mle (polys.getD i Mle.zero).tbl x * eqPoly x (points.getD i [])) with hf
    have hdeg : IndivDegree f n 2 := by
      apply indivDegree_congr (g := fun x => ((List.range polys.length).map fun i =>
        eqWeight t i * (mle (polys.getD i Mle.zero).tbl x * mle (eqWeight (points.getD i [])) x)).sum)
      · intro x hx
        rw [hf, list_sum_range_gen]
        apply Finset.sum_congr rfl
        intro i hi
        rw [Finset.mem_range] at hi
        rw [mle_eqWeight _ _ (by rw [hx, hXl i hi])]
      · apply indivDegree_list_sum
        intro i _
        have := indivDegree_mul (indivDegree_const (eqWeight t i) n 0)
          (indivDegree_mul (indivDegree_mle (polys.getD i Mle.zero).tbl n) (indivDegree_mle (eqWeight (points.getD i [])) n))
        simpa using this
    have hcs : cubeSum n (fun b => f (boolPt n b)) =
        ∑ i ∈ Finset.range polys.length, eqWeight t i * mle (polys.getD i Mle.zero).tbl (points.getD i []) := by
      unfold cubeSum
      rw [hf, Finset.sum_comm]
      apply Finset.sum_congr rfl
      intro i hi
      rw [Finset.mem_range] at hi
      rw [← Finset.mul_sum, mle, hXl i hi]
      congr 1
      apply Finset.sum_congr rfl
      intro b hb
      rw [Finset.mem_range] at hb
      rw [mle_boolPt _ _ _ hb, ← mle_eqWeight _ _ (by rw [hXl i hi]; simp), mle_boolPt _ _ _ hb]
    exact C17_bad_round f n 2 (by omega) hdeg hchar _ (by rw [hcs]; exact hsum) H proof.sumCheckProof tr1 tr2 sub hsc hval.symm

/-! ## C74 -/

/-- The full property C74: two accepted batch proofs that differ only in the claimed values are equal, for two or more commitments. -/
def C74_statement (F : Type) [Field F] [DecidableEq F] : Prop :=
  ∀ (E : Curve F) (H : Oracle F E.G1) (vp : VerifierParam E) (comms : List E.G1) (points : List (List F)) (proof proof' : BatchProof E)
    (tr tr' tr'' : Transcript F E.G1), proof.evals.length = comms.length → proof'.evals.length = comms.length →
    proof.sumCheckProof = proof'.sumCheckProof → proof.gPrimeProof = proof'.gPrimeProof →
    batchVerify H vp comms points proof tr = .ok (true, tr') → batchVerify H vp comms points proof' tr = .ok (true, tr'') →
    proof.evals = proof'.evals

/-- C74, how it fails: for every accepted batch proof of at least two values there is another list of values for which the otherwise
unchanged proof is accepted, with the same final transcript: the claimed values enter only through one weighted sum whose weights do
not depend on them. -/
theorem C74_malleable (H : Oracle F E.G1) (vp : VerifierParam E) (comms : List E.G1) (points : List (List F)) (proof : BatchProof E)
    (tr tr' : Transcript F E.G1) (hk : 2 ≤ comms.length) (hl : proof.evals.length = comms.length)
    (hacc : batchVerify H vp comms points proof tr = .ok (true, tr')) :
    ∃ evals', evals' ≠ proof.evals ∧ evals'.length = proof.evals.length ∧
      batchVerify H vp comms points { proof with evals := evals' } tr = .ok (true, tr') := by
  obtain ⟨v0, v1, vs, hvs⟩ : ∃ v0 v1 vs, proof.evals = v0 :: v1 :: vs := by
    rcases hp : proof.evals with _ | ⟨v0, _ | ⟨v1, vs⟩⟩
    · rw [hp] at hl; simp at hl; omega
    · rw [hp] at hl; simp at hl; omega
    · exact ⟨v0, v1, vs, rfl⟩
  rcases ht : tr.challenges H "t" (log2Ceil comms.length) with e | ⟨t, tr1⟩
  · unfold batchVerify at hacc; dsimp only at hacc; rw [ht] at hacc; simp at hacc
  have htl : t.length = log2Ceil comms.length := by
    have hne : tr.isEmpty = false := by
      by_contra hcon
      simp only [Bool.not_eq_false] at hcon
      simp [Transcript.challenges, hcon] at ht
    obtain ⟨t', tr1', h1, h2, _⟩ := challenges_ok H "t" (log2Ceil comms.length) tr hne
    rw [ht] at h1
    injection h1 with h1
    injection h1 with h1 _
    rw [h1, h2]
  have htne : t ≠ [] := by
    rintro rfl
    have := log2Ceil_pos hk
    simp at htl; omega
  have hk2 : comms.length ≤ 2 ^ t.length := by rw [htl]; exact le_two_pow_log2Ceil _
  obtain ⟨d0, d1, hd, hd0⟩ : ∃ d0 d1 : F, eqWeight t 0 * d0 + eqWeight t 1 * d1 = 0 ∧ (d0 ≠ 0 ∨ d1 ≠ 0) := by
    by_cases h0 : eqWeight t 0 = 0
    · exact ⟨1, 0, by simp [h0], Or.inl one_ne_zero⟩
    · exact ⟨- eqWeight t 1, eqWeight t 0, by ring, Or.inr h0⟩
  have hterms : ∀ ev : List F, ev.length = comms.length → ((((List.range (2 ^ t.length)).map (eqWeight t)).take comms.length).zipIdx.mapM
      fun ei => (do
        let v ← idx ev ei.2
        .ok (ei.1 * v) : Res F)) = .ok ((List.range comms.length).map fun i => eqWeight t i * ev.getD i 0) := by
    intro ev hev
    have hl : (((List.range (2 ^ t.length)).map (eqWeight t)).take comms.length).length = comms.length := by simp; omega
    rw [zipIdx_range _ 0, hl, mapM_ok (g := fun ei => ei.1 * ev.getD ei.2 0)]
    · rw [List.map_map]
      congr 1
      apply List.map_congr_left
      intro i hi
      rw [List.mem_range] at hi
      have : i < 2 ^ t.length := by omega
      simp [List.getD_eq_getElem?_getD, hi, this]
    · intro ei hei
      obtain ⟨i, hi, rfl⟩ := List.mem_map.1 hei
      rw [List.mem_range] at hi
      simp only
      rw [idx_getD (by omega), ok_bind]
  have hl' : ((v0 + d0) :: (v1 + d1) :: vs).length = comms.length := by rw [← hl, hvs]; simp
  refine ⟨(v0 + d0) :: (v1 + d1) :: vs, ?_, by rw [hvs]; simp, ?_⟩
  · rw [hvs]
    intro h0
    injection h0 with e1 e2
    injection e2 with e2 _
    rcases hd0 with h | h
    · exact h (by simpa using e1)
    · exact h (by simpa using e2)
  · rw [← hacc]
    unfold batchVerify
    dsimp only
    rw [ht]
    simp only [ok_bind]
    rw [show buildEqVec t = .ok ((List.range (2 ^ t.length)).map (eqWeight t)) from buildEqHelper_spec t htne]
    simp only [ok_bind]
    rw [hterms _ hl', hterms _ hl]
    simp only [ok_bind]
    have : ((List.range comms.length).map fun i => eqWeight t i * ((v0 + d0) :: (v1 + d1) :: vs).getD i 0).sum =
        ((List.range comms.length).map fun i => eqWeight t i * proof.evals.getD i 0).sum := by
      obtain ⟨m, hm⟩ : ∃ m, comms.length = m + 2 := ⟨comms.length - 2, by omega⟩
      rw [hvs, list_sum_range_gen, list_sum_range_gen, hm, Finset.sum_range_succ', Finset.sum_range_succ', Finset.sum_range_succ',
        Finset.sum_range_succ']
      simp only [List.getD_cons_succ, List.getD_cons_zero, Nat.zero_add]
      linear_combination hd
    rw [this]

/-- Any accepted proof of two values refutes C74. -/
theorem C74_not_of_accepted (H : Oracle F E.G1) (vp : VerifierParam E) (comms : List E.G1) (points : List (List F)) (proof : BatchProof E)
    (tr tr' : Transcript F E.G1) (hk : 2 ≤ comms.length) (hl : proof.evals.length = comms.length)
    (hacc : batchVerify H vp comms points proof tr = .ok (true, tr')) : ¬ C74_statement F := by
  intro hall
  obtain ⟨ev, h3, h4, h5⟩ := C74_malleable H vp comms points proof tr tr' hk hl hacc
  exact h3 (hall E H vp comms points proof { proof with evals := ev } tr tr' tr' hl (h4.trans hl) rfl rfl hacc h5).symm

/-- C74 is false. -/
theorem C74_violated : ¬ C74_statement (ZMod 7) := by
  have h1 := C32_false_values_accepted.2.2.2
  rcases h2 : batchVerify exForgedH (verifierParamOf (E := fieldCurve (ZMod 7)) (1 : ZMod 7) (1 : ZMod 7) [3]) [(1 : ZMod 7), (1 : ZMod 7)]
      [[0], [0]] exForged exForgedTr with e | ⟨b, tr'⟩
  · rw [h2] at h1; simp [Except.toOption] at h1
  · rw [h2] at h1
    have hb : b = true := by simpa [Except.toOption] using h1
    subst hb
    exact C74_not_of_accepted exForgedH _ _ _ exForged exForgedTr tr' (le_refl 2) (Eq.refl 2) h2

/-- C74, what holds: the values of an accepted proof, otherwise unchanged, are fixed up to the eq-weighted sum: two accepted lists of values
have the same weighted sum.  For one value this would bind it; for more it does not.
Missing from the full property: the values are not absorbed before the weights are drawn. -/
theorem C74_sum_bound_partial (H : Oracle F E.G1) (claim claim' : F) (pf : IOPProof F) (d n : Nat) (hd : 0 < d) (hchar : NatsNonzero F d)
    (tr tr' tr'' : Transcript F E.G1) (sub sub' : SubClaim F) (h1 : sumcheckVerify H claim pf d n tr = .ok (sub, tr'))
    (h2 : sumcheckVerify H claim' pf d n tr = .ok (sub', tr'')) : claim = claim' := by
  obtain ⟨hn, hlen, a1, _, _, a4⟩ := (sumcheckVerify_iff H claim pf d n hd hchar tr tr' sub).1 h1
  obtain ⟨_, _, b1, _, _, b4⟩ := (sumcheckVerify_iff H claim' pf d n hd hchar tr tr'' sub').1 h2
  rcases hm : pf.proofs.take n with _ | ⟨m, ms⟩
  · have := congrArg List.length hm
    rw [List.length_take, List.length_nil] at this
    omega
  · simp only [hm, roundChals, Accepted] at a4 b4
    obtain ⟨q, hq, hqs, _⟩ := a4
    obtain ⟨q', hq', hqs', _⟩ := b4
    rw [← hqs, ← hqs', messagePoly_unique hchar hq hq']

/-- Only the weighted sum of the claimed values enters the check. -/
theorem batchVerify_weighted (H : Oracle F E.G1) (vp : VerifierParam E) (comms : List E.G1) (points : List (List F)) (proof : BatchProof E)
    (tr tr1 : Transcript F E.G1) (t : List F) (hk : 2 ≤ comms.length) (hl : proof.evals.length = comms.length)
    (ht : tr.challenges H "t" (log2Ceil comms.length) = .ok (t, tr1)) :
    batchVerify H vp comms points proof tr =
      (gPrimeCommit proof.sumCheckProof.point ((List.range (2 ^ t.length)).map (eqWeight t)) comms points >>= fun gc =>
        wrapSumcheck (sumcheckVerify H (∑ i ∈ Finset.range comms.length, eqWeight t i * proof.evals.getD i 0) proof.sumCheckProof 2
          proof.sumCheckProof.point.length tr1) >>= fun r =>
        kzgVerify vp gc proof.sumCheckProof.point r.1.expectedEvaluation proof.gPrimeProof >>= fun res => .ok (res, r.2)) := by
  have hne : tr.isEmpty = false := by
    by_contra hcon
    simp only [Bool.not_eq_false] at hcon
    simp [Transcript.challenges, hcon] at ht
  have htl : t.length = log2Ceil comms.length := by
    obtain ⟨t', tr1', h1, h2, _⟩ := challenges_ok H "t" (log2Ceil comms.length) tr hne
    rw [ht] at h1
    injection h1 with h1
    injection h1 with h1 _
    rw [h1, h2]
  have htne : t ≠ [] := by
    rintro rfl
    have := log2Ceil_pos hk
    simp at htl; omega
  have hk2 : comms.length ≤ 2 ^ t.length := by rw [htl]; exact le_two_pow_log2Ceil _
  have hterms : ((((List.range (2 ^ t.length)).map (eqWeight t)).take comms.length).zipIdx.mapM
      fun ei => (do
        let v ← idx proof.evals ei.2
        .ok (ei.1 * v) : Res F)) = .ok ((List.range comms.length).map fun i => eqWeight t i * proof.evals.getD i 0) := by
    have hl : (((List.range (2 ^ t.length)).map (eqWeight t)).take comms.length).length = comms.length := by simp; omega
    rw [zipIdx_range _ 0, hl, mapM_ok (g := fun ei => ei.1 * proof.evals.getD ei.2 0)]
    · rw [List.map_map]
      congr 1
      apply List.map_congr_left
      intro i hi
      rw [List.mem_range] at hi
      have : i < 2 ^ t.length := by omega
      simp [List.getD_eq_getElem?_getD, hi, this]
    · intro ei hei
      obtain ⟨i, hi, rfl⟩ := List.mem_map.1 hei
      rw [List.mem_range] at hi
      simp only
      rw [idx_getD (by omega), ok_bind]
  unfold batchVerify
  dsimp only
  rw [ht]
  simp only [ok_bind]
  rw [show buildEqVec t = .ok ((List.range (2 ^ t.length)).map (eqWeight t)) from buildEqHelper_spec t htne]
  simp only [ok_bind]
  rw [hterms]
  simp only [ok_bind, list_sum_range_gen]

theorem res_bind_ok {α β : Type} {r : Res α} {f : α → Res β} {b : β} (h : (r >>= f) = .ok b) : ∃ a, r = .ok a ∧ f a = .ok b := by
  cases r with
  | error _ => cases h
  | ok a => exact ⟨a, rfl, h⟩

theorem wrapSumcheck_ok {α : Type} {r : Res α} {x : α} (h : wrapSumcheck r = .ok x) : r = .ok x := by
  rcases r with (_ | _) | y
  · cases h
  · cases h
  · exact h

/-- C74, which values are accepted.  With the rest of an accepted proof of at least two values fixed, another list of values is accepted exactly if its sum, weighted with
the eq-weights of the challenges drawn before the check, is the same.  Missing from the full property: that the values themselves are the same.  (`C32_false_values_accepted` is such an accepted proof.) -/
theorem C74_accepted_values_partial (H : Oracle F E.G1) (vp : VerifierParam E) (comms : List E.G1) (points : List (List F)) (proof : BatchProof E)
    (h1 : (1 : F) + 1 ≠ 0) (tr tr' : Transcript F E.G1) (hk : 2 ≤ comms.length) (hl : proof.evals.length = comms.length)
    (hacc : batchVerify H vp comms points proof tr = .ok (true, tr')) :
    ∃ t tr1, tr.challenges H "t" (log2Ceil comms.length) = .ok (t, tr1) ∧ ∀ evals' : List F, evals'.length = comms.length →
      ((∃ tr'', batchVerify H vp comms points { proof with evals := evals' } tr = .ok (true, tr'')) ↔
        ∑ i ∈ Finset.range comms.length, eqWeight t i * evals'.getD i 0 = ∑ i ∈ Finset.range comms.length, eqWeight t i * proof.evals.getD i 0) := by
  have hchar : NatsNonzero F 2 := by
    intro i a b
    obtain rfl | rfl : i = 1 ∨ i = 2 := by omega
    · simp
    · have : ((2 : Nat) : F) = 1 + 1 := by norm_num
      rw [this]; exact h1
  rcases ht : tr.challenges H "t" (log2Ceil comms.length) with e | ⟨t, tr1⟩
  · unfold batchVerify at hacc; dsimp only at hacc; rw [ht] at hacc; simp at hacc
  refine ⟨t, tr1, rfl, fun ev hev => ⟨fun ⟨tr'', hacc'⟩ => ?_, fun he => ⟨tr', ?_⟩⟩⟩
  · rw [batchVerify_weighted H vp comms points _ tr tr1 t hk hl ht] at hacc
    rw [batchVerify_weighted H vp comms points _ tr tr1 t hk hev ht] at hacc'
    obtain ⟨_, _, hb⟩ := res_bind_ok hacc
    obtain ⟨r, hr, _⟩ := res_bind_ok hb
    obtain ⟨_, _, hb'⟩ := res_bind_ok hacc'
    obtain ⟨r', hr', _⟩ := res_bind_ok hb'
    exact C74_sum_bound_partial H _ _ _ 2 _ (by decide) hchar tr1 r'.2 r.2 r'.1 r.1 (wrapSumcheck_ok hr') (wrapSumcheck_ok hr)
  · rw [batchVerify_weighted H vp comms points _ tr tr1 t hk hl ht] at hacc
    rw [batchVerify_weighted H vp comms points _ tr tr1 t hk hev ht]
    dsimp only
    rw [he]
    exact hacc

end Zksql
