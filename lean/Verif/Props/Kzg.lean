import Verif.Lemmas.Kzg
import Verif.Props.SumCheck
import Mathlib.Algebra.Algebra.Bilinear
/-!
Property theorems C27-C30, C75, C76: the multilinear KZG commitment scheme.
-/
set_option linter.unusedSectionVars false
namespace Zksql
open Spec
variable {F : Type} [Field F] {E : Curve F}

/-- A curve whose groups are the scalar field itself: witnesses for the examples. -/
@[reducible] def fieldCurve (F : Type) [Field F] [DecidableEq F] : Curve F where
  G1 := F
  G2 := F
  GT := F
  e := LinearMap.mul F F

/-! ## C27 -/

/-- C27: for every trapdoor and generators, every supported size `k`, every polynomial with at most `k` variables and every point of
its size: commitment, opening and verification succeed, and the opened value is the value of the polynomial. -/
theorem C27_completeness [DecidableEq E.G1] (g : E.G1) (h : E.G2) (t : List F) (ht : t ≠ []) (k : Nat) (hk : k ≤ t.length)
    (p : Mle F) (hp : p.WF) (hn : p.numVars ≤ k) (pt : List F) (hpt : pt.length = p.numVars) :
    ∃ srs ck vk c pf, genSrs E g h t = .ok srs ∧ pcsTrim srs none (some k) = .ok (ck, vk) ∧ kzgCommit ck p = .ok c ∧
      kzgOpen ck p pt = .ok (pf, mle p.tbl pt) ∧ pf.length = p.numVars ∧
      kzgVerify vk c pt (mle p.tbl pt) pf = .ok true := by
  have hl : (t.drop (t.length - k)).length = k := by simp; omega
  refine ⟨_, _, _, _, _, genSrs_spec g h t ht, trim_spec g h t k hk, kzgCommit_spec g h _ p hp (by omega),
    kzgOpen_spec g h _ p hp (by omega) pt hpt, ?_, ?_⟩
  · generalize hT : (t.drop (t.length - k)).drop ((t.drop (t.length - k)).length - p.numVars) = T
    have hTl : T.length = pt.length := by rw [← hT]; simp; omega
    rw [List.length_map, ← hpt]
    clear hT
    generalize p.tbl = f
    clear hpt
    induction T generalizing pt f with
    | nil =>
      obtain rfl : pt = [] := by simpa using hTl.symm
      rfl
    | cons a T ih =>
      cases pt with
      | nil => simp at hTl
      | cons x pt => simp [quotVals, ih pt (by simpa using hTl)]
  · rw [kzgVerify_spec g h _ _ pt _ _ (by omega), hpt]
    generalize hT : (t.drop (t.length - k)).drop ((t.drop (t.length - k)).length - p.numVars) = T
    have hTl : T.length = pt.length := by rw [← hT]; simp; omega
    have hq := quot_identity p.tbl T pt hTl
    congr 1
    rw [decide_eq_true_iff]
    have : ∀ (as ds : List F), (List.zipWith (fun x d => d • E.e x h) (as.map fun a => a • g) ds).sum =
        (List.zipWith (fun a d => d * a) as ds).sum • E.e g h := by
      intro as
      induction as with
      | nil => simp
      | cons a as ih =>
        intro ds
        cases ds with
        | nil => simp
        | cons d ds => simp [ih, add_smul, mul_smul]
    rw [this, ← hq, ← sub_smul, map_smul, LinearMap.smul_apply, ← add_smul]
    simp

/-- C27: commitments are additive: the commitment to a linear combination is the combination of the commitments. -/
theorem C27_homomorphic [DecidableEq E.G1] (g : E.G1) (h : E.G2) (t : List F) (ht : t ≠ []) (k : Nat) (hk : k ≤ t.length)
    (n : Nat) (hn : n ≤ k) (a b c : Mle F) (ha : a.WF) (hb : b.WF) (hc : c.WF) (hna : a.numVars = n) (hnb : b.numVars = n)
    (hnc : c.numVars = n) (x y : F) (hcomb : ∀ i < 2 ^ n, c.tbl i = x * a.tbl i + y * b.tbl i) :
    ∃ srs ck vk ca cb, genSrs E g h t = .ok srs ∧ pcsTrim srs none (some k) = .ok (ck, vk) ∧ kzgCommit ck a = .ok ca ∧
      kzgCommit ck b = .ok cb ∧ kzgCommit ck c = .ok (x • ca + y • cb) := by
  have hl : (t.drop (t.length - k)).length = k := by simp; omega
  refine ⟨_, _, _, _, _, genSrs_spec g h t ht, trim_spec g h t k hk, kzgCommit_spec g h _ a ha (by omega),
    kzgCommit_spec g h _ b hb (by omega), ?_⟩
  rw [kzgCommit_spec g h _ c hc (by omega), smul_smul, smul_smul, ← add_smul, hna, hnb, hnc, ← mle_smul, ← mle_smul, ← mle_add]
  congr 2
  apply mle_congr
  intro i hi
  apply hcomb
  rw [List.length_drop, hl] at hi
  rwa [show k - (k - n) = n by omega] at hi

/-! ## C28 -/

/-- C28: one commitment, point and proof verify for at most one value, whatever the commitment and proof are, with any verifier
parameters whose generators do not pair to the neutral element. -/
theorem C28_one_value (vp : VerifierParam E) (hgh : E.e vp.g vp.h ≠ 0) (comm : E.G1) (pt : List F) (proof : List E.G1) (v w : F)
    (hv : kzgVerify vp comm pt v proof = .ok true) (hw : kzgVerify vp comm pt w proof = .ok true) : v = w := by
  unfold kzgVerify at hv hw
  split at hv
  · exact absurd hv (by simp)
  · next hlt =>
    rw [if_neg hlt] at hw
    simp only at hv hw
    revert hv hw
    cases (List.range pt.length).mapM fun i => (do
      let hm ← idx vp.hMask (vp.numVars - pt.length + i)
      let p ← idx pt i
      .ok (hm - p • vp.h) : Res E.G2) with
    | error e => intro hv; simp at hv
    | ok hs =>
      intro hv hw
      simp only [ok_bind, Except.ok.injEq, decide_eq_true_iff] at hv hw
      have h1 := add_left_cancel (hv.trans hw.symm)
      have h2 : (v - w) • E.e vp.g vp.h = 0 := by
        have h3 : E.e (v • vp.g - comm) vp.h - E.e (w • vp.g - comm) vp.h = 0 := by rw [h1, sub_self]
        rw [← LinearMap.sub_apply, ← map_sub, sub_sub_sub_cancel_right, ← sub_smul, map_smul, LinearMap.smul_apply] at h3
        exact h3
      rcases smul_eq_zero.1 h2 with h3 | h3
      · exact sub_eq_zero.1 h3
      · exact absurd h3 hgh

/-- C28: an honest commitment with its honest opening verifies for the polynomial's value and for no other value. -/
theorem C28_wrong_value_rejected [DecidableEq E.G1] (g : E.G1) (h : E.G2) (hgh : E.e g h ≠ 0) (t : List F) (ht : t ≠ [])
    (k : Nat) (hk : k ≤ t.length) (p : Mle F) (hp : p.WF) (hn : p.numVars ≤ k) (pt : List F) (hpt : pt.length = p.numVars) (v : F) :
    ∃ srs ck vk c pf w, genSrs E g h t = .ok srs ∧ pcsTrim srs none (some k) = .ok (ck, vk) ∧ kzgCommit ck p = .ok c ∧
      kzgOpen ck p pt = .ok (pf, w) ∧ (kzgVerify vk c pt v pf = .ok true ↔ v = mle p.tbl pt) := by
  obtain ⟨srs, ck, vk, c, pf, h1, h2, h3, h4, _, h5⟩ := C27_completeness g h t ht k hk p hp hn pt hpt
  refine ⟨srs, ck, vk, c, pf, _, h1, h2, h3, h4, ?_, ?_⟩
  · intro hv
    have hs := genSrs_spec (E := E) g h t ht
    rw [h1] at hs
    injection hs with hs
    have h6 : pcsTrim srs none (some k) = .ok (proverParamOf g h (t.drop (t.length - k)), verifierParamOf g h (t.drop (t.length - k))) := by
      rw [hs]; exact trim_spec g h t k hk
    rw [h2] at h6
    injection h6 with h6
    injection h6 with _ h7
    exact C28_one_value vk (by rw [h7]; exact hgh) c pt pf v _ hv h5
  · rintro rfl; exact h5

example : (genSrs (fieldCurve (ZMod 7)) (3 : ZMod 7) (2 : ZMod 7) [4, 5]).isOk = true := by decide +kernel
example : (fieldCurve (ZMod 7)).e (3 : ZMod 7) (2 : ZMod 7) ≠ (0 : ZMod 7) := by decide +kernel
example : (do
    let srs ← genSrs (fieldCurve (ZMod 7)) (3 : ZMod 7) (2 : ZMod 7) [4, 5, 6]
    let (ck, vk) ← pcsTrim srs none (some 2)
    let c ← kzgCommit ck ⟨2, [1, 2, 3, 5]⟩
    let (pf, v) ← kzgOpen ck ⟨2, [1, 2, 3, 5]⟩ [3, 4]
    let b ← kzgVerify vk c [3, 4] v pf
    let b' ← kzgVerify vk c [3, 4] (v + 1) pf
    .ok (v, b, b') : Res (ZMod 7 × Bool × Bool)) = .ok (3, true, false) := by decide +kernel

/-! ## C29 -/

/-- C29: parameter generation: level `i` holds the table of `eq(., t_i, .., t_{n-1})` in the exponent of `g`, for each `i ≤ n`. -/
theorem C29_generation [DecidableEq E.G1] (g : E.G1) (h : E.G2) (t : List F) (ht : t ≠ []) :
    ∃ srs, genSrs E g h t = .ok srs ∧ srs.proverParam.numVars = t.length ∧ srs.proverParam.g = g ∧ srs.proverParam.h = h ∧
      srs.hMask = t.map (· • h) ∧ srs.proverParam.powersOfG.length = t.length + 1 ∧
      ∀ i ≤ t.length, ∃ level, srs.proverParam.powersOfG[i]? = some level ∧ level.length = 2 ^ (t.length - i) ∧
        ∀ x < 2 ^ (t.length - i), level[x]? = some (eqPoly (boolPt (t.length - i) x) (t.drop i) • g) := by
  refine ⟨_, genSrs_spec g h t ht, rfl, rfl, rfl, rfl, by simp [universalParamOf, proverParamOf], ?_⟩
  intro i hi
  refine ⟨eqPowers g (t.drop i), ?_, by simp [eqPowers], ?_⟩
  · have : i < t.length + 1 := by omega
    simp [universalParamOf, proverParamOf, this]
  · intro x hx
    have : eqPoly (boolPt (t.length - i) x) (t.drop i) = eqWeight (t.drop i) x := by
      rw [← mle_eqWeight _ _ (by simp), mle_boolPt _ _ _ hx]
    rw [this]
    simp [eqPowers, hx]

/-- C29: trimming to `k ≥ 1` variables gives the parameters generated from the last `k` coordinates of the trapdoor. -/
theorem C29_trim [DecidableEq E.G1] (g : E.G1) (h : E.G2) (t : List F) (k : Nat) (hk : k ≤ t.length) (hk0 : 0 < k) :
    ∃ srs srs' ck vk, genSrs E g h t = .ok srs ∧ genSrs E g h (t.drop (t.length - k)) = .ok srs' ∧
      pcsTrim srs none (some k) = .ok (ck, vk) ∧ ck = srs'.proverParam ∧
      vk = ⟨k, g, h, (t.drop (t.length - k)).map (· • h)⟩ := by
  have ht : t ≠ [] := by rintro rfl; simp at hk; omega
  have ht' : t.drop (t.length - k) ≠ [] := by
    intro h0
    have := congrArg List.length h0
    simp at this; omega
  refine ⟨_, _, _, _, genSrs_spec g h t ht, genSrs_spec g h _ ht', trim_spec g h t k hk, rfl, ?_⟩
  unfold verifierParamOf
  congr 1
  simp; omega

/-- C29: asking for more variables than generated, for no size at all, or generating for zero variables is an error. -/
theorem C29_rejects [DecidableEq E.G1] (g : E.G1) (h : E.G2) (srs : UniversalParams E) (k : Nat) (hk : srs.proverParam.numVars < k) :
    pcsTrim srs none (some k) = .error (.err .invalidParameters) ∧
      pcsTrim srs none none = .error (.err .invalidParameters) ∧
      genSrs E g h [] = .error (.err .invalidParameters) := by
  refine ⟨?_, rfl, rfl⟩
  show trim srs k = _
  rw [trim, if_pos hk]

example : (do
    let srs ← genSrs (fieldCurve (ZMod 7)) (3 : ZMod 7) (2 : ZMod 7) [4, 5]
    .ok srs.proverParam.powersOfG : Res (List (List (ZMod 7)))) = .ok [[1, 1, 4, 4], [2, 1], [3]] := by decide +kernel

/-! ## C30 -/

/-- C30: wrong shapes are returned errors: a polynomial with more variables than the parameters, a point of the wrong length, and a
verification point longer than the parameters. -/
theorem C30_rejects (pp : ProverParam E) (vp : VerifierParam E) (p : Mle F) (pt : List F) (comm : E.G1) (v : F) (proof : List E.G1) :
    (pp.numVars < p.numVars → kzgCommit pp p = .error (.err .invalidParameters) ∧
      kzgOpen pp p pt = .error (.err .invalidParameters)) ∧
    (pt.length ≠ p.numVars → kzgOpen pp p pt = .error (.err .invalidParameters)) ∧
    (vp.numVars < pt.length → kzgVerify vp comm pt v proof = .error (.err .invalidParameters)) := by
  refine ⟨fun h => ⟨?_, ?_⟩, fun h => ?_, fun h => ?_⟩
  · rw [kzgCommit, if_pos h]
  · rw [kzgOpen, if_pos h]
  · rw [kzgOpen, if_pos (Ne.symm h)]
    split <;> rfl
  · rw [kzgVerify, if_pos h]

/-- C30: with generated parameters every well-formed input of a fitting size is handled without error or panic. -/
theorem C30_accepts (g : E.G1) (h : E.G2) (t : List F) (p : Mle F) (hp : p.WF) (hn : p.numVars ≤ t.length) (pt : List F)
    (hpt : pt.length = p.numVars) (comm : E.G1) (v : F) (proof : List E.G1) :
    (kzgCommit (proverParamOf g h t) p).isOk = true ∧ (kzgOpen (proverParamOf g h t) p pt).isOk = true ∧
      (kzgVerify (verifierParamOf g h t) comm pt v proof).isOk = true := by
  rw [kzgCommit_spec g h t p hp hn, kzgOpen_spec g h t p hp hn pt hpt, kzgVerify_spec g h t comm pt v proof (by omega)]
  exact ⟨rfl, rfl, rfl⟩

example : (proverParamOf (E := fieldCurve (ZMod 7)) (3 : ZMod 7) (2 : ZMod 7) [4]).numVars < (⟨2, [1, 2, 3, 5]⟩ : Mle (ZMod 7)).numVars := by
  decide

/-! ## C75: soundness against provers whose elements are combinations of the parameters -/

/-- C75: fix the coefficients (on the public parameters) of a commitment and of the proof elements, a point and a value.  If the polynomial the
commitment stands for does not take that value whenever its last coordinates are the point, the verifier accepts for at most
`2 n |F|^(n-1)` of the `|F|^n` trapdoors. -/
theorem C75_algebraic_soundness [Fintype F] [DecidableEq F] [DecidableEq E.G1] (g : E.G1) (h : E.G2) (hgh : E.e g h ≠ 0) (n : Nat)
    (hn : 0 < n) (pt : List F) (c : List (List F)) (as : List (List (List F))) (v : F) (t' : List F)
    (ht' : t'.length + pt.length = n) (hv : algExp c (t' ++ pt) ≠ v) (bad : Finset (Fin n → F))
    (hbad : ∀ r ∈ bad, ∃ srs ck vk, genSrs E g h (List.ofFn r) = .ok srs ∧ pcsTrim srs none (some n) = .ok (ck, vk) ∧
      kzgVerify vk (algElem ck c) pt v (as.map (algElem ck)) = .ok true) :
    bad.card ≤ n * 2 * Fintype.card F ^ (n - 1) := by
  refine alg_core n pt (by omega) (algExp c) (indivDegree_algExp c n) as v t' ht' hv bad ?_
  intro r hr
  obtain ⟨srs, ck, vk, h1, h2, h3⟩ := hbad r hr
  have hne : List.ofFn r ≠ [] := by
    intro h0
    have := congrArg List.length h0
    simp at this; omega
  rw [genSrs_spec g h _ hne] at h1
  injection h1 with h1
  subst h1
  have h4 := trim_spec g h (List.ofFn r) n (by simp)
  simp only [List.length_ofFn, Nat.sub_self, List.drop_zero] at h4
  have h5 : trim (universalParamOf g h (List.ofFn r)) n = .ok (ck, vk) := h2
  rw [h4] at h5
  injection h5 with h5
  injection h5 with h6 h7
  subst h6; subst h7
  rw [algElem_eq, show as.map (algElem (proverParamOf g h (List.ofFn r))) =
    (as.map fun a => algExp a (List.ofFn r)).map fun a => a • g by
      rw [List.map_map]; apply List.map_congr_left; intro a _; exact algElem_eq ..,
    kzgVerify_exp g h hgh _ _ pt v _ (by simp; omega)] at h3
  simpa using h3

/-- C75: an honest commitment cannot be opened to a wrong value, except for at most `2 n |F|^(n-1)` trapdoors. -/
theorem C75_honest_commitment [Fintype F] [DecidableEq F] [DecidableEq E.G1] (g : E.G1) (h : E.G2) (hgh : E.e g h ≠ 0) (n : Nat)
    (hn : 0 < n) (p : Mle F) (hp : p.WF) (pt : List F) (hpt : pt.length = p.numVars) (hpn : p.numVars ≤ n)
    (as : List (List (List F))) (v : F) (hv : mle p.tbl pt ≠ v) (bad : Finset (Fin n → F))
    (hbad : ∀ r ∈ bad, ∃ srs ck vk comm, genSrs E g h (List.ofFn r) = .ok srs ∧ pcsTrim srs none (some n) = .ok (ck, vk) ∧
      kzgCommit ck p = .ok comm ∧ kzgVerify vk comm pt v (as.map (algElem ck)) = .ok true) :
    bad.card ≤ n * 2 * Fintype.card F ^ (n - 1) := by
  have hd : ∀ t : List F, t.length = n - pt.length → (t ++ pt).drop (n - p.numVars) = pt := by
    intro t ht
    rw [List.drop_append_of_le_length (by omega), List.drop_of_length_le (by omega)]
    simp
  refine alg_core n pt (by omega) (fun t => mle p.tbl (t.drop (n - p.numVars))) (indivDegree_mle_drop _ _ n) as v
    (List.replicate (n - pt.length) 0) (by simp; omega) (by rw [hd _ (by simp)]; exact hv) bad ?_
  intro r hr
  obtain ⟨srs, ck, vk, comm, h1, h2, h8, h3⟩ := hbad r hr
  have hne : List.ofFn r ≠ [] := by
    intro h0
    have := congrArg List.length h0
    simp at this; omega
  rw [genSrs_spec g h _ hne] at h1
  injection h1 with h1
  subst h1
  have h4 := trim_spec g h (List.ofFn r) n (by simp)
  simp only [List.length_ofFn, Nat.sub_self, List.drop_zero] at h4
  have h5 : trim (universalParamOf g h (List.ofFn r)) n = .ok (ck, vk) := h2
  rw [h4] at h5
  injection h5 with h5
  injection h5 with h6 h7
  subst h6; subst h7
  rw [kzgCommit_spec g h _ p hp (by simpa using hpn)] at h8
  injection h8 with h8
  subst h8
  rw [show as.map (algElem (proverParamOf g h (List.ofFn r))) =
    (as.map fun a => algExp a (List.ofFn r)).map fun a => a • g by
      rw [List.map_map]; apply List.map_congr_left; intro a _; exact algElem_eq ..,
    kzgVerify_exp g h hgh _ _ pt v _ (by simp; omega)] at h3
  simpa using h3

/-- The bound is below the number of trapdoors for a concrete field and size, and the hypotheses on the values hold for a concrete commitment. -/
example : algExp [[1, 2], [3]] ([] ++ [(4 : ZMod 7)]) ≠ 0 ∧ 1 * 2 * Fintype.card (ZMod 7) ^ (1 - 1) < Fintype.card (Fin 1 → ZMod 7) := by
  constructor
  · decide +kernel
  · simp [ZMod.card]

/-! ## C76: commitments to different polynomials -/

/-- C76: commitments to two different polynomials in the same number of variables collide for at most `n |F|^(n-1)` trapdoors. -/
theorem C76_binding [Fintype F] [DecidableEq F] [DecidableEq E.G1] (g : E.G1) (hg : g ≠ 0) (h : E.G2) (n : Nat) (hn : 0 < n)
    (p q : Mle F) (hp : p.WF) (hq : q.WF) (hpn : p.numVars ≤ n) (hpq : p.numVars = q.numVars) (hne : p ≠ q)
    (bad : Finset (Fin n → F))
    (hbad : ∀ r ∈ bad, ∃ srs ck vk c, genSrs E g h (List.ofFn r) = .ok srs ∧ pcsTrim srs none (some n) = .ok (ck, vk) ∧
      kzgCommit ck p = .ok c ∧ kzgCommit ck q = .ok c) :
    bad.card ≤ n * 1 * Fintype.card F ^ (n - 1) := by
  obtain ⟨i, hi, hine⟩ : ∃ i < 2 ^ p.numVars, p.tbl i ≠ q.tbl i := by
    by_contra hcon
    push Not at hcon
    apply hne
    cases p with | mk pn pe => cases q with | mk qn qe =>
    simp only at hpq
    subst hpq
    congr 1
    have e1 : pe.length = 2 ^ pn := hp
    have e2 : qe.length = 2 ^ pn := hq
    apply List.ext_getElem (e1.trans e2.symm)
    intro j h1 h2
    have := hcon j (by simp only; omega)
    simpa [Mle.tbl, List.getD_eq_getElem?_getD, h1, h2] using this
  let f : List F → F := fun t => mle (fun i => p.tbl i - q.tbl i) (t.drop (n - p.numVars))
  have hf : IndivDegree f n 1 := indivDegree_mle_drop _ _ n
  have hfne : f (List.replicate (n - p.numVars) 0 ++ boolPt p.numVars i) ≠ 0 := by
    simp only [f]
    rw [List.drop_append_of_le_length (by simp), List.drop_of_length_le (by simp), List.nil_append, mle_boolPt _ _ _ hi]
    exact sub_ne_zero.2 hine
  refine le_trans (Finset.card_le_card (t := Finset.univ.filter fun r : Fin n → F => f (List.ofFn r) = 0) ?_)
    (indiv_zero_count n 1 f hf _ (by simp; omega) hfne)
  intro r hr
  rw [Finset.mem_filter]
  refine ⟨Finset.mem_univ _, ?_⟩
  obtain ⟨srs, ck, vk, c, h1, h2, h3, h8⟩ := hbad r hr
  have hne : List.ofFn r ≠ [] := by
    intro h0
    have := congrArg List.length h0
    simp at this; omega
  rw [genSrs_spec g h _ hne] at h1
  injection h1 with h1
  subst h1
  have h4 := trim_spec g h (List.ofFn r) n (by simp)
  simp only [List.length_ofFn, Nat.sub_self, List.drop_zero] at h4
  have h5 : trim (universalParamOf g h (List.ofFn r)) n = .ok (ck, vk) := h2
  rw [h4] at h5
  injection h5 with h5
  injection h5 with h6 h7
  subst h6
  rw [kzgCommit_spec g h _ p hp (by simpa using hpn)] at h3
  rw [kzgCommit_spec g h _ q hq (by simp; omega)] at h8
  injection h3 with h3
  injection h8 with h8
  rw [← h8, ← hpq, List.length_ofFn] at h3
  have h9 := sub_eq_zero.2 h3
  rw [← sub_smul, ← mle_sub] at h9
  rcases smul_eq_zero.1 h9 with h9 | h9
  · exact h9
  · exact absurd h9 hg

example : (⟨1, [1, 2]⟩ : Mle (ZMod 7)).WF ∧ (⟨1, [1, 3]⟩ : Mle (ZMod 7)).WF ∧ (⟨1, [1, 2]⟩ : Mle (ZMod 7)) ≠ ⟨1, [1, 3]⟩ := by
  refine ⟨by simp [Mle.WF], by simp [Mle.WF], by decide⟩

end Zksql
