import Verif.Lemmas.SumCheckS
/-! Helper lemmas: completeness of sumcheck and zerocheck, Schwartz-Zippel for multilinear extensions, transcripts. -/
set_option linter.unusedSectionVars false
namespace Zksql
open Spec Polynomial
variable {F C : Type} [Field F]

theorem sumcheck_complete_inv [DecidableEq F] {heap : Nat → Mle F} {vp : VirtPoly F} (h : VirtPoly.Inv heap vp)
    (hn : NatsNonzero F vp.maxDegree) (hd : 0 < vp.maxDegree) (hnv : vp.numVariables ≠ 0) (H : Oracle F C)
    (tr tr' : Transcript F C) (pf : IOPProof F) (hp : sumcheckProve H vp tr = .ok (pf, tr'))
    (havoid : ∀ c ∈ pf.point, ∀ i ≤ vp.maxDegree, c ≠ (i : F)) :
    sumcheckVerify H (partialSum vp.polyVal vp.numVariables []) pf vp.maxDegree vp.numVariables tr =
      .ok (⟨pf.point, vp.polyVal pf.point⟩, tr') := by
  have hp' := sumcheckProve_ok h hn hnv H tr
  simp only at hp'
  rw [hp'] at hp
  injection hp with hp
  injection hp with h1 h2
  subst h1; subst h2
  simp only at havoid
  rw [sumcheckVerify_iff H _ _ _ _ hd hn]
  have hl : (honestMsgs H vp.polyVal vp.numVariables vp.maxDegree vp.numVariables []
    (tr.append "aux info" (.aux vp.maxDegree vp.numVariables))).length = vp.numVariables := honestMsgs_length ..
  have htake := List.take_of_length_le hl.le
  simp only [htake]
  refine ⟨by omega, hl.ge, trivial, trivial, havoid, ?_⟩
  have := honest_accepted (indivDegree_polyVal vp h.deg_ok vp.numVariables) H vp.numVariables [] (by simp)
    (tr.append "aux info" (.aux vp.maxDegree vp.numVariables))
  simpa using this

/-- `build_f_hat` on a polynomial satisfying the representation invariant. -/
theorem buildFHat_spec {heap : Nat → Mle F} {vp : VirtPoly F} (h1 : VirtPoly.Inv heap vp) (r : List F)
    (hrl : r.length = vp.numVariables) (hpos : 0 < vp.numVariables) (fresh : Nat) (hf : ∀ a ∈ vp.flat, a.ptr ≠ fresh) :
    ∃ g heap', vp.buildFHat r fresh = .ok g ∧ VirtPoly.Inv heap' g ∧ g.maxDegree = vp.maxDegree + 1 ∧
      g.numVariables = vp.numVariables ∧
      ∀ x, x.length = vp.numVariables → g.polyVal x = vp.polyVal x * eqPoly x r := by
  have hrne : r ≠ [] := by
    intro h0; rw [h0] at hrl; simp at hrl; omega
  let heap' : Nat → Mle F := fun q => if q = fresh then eqMle r else heap q
  have h1' : VirtPoly.Inv heap' vp := by
    refine ⟨fun a ha => ?_, h1.table_ok, h1.idx_ok, h1.deg_ok, h1.ne_ok⟩
    obtain ⟨e1, e2, e3⟩ := h1.flat_ok a ha
    refine ⟨?_, e2, e3⟩
    simp only [heap', if_neg (hf a ha)]
    exact e1
  obtain ⟨s1, s2, s3, _⟩ := VirtPoly.mulByMle_spec vp ⟨fresh, eqMle r⟩ 1 h1'
    ⟨by simp [heap'], eqMle_wf r⟩
  have hnv : (eqMle r).numVars = vp.numVariables := by rw [← hrl]; rfl
  obtain ⟨t1, t2, t3⟩ := s3 hnv
  refine ⟨(vp.mulByMle ⟨fresh, eqMle r⟩ 1).2, heap', ?_, s1, t2, s2, ?_⟩
  · unfold VirtPoly.buildFHat
    rw [if_neg (by simp [hrl]), buildEq_spec r hrne]
    show tryState _ = _
    rcases hh : vp.mulByMle ⟨fresh, eqMle r⟩ 1 with ⟨a, b⟩
    rw [hh] at t1
    simp only at t1
    subst t1
    rfl
  · intro x hx
    rw [t3, one_mul]
    congr 2
    rw [← mle_eqWeight r x (by rw [hx, hrl])]
    exact mle_congr x (fun i hi => eqMle_tbl r i (by rw [hrl, ← hx]; exact hi))

theorem challengeLoop_ok (H : Oracle F C) (label : String) (n : Nat) (tr : Transcript F C) (h : tr.isEmpty = false) :
    ∃ r tr', tr.challengeLoop H label n = .ok (r, tr') ∧ r.length = n ∧ tr'.isEmpty = false := by
  induction n generalizing tr with
  | zero => exact ⟨[], tr, rfl, rfl, h⟩
  | succ n ih =>
    obtain ⟨r, tr', h1, h2, h3⟩ := ih (chalStep H tr label).2 rfl
    refine ⟨(chalStep H tr label).1 :: r, tr', ?_, by simp [h2], h3⟩
    simp only [Transcript.challengeLoop, challenge_ok H tr label h, ok_bind, h1]

theorem challenges_ok (H : Oracle F C) (label : String) (n : Nat) (tr : Transcript F C) (h : tr.isEmpty = false) :
    ∃ r tr', tr.challenges H label n = .ok (r, tr') ∧ r.length = n ∧ tr'.isEmpty = false := by
  obtain ⟨r, tr', h1, h2⟩ := challengeLoop_ok H label n tr h
  exact ⟨r, tr', by simp [Transcript.challenges, h, h1], h2⟩

/-- Schwartz-Zippel for multilinear extensions. -/
theorem mle_zero_count [Fintype F] [DecidableEq F] (n : Nat) (g : Nat → F) (hg : ∃ i < 2 ^ n, g i ≠ 0) :
    (Finset.univ.filter fun r : Fin n → F => mle g (List.ofFn r) = 0).card ≤ n * Fintype.card F ^ (n - 1) := by
  induction n generalizing g with
  | zero =>
    obtain ⟨i, hi, hne⟩ := hg
    obtain rfl : i = 0 := by simpa using hi
    rw [Nat.zero_mul, Nat.le_zero, Finset.card_eq_zero, Finset.filter_eq_empty_iff]
    intro r _
    simpa [mle_nil] using hne
  | succ m ih =>
    obtain ⟨i, hi, hne⟩ := hg
    rw [card_filter_cons]
    have hj : i / 2 < 2 ^ m := by rw [pow_succ] at hi; omega
    have hbad : ((Finset.univ : Finset F).filter fun c => foldTbl c g (i / 2) = 0).card ≤ 1 := by
      rw [Finset.card_le_one]
      intro a ha b hb
      have ha := (Finset.mem_filter.1 ha).2
      have hb := (Finset.mem_filter.1 hb).2
      simp only [foldTbl] at ha hb
      by_contra hab
      have hd : (g (2 * (i / 2) + 1) - g (2 * (i / 2))) * (a - b) = 0 := by linear_combination ha - hb
      have h1 : g (2 * (i / 2) + 1) - g (2 * (i / 2)) = 0 := by
        rcases mul_eq_zero.1 hd with h | h
        · exact h
        · exact absurd (sub_eq_zero.1 h) hab
      have h0 : g (2 * (i / 2)) = 0 := by simpa [h1] using ha
      have h2 : g (2 * (i / 2) + 1) = 0 := by rw [h0] at h1; simpa using h1
      rcases Nat.mod_two_eq_zero_or_one i with hm | hm
      · exact hne (by rw [← h0]; congr 1; omega)
      · exact hne (by rw [← h2]; congr 1; omega)
    have hterm : ∀ c : F, (Finset.univ.filter fun r : Fin m → F => mle g (List.ofFn (Fin.cons c r : Fin (m + 1) → F)) = 0).card ≤
        (if foldTbl c g (i / 2) = 0 then Fintype.card F ^ m else 0) + m * Fintype.card F ^ (m - 1) := by
      intro c
      split
      · refine le_trans ?_ (Nat.le_add_right _ _)
        refine (Finset.card_filter_le _ _).trans ?_
        rw [Finset.card_univ, Fintype.card_fun, Fintype.card_fin]
      · next hc =>
        rw [Nat.zero_add]
        have := ih (foldTbl c g) ⟨i / 2, hj, hc⟩
        simpa only [List.ofFn_cons, mle_cons] using this
    refine (Finset.sum_le_sum fun c _ => hterm c).trans ?_
    rw [Finset.sum_add_distrib, Finset.sum_const, Finset.card_univ, ← Finset.sum_filter, Finset.sum_const, smul_eq_mul,
      smul_eq_mul]
    have e1 := Nat.mul_le_mul_right (Fintype.card F ^ m) hbad
    have e2 : Fintype.card F * (m * Fintype.card F ^ (m - 1)) = m * Fintype.card F ^ m := by
      cases m with
      | zero => simp
      | succ m => rw [Nat.add_sub_cancel, pow_succ]; ring
    rw [e2, Nat.add_sub_cancel]
    calc _ ≤ 1 * Fintype.card F ^ m + m * Fintype.card F ^ m := Nat.add_le_add_right e1 _
      _ = _ := by ring

theorem cubeSum_eqPoly (n : Nat) (f : List F → F) (r : List F) (hr : r.length = n) :
    cubeSum n (fun i => f (boolPt n i) * eqPoly (boolPt n i) r) = mle (fun i => f (boolPt n i)) r := by
  unfold cubeSum mle
  rw [hr]
  apply Finset.sum_congr rfl
  intro i hi
  rw [Finset.mem_range] at hi
  beta_reduce
  rw [show eqPoly (boolPt n i) r = eqWeight r i by
    rw [← mle_eqWeight r _ (by simp [hr]), mle_boolPt _ _ _ hi]]

theorem zerocheck_complete_inv [DecidableEq F] {heap : Nat → Mle F} {vp : VirtPoly F} (h : VirtPoly.Inv heap vp)
    (hn : NatsNonzero F (vp.maxDegree + 1)) (hnv : 0 < vp.numVariables)
    (hzero : ∀ i < 2 ^ vp.numVariables, vp.polyVal (boolPt vp.numVariables i) = 0) (H : Oracle F C)
    (tr : Transcript F C) (hne : tr.isEmpty = false) (fresh : Nat) (hf : ∀ a ∈ vp.flat, a.ptr ≠ fresh) :
    ∃ pf r tr', zerocheckProve H vp fresh tr = .ok (pf, tr') ∧
      (∃ tr1, tr.challenges H "0check r" vp.numVariables = .ok (r, tr1)) ∧ r.length = vp.numVariables ∧
      pf.point.length = vp.numVariables ∧
      ((∀ c ∈ pf.point, ∀ i ≤ vp.maxDegree + 1, c ≠ (i : F)) → eqPoly pf.point r ≠ 0 →
        zerocheckVerify H pf vp.maxDegree vp.numVariables tr = .ok (⟨pf.point, vp.polyVal pf.point, r⟩, tr')) := by
  obtain ⟨r, tr1, hr, hrl, _⟩ := challenges_ok H "0check r" vp.numVariables tr hne
  obtain ⟨g, heap', hg, hinv, hdeg, hgn, hval⟩ := buildFHat_spec h r hrl hnv fresh hf
  have hp := sumcheckProve_ok hinv (by rw [hdeg]; exact hn) (by omega) H tr1
  simp only at hp
  set ms := honestMsgs H g.polyVal g.numVariables g.maxDegree g.numVariables []
    (tr1.append "aux info" (.aux g.maxDegree g.numVariables)) with hms
  set rc := roundChals H ms (tr1.append "aux info" (.aux g.maxDegree g.numVariables)) with hrc
  have hlen : ms.length = vp.numVariables := by rw [hms, honestMsgs_length, hgn]
  have hrcl : rc.1.length = vp.numVariables := by rw [hrc, roundChals_length, hlen]
  refine ⟨⟨rc.1, ms⟩, r, rc.2, ?_, ⟨tr1, hr⟩, hrl, hrcl, ?_⟩
  · simp only [zerocheckProve, hr, ok_bind, hg, hp]
  · intro havoid heq
    simp only at havoid heq
    have hsum0 : partialSum g.polyVal g.numVariables [] = 0 := by
      unfold partialSum cubeSum
      apply Finset.sum_eq_zero
      intro i hi
      simp only [List.length_nil, Nat.sub_zero, List.nil_append] at hi ⊢
      rw [hgn] at hi ⊢
      rw [hval _ (by simp), hzero i (Finset.mem_range.1 hi), zero_mul]
    have hv := sumcheck_complete_inv hinv (by rw [hdeg]; exact hn) (by omega) (by omega) H tr1 rc.2 ⟨rc.1, ms⟩ hp
      (by rw [hdeg]; exact havoid)
    rw [hsum0, hdeg, hgn] at hv
    have hm0 : idx ms 0 = .ok (honestMsg g.polyVal g.numVariables g.maxDegree []) := by
      obtain ⟨k, hk⟩ : ∃ k, g.numVariables = k + 1 := ⟨g.numVariables - 1, by omega⟩
      rw [hms]
      conv_lhs => rw [hk]
      simp only [honestMsgs]
      rw [hk]
      rfl
    have hent : ∀ t ≤ g.maxDegree, idx (honestMsg g.polyVal g.numVariables g.maxDegree []) t =
        .ok (partialSum g.polyVal g.numVariables [(t : F)]) := by
      intro t ht
      rw [honestMsg, idx, List.getElem?_map, List.getElem?_range (by omega)]
      simp
    simp only [zerocheckVerify, hm0, ok_bind, hent 0 (by omega), hent 1 (by omega)]
    have hs := partialSum_step g.polyVal g.numVariables [] (by simp; omega)
    rw [hsum0] at hs
    simp only [List.nil_append] at hs
    rw [if_neg (by rw [Nat.cast_zero, Nat.cast_one, ← hs]; simp)]
    simp only [hr, ok_bind]
    rw [hv]
    simp only [ok_bind]
    rw [eqEval_eq _ _ (by rw [hrcl, hrl]), ok_bind, fdiv, if_neg heq, ok_bind, hval _ hrcl, mul_div_cancel_right₀ _ heq]

end Zksql
