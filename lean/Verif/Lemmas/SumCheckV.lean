import Verif.Lemmas.SumCheck2
/-! Helper lemmas: the sumcheck verifier. -/
set_option linter.unusedSectionVars false
namespace Zksql
open Spec Polynomial
variable {F C : Type} [Field F]

/-- The call can only fail by panicking. -/
def OnlyPanics {α : Type} (r : Res α) : Prop := (∃ a, r = .ok a) ∨ r = .error .panic

theorem onlyPanics_idx {α : Type} (l : List α) (i : Nat) : OnlyPanics (idx l i) := by
  unfold idx OnlyPanics
  cases l[i]? <;> simp

theorem onlyPanics_fdiv [DecidableEq F] (a b : F) : OnlyPanics (fdiv a b) := by
  unfold fdiv OnlyPanics; split <;> simp

theorem onlyPanics_chkU (b n : Nat) : OnlyPanics (chkU b n) := by
  unfold chkU OnlyPanics; split <;> simp

theorem onlyPanics_chkI (b : Nat) (n : Int) : OnlyPanics (chkI b n) := by
  unfold chkI OnlyPanics; split <;> simp

theorem onlyPanics_numToField (b : Nat) (n : Int) : OnlyPanics (numToField (F := F) b n) := by
  unfold numToField OnlyPanics chkI
  split
  · split <;> simp [Except.map]
  · simp

theorem onlyPanics_uFactorial (b n : Nat) : OnlyPanics (uFactorial b n) := by
  induction n with
  | zero => exact Or.inl ⟨1, rfl⟩
  | succ n ih =>
    cases n with
    | zero => exact Or.inl ⟨1, rfl⟩
    | succ n =>
      rw [uFactorial]
      rcases ih with ⟨a, ha⟩ | ha
      · rw [ha, ok_bind]; exact onlyPanics_chkU _ _
      · rw [ha, error_bind]; exact Or.inr rfl

theorem interpLoopInt_panic [DecidableEq F] (bits : Nat) (p evals : List F) (prod lastDen : F) (len i : Nat)
    (hi : evals[i]? = some 0) (c : Nat) (hc : i < c) (res : F) (num : Int) (den : Nat) :
    interpLoopInt bits p evals prod lastDen len c res num den = .error .panic := by
  induction c generalizing res num den with
  | zero => omega
  | succ c ih =>
    rw [interpLoopInt]
    rcases onlyPanics_numToField (F := F) bits num with ⟨a, ha⟩ | ha <;> rw [ha]
    swap; · rfl
    rw [ok_bind]
    rcases onlyPanics_idx p c with ⟨pc, h1⟩ | h1 <;> rw [h1]
    swap; · rfl
    rw [ok_bind]
    rcases onlyPanics_idx evals c with ⟨ec, h2⟩ | h2 <;> rw [h2]
    swap; · rfl
    rw [ok_bind]
    by_cases hci : c = i
    · subst hci
      have : ec = 0 := by simpa [idx, hi] using h2.symm
      subst this
      simp [fdiv]
    · rcases onlyPanics_fdiv (pc * prod * (den : F)) (lastDen * a * ec) with ⟨q, h3⟩ | h3 <;> rw [h3]
      swap; · rfl
      rw [ok_bind, if_pos (by omega)]
      rcases onlyPanics_chkI bits (num * (-((len : Int) - (c : Int)))) with ⟨n', h4⟩ | h4 <;> rw [h4]
      swap; · rfl
      rw [ok_bind]
      rcases onlyPanics_chkU bits (den * c) with ⟨d', h5⟩ | h5 <;> rw [h5]
      swap; · rfl
      exact ih (by omega) _ _ _

theorem interpLoopField_panic [DecidableEq F] (p evals : List F) (prod : F) (len i : Nat)
    (hi : evals[i]? = some 0) (c : Nat) (hc : i < c) (res num den : F) :
    interpLoopField p evals prod len c res num den = .error .panic := by
  induction c generalizing res num den with
  | zero => omega
  | succ c ih =>
    rw [interpLoopField]
    rcases onlyPanics_idx p c with ⟨pc, h1⟩ | h1 <;> rw [h1]
    swap; · rfl
    rw [ok_bind]
    rcases onlyPanics_idx evals c with ⟨ec, h2⟩ | h2 <;> rw [h2]
    swap; · rfl
    rw [ok_bind]
    by_cases hci : c = i
    · subst hci
      have : ec = 0 := by simpa [idx, hi] using h2.symm
      subst this
      simp [fdiv]
    · rcases onlyPanics_fdiv (pc * prod * den) (num * ec) with ⟨q, h3⟩ | h3 <;> rw [h3]
      swap; · rfl
      rw [ok_bind, if_pos (by omega)]
      exact ih (by omega) _ _ _

/-- At an interpolation node the code divides by zero. -/
theorem interpolateUniPoly_node [DecidableEq F] (p : List F) (i : Nat) (hi : i < p.length) :
    interpolateUniPoly p (i : F) = .error .panic := by
  have hev : ((i : F) :: (List.range (p.length - 1)).map fun e => (i : F) - ((e + 1 : Nat) : F))[i]? = some 0 := by
    cases i with
    | zero => simp
    | succ i =>
      rw [List.getElem?_cons_succ, List.getElem?_map, List.getElem?_range (by omega)]
      simp
  unfold interpolateUniPoly
  simp only
  rw [if_neg (by omega)]
  split
  · rcases onlyPanics_uFactorial 64 (p.length - 1) with ⟨a, ha⟩ | ha <;> rw [ha]
    · exact interpLoopInt_panic _ _ _ _ _ _ i hev _ hi _ _ _
    · rfl
  · split
    · rcases onlyPanics_uFactorial 128 (p.length - 1) with ⟨a, ha⟩ | ha <;> rw [ha]
      · exact interpLoopInt_panic _ _ _ _ _ _ i hev _ hi _ _ _
      · rfl
    · exact interpLoopField_panic _ _ _ _ i hev _ hi _ _ _

/-- Every message of the right length has its polynomial. -/
theorem exists_messagePoly {d : Nat} (hn : NatsNonzero F d) (m : List F) (hm : m.length = d + 1) :
    ∃ q : F[X], IsMessagePoly d m q := by
  have hinj := hn.injOn
  refine ⟨Lagrange.interpolate (Finset.range (d + 1)) (fun i : Nat => (i : F)) fun i => m.getD i 0, ?_, hm, ?_⟩
  · have := Lagrange.degree_interpolate_lt (fun i => m.getD i 0) hinj
    rw [Finset.card_range] at this
    rw [natDegree_le_iff_degree_le]
    rw [degree_lt_iff_coeff_zero] at this
    rw [degree_le_iff_coeff_zero]
    intro k hk
    exact this k (by exact_mod_cast hk)
  · intro i hi
    exact Lagrange.eval_interpolate_at_node _ hinj (Finset.mem_range.2 (by omega))

theorem messagePoly_unique {d : Nat} (hn : NatsNonzero F d) {m : List F} {q q' : F[X]} (h : IsMessagePoly d m q)
    (h' : IsMessagePoly d m q') : q = q' := by
  have lt : ∀ {q : F[X]}, q.natDegree ≤ d → q.degree < ((Finset.range (d + 1)).card : WithBot Nat) := by
    intro q hq
    rw [Finset.card_range]
    refine lt_of_le_of_lt degree_le_natDegree ?_
    exact_mod_cast Nat.lt_succ_of_le hq
  refine eq_of_degrees_lt_of_eval_index_eq (v := fun i : Nat => (i : F)) (s := Finset.range (d + 1)) hn.injOn (lt h.1) (lt h'.1) ?_
  intro i hi
  have := Finset.mem_range.1 hi
  rw [h.2.2 i (by omega), h'.2.2 i (by omega)]

theorem interpolate_iff [DecidableEq F] {d : Nat} (hn : NatsNonzero F d) {m : List F} {q : F[X]} (h : IsMessagePoly d m q)
    (x e : F) : interpolateUniPoly m x = .ok e ↔ (∀ i ≤ d, x ≠ (i : F)) ∧ e = q.eval x := by
  by_cases hx : ∀ i ≤ d, x ≠ (i : F)
  · rw [interpolateUniPoly_ok m x (by rw [h.2.1]; omega) (by rw [h.2.1]; exact hn)
      (fun i hi => hx i (by rw [h.2.1] at hi; omega)) q ?_ ?_]
    · constructor
      · intro he; exact ⟨hx, by injection he with he; exact he.symm⟩
      · rintro ⟨_, rfl⟩; rfl
    · rw [h.2.1]
      refine lt_of_le_of_lt degree_le_natDegree ?_
      exact_mod_cast Nat.lt_succ_of_le h.1
    · intro i hi
      exact h.2.2 i (by rw [h.2.1] at hi; omega)
  · refine ⟨?_, fun hh => absurd hh.1 hx⟩
    intro he
    push Not at hx
    obtain ⟨i, hi, rfl⟩ := hx
    rw [interpolateUniPoly_node m i (by rw [h.2.1]; omega)] at he
    cases he

/-- The interpolation step of `checkAndGenerateSubclaim`. -/
def interpStep [DecidableEq F] (d : Nat) (pc : List F × F) : Res F :=
  if pc.1.length ≠ d + 1 then .error (.err .invalidVerifier) else interpolateUniPoly pc.1 pc.2

theorem interpStep_iff [DecidableEq F] {d : Nat} (hn : NatsNonzero F d) (m : List F) (c e : F) :
    interpStep d (m, c) = .ok e ↔ (∀ i ≤ d, c ≠ (i : F)) ∧ ∃ q : F[X], IsMessagePoly d m q ∧ e = q.eval c := by
  unfold interpStep
  by_cases hm : m.length = d + 1
  · obtain ⟨q, hq⟩ := exists_messagePoly hn m hm
    simp only [hm, ne_eq, not_true_eq_false, if_false]
    rw [interpolate_iff hn hq]
    constructor
    · rintro ⟨h1, h2⟩; exact ⟨h1, q, hq, h2⟩
    · rintro ⟨h1, q', hq', h2⟩
      rw [messagePoly_unique hn hq hq']
      exact ⟨h1, h2⟩
  · simp only [ne_eq, hm, not_false_eq_true, if_true]
    constructor
    · intro h; cases h
    · rintro ⟨_, q, hq, _⟩; exact absurd hq.2.1 hm

theorem mapM_cons_ok {α β : Type} (f : α → Res β) (a : α) (l : List α) (r : List β) :
    (a :: l).mapM f = .ok r ↔ ∃ b bs, f a = .ok b ∧ l.mapM f = .ok bs ∧ r = b :: bs := by
  rw [List.mapM_cons]
  rcases hfa : f a with e | b
  · simp
  · rw [ok_bind]
    rcases hl : l.mapM f with e | bs
    · simp
    · rw [ok_bind]
      show Except.ok _ = Except.ok _ ↔ _
      simp [eq_comm]

theorem checks_iff [DecidableEq F] {d : Nat} (hd : 0 < d) (hn : NatsNonzero F d) (ms : List (List F)) (cs : List F)
    (hl : ms.length = cs.length) (claim out : F) :
    (∃ es, (ms.zip cs).mapM (interpStep d) = .ok es ∧ deferredChecks ms (claim :: es) = .ok () ∧
      idx (claim :: es) ms.length = .ok out) ↔
      (∀ c ∈ cs, ∀ i ≤ d, c ≠ (i : F)) ∧ Accepted d claim ms cs out := by
  induction ms generalizing cs claim with
  | nil =>
    obtain rfl : cs = [] := List.length_eq_zero_iff.1 hl.symm
    simp only [Accepted]
    constructor
    · rintro ⟨es, h1, _, h3⟩
      refine ⟨by simp, ?_⟩
      simpa [idx, eq_comm] using h3
    · rintro ⟨_, rfl⟩
      exact ⟨[], rfl, rfl, rfl⟩
  | cons m ms ih =>
    obtain ⟨c, cs, rfl⟩ : ∃ c cs', cs = c :: cs' := by
      cases cs with
      | nil => simp at hl
      | cons c cs => exact ⟨c, cs, rfl⟩
    have hl' : ms.length = cs.length := by simpa using hl
    simp only [Accepted, List.zip_cons_cons]
    have hdef : ∀ e es (q : F[X]), IsMessagePoly d m q → (deferredChecks (m :: ms) (claim :: e :: es) = .ok () ↔
        q.eval 0 + q.eval 1 = claim ∧ deferredChecks ms (e :: es) = .ok ()) := by
      intro e es q hq
      have h0 : idx m 0 = .ok (q.eval 0) := by
        have := hq.2.2 0 (by omega)
        have hlen := hq.2.1
        rw [Nat.cast_zero] at this
        rw [this, idx, List.getElem?_eq_getElem (by omega), List.getD_eq_getElem _ _ (by omega)]
        rfl
      have h1 : idx m 1 = .ok (q.eval 1) := by
        have := hq.2.2 1 (by omega)
        have hlen := hq.2.1
        rw [Nat.cast_one] at this
        rw [this, idx, List.getElem?_eq_getElem (by omega), List.getD_eq_getElem _ _ (by omega)]
        rfl
      rw [deferredChecks, h0, ok_bind, h1, ok_bind]
      split
      · next hne => constructor
                    · intro h; cases h
                    · intro h; exact absurd h.1 hne
      · next hne => 
        constructor
        · intro h; exact ⟨not_not.1 hne, h⟩
        · intro h; exact h.2
    have hidx : ∀ e es, idx (claim :: e :: es) (m :: ms).length = idx (e :: es) ms.length := by
      intro e es; simp [idx]
    constructor
    · rintro ⟨es, h1, h2, h3⟩
      rw [mapM_cons_ok] at h1
      obtain ⟨e, es', he, hes, rfl⟩ := h1
      obtain ⟨hc, q, hq, rfl⟩ := (interpStep_iff hn m c e).1 he
      rw [hdef _ _ q hq] at h2
      rw [hidx] at h3
      obtain ⟨hcs, hacc⟩ := (ih cs hl' (q.eval c)).1 ⟨es', hes, h2.2, h3⟩
      refine ⟨?_, q, hq, h2.1, hacc⟩
      intro c' hc'
      rcases List.mem_cons.1 hc' with rfl | h
      · exact hc
      · exact hcs c' h
    · rintro ⟨hcs, q, hq, hsum, hacc⟩
      obtain ⟨es', hes, h2, h3⟩ := (ih cs hl' (q.eval c)).2 ⟨fun c' hc' => hcs c' (List.mem_cons_of_mem _ hc'), hacc⟩
      refine ⟨q.eval c :: es', ?_, ?_, ?_⟩
      · rw [mapM_cons_ok]
        exact ⟨_, _, (interpStep_iff hn m c _).2 ⟨hcs c (by simp), q, hq, rfl⟩, hes, rfl⟩
      · rw [hdef _ _ q hq]; exact ⟨hsum, h2⟩
      · rw [hidx]; exact h3

theorem check_iff [DecidableEq F] {d n : Nat} (hd : 0 < d) (hn : NatsNonzero F d) (ms : List (List F)) (cs : List F)
    (hm : ms.length = n) (hc : cs.length = n) (r : Nat) (claim : F) (sub : SubClaim F) :
    checkAndGenerateSubclaim ⟨r, n, d, true, ms, cs⟩ claim = .ok sub ↔
      sub.point = cs ∧ (∀ c ∈ cs, ∀ i ≤ d, c ≠ (i : F)) ∧ Accepted d claim ms cs sub.expectedEvaluation := by
  rw [← checks_iff hd hn ms cs (by omega)]
  unfold checkAndGenerateSubclaim
  simp only [not_true_eq_false, if_false, hm, ne_eq]
  rw [List.take_of_length_le (by omega)]
  change (do
    let expected ← (ms.zip cs).mapM (interpStep d)
    let _ ← deferredChecks ms (claim :: expected)
    let last ← idx (claim :: expected) n
    Except.ok (⟨cs, last⟩ : SubClaim F)) = _ ↔ _
  rcases hes : (ms.zip cs).mapM (interpStep d) with e | es
  · simp
  · rw [ok_bind]
    rcases hdc : deferredChecks ms (claim :: es) with e | u
    · simp [hdc]
    · rw [ok_bind]
      rcases hlast : idx (claim :: es) n with e | v
      · simp [hlast]
      · rw [ok_bind]
        constructor
        · intro h
          injection h with h
          subst h
          exact ⟨rfl, es, rfl, hdc, hlast⟩
        · rintro ⟨h1, es', h2, h3, h4⟩
          injection h2 with h2
          subst h2
          rw [hlast] at h4
          injection h4 with h4
          subst h1; subst h4
          rfl

theorem verifyLoop_ok (H : Oracle F C) (pf : IOPProof F) (n d m i : Nat) (hi : i + m = n) (hm : 0 < m)
    (hlen : n ≤ pf.proofs.length) (ms : List (List F)) (cs : List F) (tr : Transcript F C) :
    verifyLoop H pf m i ⟨i + 1, n, d, false, ms, cs⟩ tr =
      .ok (⟨n, n, d, true, ms ++ (pf.proofs.drop i).take m, cs ++ (roundChals H ((pf.proofs.drop i).take m) tr).1⟩,
        (roundChals H ((pf.proofs.drop i).take m) tr).2) := by
  induction m generalizing i ms cs tr with
  | zero => omega
  | succ m ih =>
    have hdrop : (pf.proofs.drop i).take (m + 1) = pf.proofs[i]'(by omega) :: (pf.proofs.drop (i + 1)).take m := by
      rw [List.drop_eq_getElem_cons (by omega), List.take_succ_cons]
    have hx : idx pf.proofs i = .ok (pf.proofs[i]'(by omega)) := by
      rw [idx, List.getElem?_eq_getElem (by omega)]; rfl
    rw [verifyLoop, hx, ok_bind, hdrop]
    simp only [verifyRound, Bool.false_eq_true, if_false, challenge_append, ok_bind, roundChals]
    set s := chalStep H (tr.append "prover msg" (.elems (pf.proofs[i]'(by omega)))) "Internal round"
    by_cases hm0 : m = 0
    · subst hm0
      have : i + 1 = n := by omega
      simp [VerifierState.push, verifyLoop, roundChals, this]
    · have hne : ¬ (i + 1 = n) := by omega
      have : (VerifierState.push ⟨i + 1, n, d, false, ms, cs⟩ (pf.proofs[i]'(by omega)) s.1 : VerifierState F) =
          ⟨i + 1 + 1, n, d, false, ms ++ [pf.proofs[i]'(by omega)], cs ++ [s.1]⟩ := by
        simp [VerifierState.push, hne]
      rw [this, ih (i + 1) (by omega) (by omega)]
      simp

theorem verifyLoop_short (H : Oracle F C) (pf : IOPProof F) (n d m i : Nat) (hi : i + m = n)
    (hlen : pf.proofs.length < n) (hle : i ≤ pf.proofs.length) (ms : List (List F)) (cs : List F) (tr : Transcript F C) :
    verifyLoop H pf m i ⟨i + 1, n, d, false, ms, cs⟩ tr = .error .panic := by
  induction m generalizing i ms cs tr with
  | zero => omega
  | succ m ih =>
    rw [verifyLoop]
    by_cases h : i < pf.proofs.length
    · have hx : idx pf.proofs i = .ok (pf.proofs[i]'(by omega)) := by
        rw [idx, List.getElem?_eq_getElem (by omega)]; rfl
      rw [hx, ok_bind]
      simp only [verifyRound, Bool.false_eq_true, if_false, challenge_append, ok_bind]
      set s := chalStep H (tr.append "prover msg" (.elems (pf.proofs[i]'(by omega)))) "Internal round"
      have hne : ¬ (i + 1 = n) := by omega
      have : (VerifierState.push ⟨i + 1, n, d, false, ms, cs⟩ (pf.proofs[i]'(by omega)) s.1 : VerifierState F) =
          ⟨i + 1 + 1, n, d, false, ms ++ [pf.proofs[i]'(by omega)], cs ++ [s.1]⟩ := by
        simp [VerifierState.push, hne]
      rw [this, ih (i + 1) (by omega) (by omega)]
    · have hx : idx pf.proofs i = .error .panic := by
        rw [idx, List.getElem?_eq_none (by omega)]; rfl
      rw [hx]; rfl

/-- What the verifier accepts, exactly. -/
theorem sumcheckVerify_iff [DecidableEq F] (H : Oracle F C) (claim : F) (pf : IOPProof F) (d n : Nat) (hd : 0 < d)
    (hn : NatsNonzero F d) (tr tr' : Transcript F C) (sub : SubClaim F) :
    sumcheckVerify H claim pf d n tr = .ok (sub, tr') ↔
      0 < n ∧ n ≤ pf.proofs.length ∧
      let rc := roundChals H (pf.proofs.take n) (tr.append "aux info" (.aux d n))
      sub.point = rc.1 ∧ tr' = rc.2 ∧ (∀ c ∈ rc.1, ∀ i ≤ d, c ≠ (i : F)) ∧
      Accepted d claim (pf.proofs.take n) rc.1 sub.expectedEvaluation := by
  by_cases hn0 : n = 0
  · subst hn0
    simp [sumcheckVerify, verifyLoop, verifierInit, checkAndGenerateSubclaim]
  by_cases hlen : n ≤ pf.proofs.length
  · have h1 := verifyLoop_ok H pf n d n 0 (by simp) (by omega) hlen [] [] (tr.append "aux info" (.aux d n))
    simp only [List.drop_zero, List.nil_append, Nat.zero_add] at h1
    simp only [sumcheckVerify, verifierInit, h1, ok_bind]
    set rc := roundChals H (pf.proofs.take n) (tr.append "aux info" (.aux d n)) with hrc
    have hcl : rc.1.length = n := by rw [hrc, roundChals_length]; simp [hlen]
    have key := check_iff hd hn (pf.proofs.take n) rc.1 (by simp [hlen]) hcl n claim
    constructor
    · intro h
      rcases hc : checkAndGenerateSubclaim ⟨n, n, d, true, pf.proofs.take n, rc.1⟩ claim with e | s
      · rw [hc] at h; cases h
      · rw [hc, ok_bind] at h
        injection h with h
        injection h with h1 h2
        subst h1; subst h2
        obtain ⟨a, b, c⟩ := (key s).1 hc
        exact ⟨by omega, hlen, a, rfl, b, c⟩
    · rintro ⟨_, _, a, b, c, e⟩
      rw [(key sub).2 ⟨a, c, e⟩, ok_bind, b]
  · have h1 := verifyLoop_short H pf n d n 0 (by simp) (by omega) (by omega) [] [] (tr.append "aux info" (.aux d n))
    simp only [Nat.zero_add] at h1
    simp only [sumcheckVerify, verifierInit, h1, error_bind]
    constructor
    · intro h; cases h
    · rintro ⟨_, h, _⟩; exact absurd h hlen

end Zksql
