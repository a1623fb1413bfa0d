import Verif.Lemmas.OnlineS
import Verif.Props.Verified
import Verif.Props.OwnProver
/-!
# Property C111: the probability that a false statement passes
-/
set_option linter.unusedSectionVars false
namespace Zksql
open Spec
variable {F C B : Type} [Field F] [DecidableEq F]

theorem sum_replicate_getD (n d : Nat) : (List.replicate n d).sum = n * d := by simp

/-- C111, the program.  A prover that is not trusted answers the challenges as they come.  The probability that the verifier's side of the program succeeds and records only true claims, but
one of its checks has not established what it is meant to establish, is at most the sum of the bounds of the checks, divided by the size of the field. -/
theorem C111_program [Finite F] {E : Env F C} {N : Nat} {prog : List (Step F)} (h2 : (2 : F) ≠ 0) (hn : NatsNonzero F (2 ^ N)) (hf : Step.FitsAll N [] prog) {M : Nat}
    (hM : (Step.soundBoundsAll N [] prog).length ≤ M) (P : C → List F → F) (prover : (Fin M → F) → CompiledProof F C B)
    (hon : Online (fun c => (Step.verifyAll (E.withH (dealt c)) prog [] (withProof (VState.init : VState F C B).st (prover c))).1.isOk = true)
      fun c => newChallenges (VState.init : VState F C B).st (Step.verifyAll (E.withH (dealt c)) prog [] (withProof (VState.init : VState F C B).st (prover c))).2) :
    ChanceAtMost (Step.soundBoundsAll N [] prog).sum fun c => ∃ a s',
      Step.verifyAll (E.withH (dealt c)) prog [] (withProof (VState.init : VState F C B).st (prover c)) = (.ok a, s') ∧ ClaimsTrue P N s' ∧ ¬ Step.MeansAll (prover c) P N [] prog :=
  sound_chance (C86_program_from_scratch h2 hn hf) rfl hM P prover hon

/-- C111, a proof prepared in advance: it need not be assumed that it answers the challenges as they come. -/
theorem C111_fixed_proof [Finite F] {E : Env F C} {N : Nat} {prog : List (Step F)} (h2 : (2 : F) ≠ 0) (hn : NatsNonzero F (2 ^ N)) (hf : Step.FitsAll N [] prog) {M : Nat}
    (hM : (Step.soundBoundsAll N [] prog).length ≤ M) (P : C → List F → F) (pf : CompiledProof F C B) :
    ChanceAtMost (Step.soundBoundsAll N [] prog).sum fun c : Fin M → F => ∃ a s',
      Step.verifyAll (E.withH (dealt c)) prog [] (withProof (VState.init : VState F C B).st pf) = (.ok a, s') ∧ ClaimsTrue P N s' ∧ ¬ Step.MeansAll pf P N [] prog :=
  C111_program h2 hn hf hM P (fun _ => pf) ((VLoc.verifyAll E prog []).online (VState.init : VState F C B).st rfl pf _)

/-- C111, a single call: what holds up to `bounds` exceptional challenges holds up to the probability `bounds.sum / |F|`. -/
theorem C111_call [Finite F] {α : Type} {V : Oracle F C → Act (VSt F C B) α} {s : VSt F C B} {N : Nat} {bounds : List Nat} {Concl : CompiledProof F C B → (C → List F → F) → Prop}
    (h : SoundExcept V s N bounds Concl) (hs : draws s.own.transcript.events = 0) {M : Nat} (hM : bounds.length ≤ M) (P : C → List F → F) (prover : (Fin M → F) → CompiledProof F C B)
    (hon : Online (fun c => (V (dealt c) (withProof s (prover c))).1.isOk = true) fun c => newChallenges s (V (dealt c) (withProof s (prover c))).2) :
    ChanceAtMost bounds.sum fun c => ∃ a s', V (dealt c) (withProof s (prover c)) = (.ok a, s') ∧ ClaimsTrue P N s' ∧ ¬ Concl (prover c) P :=
  sound_chance h hs hM P prover hon

/-- C111, the whole session with the comparison of C95.  Among the sequences of challenges let `Ok` be those in which the verifier's side of the program ends, in `st c`, and the claims are then
verified, with the transcript `tr c`.  If the prover answers the challenges as they come, and the sums it claims (which the transcript does not bind, C94) do not depend on challenges drawn after the
program, the probability that the session ends well although a check of the program has not established what it is meant to establish is at most the sum of the bounds of the program's checks, one for each
fold and the degree for each round of the sumcheck, divided by the size of the field. -/
theorem C111_session [Finite F] {E : Env F C} {N D q : Nat} {prog : List (Step F)} (h2 : (2 : F) ≠ 0) (hn : NatsNonzero F (2 ^ N)) (hf : Step.FitsAll N [] prog) {M : Nat}
    (hM : (Step.soundBoundsAll N [] prog).length + (q + N + 1) + N ≤ M) (P : C → List F → F) (hP : ∀ c, Multilinear (P c)) (prover : (Fin M → F) → CompiledProof F C B)
    (Ok : (Fin M → F) → Prop) (st : (Fin M → F) → VSt F C B) (tr : (Fin M → F) → Transcript F C)
    (hrun : ∀ c, Ok c → ∃ a, Step.verifyAll (E.withH (dealt c)) prog [] (withProof (VState.init : VState F C B).st (prover c)) = (.ok a, st c))
    (hver : ∀ c, Ok c → VerifiedWith (dealt c) P (st c) (tr c))
    (hshape : ∀ c, Ok c → (prover c).scNumVars = N ∧ NatsNonzero F (prover c).scMaxDegree ∧ max (prover c).scMaxDegree (claimDegree (st c) + 1) ≤ D ∧
      (st c).own.zeroClaims.length + (st c).own.sumClaims.length = q)
    (hon : Online Ok fun c => newChallenges (VState.init : VState F C B).st (st c) ++ drawnUntil (st c) (tr c))
    (hrec : ∀ c c', Ok c → Ok c' → (∀ i : Fin M, i.val < (Step.soundBoundsAll N [] prog).length → c i = c' i) →
      withProof (st c) CompiledProof.default = withProof (st c') CompiledProof.default) :
    ChanceAtMost ((Step.soundBoundsAll N [] prog).sum + (q + N + 1) + N * D) fun c => Ok c ∧ ¬ Step.MeansAll (prover c) P N [] prog := by
  obtain ⟨bad, bad', hbad⟩ := C95_program (B := B) (E := E) h2 hn hf
  set bounds := Step.soundBoundsAll N [] prog with hbd
  have hsum : (bounds ++ (List.replicate (q + N + 1) 1 ++ List.replicate N D)).sum = bounds.sum + (q + N + 1) + N * D := by
    rw [List.sum_append, List.sum_append, sum_replicate_getD, sum_replicate_getD]
    omega
  have hlen : (bounds ++ (List.replicate (q + N + 1) 1 ++ List.replicate N D)).length ≤ M := by
    simp only [List.length_append, List.length_replicate]
    omega
  rw [← hsum, ← sum_getD_le _ hlen]
  let hist : (Fin M → F) → List (List (TEvent F C)) := fun c => newChallenges (VState.init : VState F C B).st (st c) ++ drawnUntil (st c) (tr c)
  refine chance_sum _ _ (fun c k => ((hist c)[k.val]?.map fun h => if k.val < bounds.length then bad h P else bad' (withProof (st c) CompiledProof.default) h P).getD ∅) ?_ ?_ ?_
  · rintro c k ⟨ok, -⟩ -
    obtain ⟨a, hv⟩ := hrun c ok
    obtain ⟨z1, z2, z3, z4⟩ := hshape c ok
    obtain ⟨h1, h3, h4, h5, -⟩ := hbad (prover c) (dealt c) a (st c) hv z1 z2 P (tr c) hP (hver c ok)
    rcases e : (hist c)[k.val]? with _ | x
    · simp
    · have e' : (newChallenges (VState.init : VState F C B).st (st c) ++ drawnUntil (st c) (tr c))[k.val]? = some x := e
      simp only [Option.map_some, Option.getD_some]
      by_cases hk : k.val < bounds.length
      · rw [List.getElem?_append_left (by omega)] at e'
        rw [if_pos hk, List.getD_append _ _ _ _ hk]
        exact (h4 _ x e').1 P
      · rw [List.getElem?_append_right (by omega), h1] at e'
        rw [if_neg hk, List.getD_append_right _ _ _ _ (by omega)]
        refine ((h5 _ x e').1 P).trans ?_
        have hlt : k.val - bounds.length < (drawnUntil (st c) (tr c)).length := by
          by_contra hc
          rw [List.getElem?_eq_none (by omega)] at e'
          cases e'
        split
        · rw [List.getD_append _ _ _ _ (by rw [List.length_replicate]; omega), List.getD_replicate _ (by omega)]
        · rw [List.getD_append_right _ _ _ _ (by rw [List.length_replicate]; omega), List.getD_replicate _ (by rw [List.length_replicate]; omega)]
          exact z3
  · rintro c ⟨ok, hno⟩
    obtain ⟨a, hv⟩ := hrun c ok
    obtain ⟨z1, z2, z3, z4⟩ := hshape c ok
    obtain ⟨h1, h3, -, -, h6⟩ := hbad (prover c) (dealt c) a (st c) hv z1 z2 P (tr c) hP (hver c ok)
    by_contra hnone
    refine hno (h6 (fun x hx hin => hnone ?_) fun x hx hin => hnone ?_)
    · obtain ⟨k, hk, rfl⟩ := List.getElem_of_mem hx
      have hk' := List.getElem?_eq_getElem hk
      refine ⟨⟨k, by omega⟩, ?_⟩
      rw [dealt_at c rfl hk' (by omega)] at hin
      have e : (hist c)[k]? = some _ := (List.getElem?_append_left hk).trans hk'
      dsimp only
      rw [e, Option.map_some, Option.getD_some, if_pos (by omega)]
      exact hin
    · obtain ⟨k, hk, rfl⟩ := List.getElem_of_mem hx
      have hk' := List.getElem?_eq_getElem hk
      have hd : draws (st c).own.transcript.events = bounds.length := by
        rw [← h1]
        exact (squeezes_length _ _).symm
      refine ⟨⟨bounds.length + k, by omega⟩, ?_⟩
      rw [dealt_after c hk' (by omega)] at hin
      have e : (hist c)[bounds.length + k]? = some _ := (List.getElem?_append_right (by omega)).trans ((congrArg _ (by omega)).trans hk')
      dsimp only
      rw [e, Option.map_some, Option.getD_some, if_neg (by omega)]
      simp only [hd] at hin
      exact hin
  · rintro c c' k ⟨ok, -⟩ ⟨ok', -⟩ e
    have := hon c c' ok ok' k.val fun i hi => e i hi
    rw [show (hist c)[k.val]? = (hist c')[k.val]? from this]
    by_cases hk : k.val < bounds.length
    · simp only [if_pos hk]
    · rw [hrec c c' ok ok' fun i hi => e i (by rw [Fin.lt_def]; omega)]
/-- C111, the whole session with a proof prepared in advance: nothing is assumed of how it was made. -/
theorem C111_session_fixed_proof [Finite F] {E : Env F C} {N D q : Nat} {prog : List (Step F)} (h2 : (2 : F) ≠ 0) (hn : NatsNonzero F (2 ^ N)) (hf : Step.FitsAll N [] prog) {M : Nat}
    (hM : (Step.soundBoundsAll N [] prog).length + (q + N + 1) + N ≤ M) (P : C → List F → F) (hP : ∀ c, Multilinear (P c)) (pf : CompiledProof F C B) (hN : pf.scNumVars = N)
    (hdeg : NatsNonzero F pf.scMaxDegree) :
    ChanceAtMost ((Step.soundBoundsAll N [] prog).sum + (q + N + 1) + N * D) fun c : Fin M → F => ∃ a s tr,
      Step.verifyAll (E.withH (dealt c)) prog [] (withProof (VState.init : VState F C B).st pf) = (.ok a, s) ∧ VerifiedWith (dealt c) P s tr ∧
      s.own.zeroClaims.length + s.own.sumClaims.length = q ∧ max pf.scMaxDegree (claimDegree s + 1) ≤ D ∧ ¬ Step.MeansAll pf P N [] prog := by
  let s0 : VSt F C B := withProof (VState.init : VState F C B).st pf
  let st : (Fin M → F) → VSt F C B := fun c => (Step.verifyAll (E.withH (dealt c)) prog [] s0).2
  let tr : (Fin M → F) → Transcript F C := fun c => (endA pf (dealt c) (st c)).2.own.transcript
  let Ok : (Fin M → F) → Prop := fun c => ∃ a s x, Step.verifyAll (E.withH (dealt c)) prog [] s0 = (.ok a, s) ∧ VerifiedWith (dealt c) P s x ∧
    s.own.zeroClaims.length + s.own.sumClaims.length = q ∧ max pf.scMaxDegree (claimDegree s + 1) ≤ D
  have hS : Sane (VState.init : VState F C B).st := VReachable.sane (debug := true) (H := fun _ _ => 0) ⟨[], rfl⟩
  obtain ⟨bad, hbad⟩ := program_soundF (E := E) (B := B) (hs := []) h2 hn hS (by intro a ha; simp at ha) ⟨rfl, fun _ => rfl⟩ hf
  have facts : ∀ c, Ok c → ∃ a, Step.verifyAll (E.withH (dealt c)) prog [] s0 = (.ok a, st c) ∧ VerifiedWith (dealt c) P (st c) (tr c) ∧
      (st c).own.zeroClaims.length + (st c).own.sumClaims.length = q ∧ max pf.scMaxDegree (claimDegree (st c) + 1) ≤ D ∧
      (newChallenges (VState.init : VState F C B).st (st c)).length = (Step.soundBoundsAll N [] prog).length := by
    rintro c ⟨a, s, x, e1, e2, e3, e4⟩
    have hs : st c = s := congrArg (·.2) e1
    obtain ⟨L, b1, -⟩ := hbad () pf (VState.init : VState F C B).st.own.sumClaims ⟨fun _ h => h, hS.sums⟩ (dealt c) a s e1
    have hpf : s.own.proof = pf := L.proof
    have hx : tr c = x := by
      have := endA_eq e2
      rw [hpf, ← hs] at this
      exact this
    rw [hs, hx]
    exact ⟨a, e1, e2, e3, e4, b1⟩
  refine (C111_session (E := E) (q := q) (D := D) h2 hn hf hM P hP (fun _ => pf) Ok st tr (fun c hc => ?_) (fun c hc => ?_) (fun c hc => ?_) ?_ fun c c' hc hc' e => ?_).mono ?_
  · obtain ⟨a, e1, -⟩ := facts c hc
    exact ⟨a, e1⟩
  · exact (facts c hc).choose_spec.2.1
  · obtain ⟨a, -, -, e3, e4, -⟩ := facts c hc
    exact ⟨hN, hdeg, e4, e3⟩
  · intro c c' hc hc' k e
    have l1 := VLoc.verifyAll (B := B) E prog []
    have l2 := l1.bind fun _ => endA_loc pf
    have key : ∀ c, Ok c → newChallenges (VState.init : VState F C B).st (st c) ++ drawnUntil (st c) (tr c) =
        between s0.own.transcript ((Step.verifyAll (E.withH (dealt c)) prog [] >>= fun _ => endA pf (dealt c)) s0).2.own.transcript := by
      intro c hc
      obtain ⟨a, e1, -⟩ := facts c hc
      have g1 := (l1 s0).1 (dealt c)
      have g2 := (endA_loc pf (st c)).1 (dealt c)
      rw [Act.bind_ok e1]
      exact (between_trans g1 g2).symm
    beta_reduce
    rw [key c hc, key c' hc']
    exact (l2.dealt s0 c c' k e).1
  · obtain ⟨a, e1, -, -, -, e5⟩ := facts c hc
    have := ((VLoc.verifyAll (B := B) E prog []).dealt s0 c c' _ e).2 (by
      refine le_trans (le_of_eq ?_) (le_of_eq e5)
      show 0 + _ = _
      rw [Nat.zero_add]
      rfl)
    exact congrArg (fun r => withProof r.2 CompiledProof.default) this
  · rintro c ⟨a, s, x, e1, e2, e3, e4, e5⟩
    exact ⟨⟨a, s, x, e1, e2, e3, e4⟩, e5⟩

/-- C111, the library's own prover.  Nothing is assumed of the data.  For given polynomials `P`, the probability that the prover's code makes a proof, the verifier accepts it, `P` opens the prover's
commitments and yet a check of the program has not established what it is meant to establish is at most the sum of the bounds of the checks and one for each challenge that folds the claims, divided by
the size of the field. -/
theorem C111_own_prover [Finite F] {V : Env F C} {N n d : Nat} {prog : List (Step F)} {cols : List (Mle F)} (pcs : Oracle F C → Pcs F C B) (hd : 1 ≤ d) (hchar : NatsNonzero F (d + 1)) (h2 : (2 : F) ≠ 0)
    (hn : NatsNonzero F (2 ^ N)) (hC : CanCommit V.commit N) (hcols : ∀ p ∈ cols, p.WF ∧ p.numVars ≤ N) (hne : cols ≠ []) (hf : Step.FitsAll N (startCols cols) prog)
    (hR : Step.RunsAll V.debug (startCols cols) prog) (hX : Step.ExactAll N (startCols cols) prog) {M q : Nat} (hM : (Step.soundBoundsAll N (startCols cols) prog).length + (q + N + 1) ≤ M)
    (P : C → List F → F) :
    ChanceAtMost ((Step.soundBoundsAll N (startCols cols) prog).sum + (q + N + 1)) fun c : Fin M → F => ∃ t' p,
      OwnPasses V pcs (fun V => Step.proveAll V prog (startHandles cols)) (fun V => Step.verifyAll V prog (startHandles cols)) cols (dealt c) t' p ∧ Compilable t' n d N ∧
      t'.zeroClaims.length + t'.sumClaims.length ≤ q ∧ OpensRun P N t' ∧ ¬ Step.MeansAll p P N (startCols cols) prog :=
  own_chance (C109_program pcs hd hchar h2 hn hC hcols hne hf hR hX) (proveAll_loc V prog _) hM P

/-! ### A program that asks for the impossible -/
namespace GEx
open IEx

/-- Whatever proof has been prepared and whatever polynomials are behind its commitments, at most four in seven sequences of challenges let the verifier's side of `bad86` (a column that is a permutation of
itself plus one) succeed with true claims. -/
theorem impossible111 (E : Env F7 Cm) (M : Nat) (hM : 1 ≤ M) (P : Cm → List F7 → F7) (pf : CompiledProof F7 Cm Unit) : ChanceAtMost 4 fun c : Fin M → F7 => ∃ a s',
    Step.verifyAll (E.withH (dealt c)) bad86 [] (withProof (VState.init : VState F7 Cm Unit).st pf) = (.ok a, s') ∧ ClaimsTrue P 1 s' := by
  have e : Step.soundBoundsAll 1 [] bad86 = [4] := rfl
  have := C111_fixed_proof (E := E) (N := 1) (prog := bad86) (M := M) (by decide) (fun k h1 h2 => by interval_cases k <;> decide) bad86_fits (by rw [e]; exact hM) P pf
  rw [e] at this
  exact this.mono fun c ⟨a, s', h1, h2⟩ => ⟨a, s', h1, h2, bad86_false pf P⟩

end GEx

/-! ### The false program of C109 -/
namespace PfEx

/-- The two checks draw no challenges; four fold the claims (two for the claims to vanish, one for the variable, one for the sum). -/
example : Step.soundBoundsAll 1 (startCols cols84) prog109 = [] := by decide +kernel

/-- Out of the sequences of challenges at most four in seven make the verifier accept that the columns [1, 2] and [1, 1] are selectors. -/
theorem falseSelectors111 (n M : Nat) (hM : 4 ≤ M) : ChanceAtMost 4 fun c : Fin M → ZMod 7 => ∃ t' p,
    OwnPasses env84 (fun H => kzgOf (E := E7) H (1 : ZMod 7) (1 : ZMod 7) [3]) (fun V => Step.proveAll V prog109 (startHandles cols84)) (fun V => Step.verifyAll V prog109 (startHandles cols84)) cols84
      (dealt c) t' p ∧ Compilable t' n 3 1 ∧ t'.zeroClaims.length + t'.sumClaims.length ≤ 2 ∧ OpensRun poly109 1 t' := by
  have := C111_own_prover (V := env84) (n := n) (N := 1) (d := 3) (prog := prog109) (cols := cols84) (q := 2) (M := M) (fun H => kzgOf (E := E7) H (1 : ZMod 7) (1 : ZMod 7) [3]) (by decide) nats4 (by decide)
    (fun k h1 h2 => nats4 k h1 (by omega)) (kzg_canCommit (E := E7) (g := (1 : ZMod 7)) (h := (1 : ZMod 7)) (T := [3]) (by decide)) (by decide) (by decide) (by
    refine ⟨⟨?_, ?_, trivial⟩, ⟨?_, ?_, trivial⟩, trivial⟩ <;> decide) ⟨trivial, trivial, trivial⟩ ⟨trivial, trivial, trivial⟩ (by
      rw [show Step.soundBoundsAll 1 (startCols cols84) prog109 = [] by decide +kernel]
      exact hM) poly109
  rw [show Step.soundBoundsAll 1 (startCols cols84) prog109 = [] by decide +kernel] at this
  refine this.mono fun c hc => ?_
  obtain ⟨t', p, h1, h2, h3, h4⟩ := hc
  refine ⟨t', p, h1, h2, h3, h4, ?_⟩
  rintro ⟨h, -⟩
  have := h 1 (by decide)
  revert this
  decide +kernel

/-- Ten challenges of which the fourth is zero. -/
def cs111 : Fin 10 → ZMod 7 := ![5, 5, 5, 0, 5, 5, 5, 5, 5, 5]

/-- With these the false proof is accepted: the event does occur. -/
example : verdict109 (dealt cs111) = .ok () ∧ (prover109 (dealt cs111)).2.zeroClaims = [6, 10] ∧ (prover109 (dealt cs111)).2.sumClaims = [] := by decide +kernel

end PfEx

end Zksql
