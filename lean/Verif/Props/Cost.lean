import Verif.Lemmas.CostP
import Verif.Props.Chance
import Verif.Props.Lockstep
/-!
# Property C112: what a check costs is fixed by the check
-/
set_option linter.unusedSectionVars false
namespace Zksql
open Spec
variable {F C B : Type} [Field F] [DecidableEq F]

theorem givenP_of {t : PTracker F C} (h : FreshIds t) : GivenP t := by
  intro e he
  rcases hc : t.comms.lookup e.1 with _ | c
  · exact absurd he (fun h' => by
      rw [List.lookup_eq_none_iff] at hc
      simpa using hc e h')
  · exact h _ _ hc

theorem givenV_of {s : VSt F C B} (h : Sane s) : GivenV s := by
  intro e he
  rcases hc : s.own.matComms.lookup e.1 with _ | c
  · exact absurd he (fun h' => by
      rw [List.lookup_eq_none_iff] at hc
      simpa using hc e h')
  · exact h.mats _ _ hc

/-- C112, the prover's side of a check: every successful run adds exactly the numbers of commitments, challenges, claims of zeros and claims of sums that the table says, whatever the data, the
commitment scheme and the challenges. -/
theorem C112_check_prover {E : Env F C} {c : Check TPoly} {t t' : PTracker F C} {a : Unit} (hf : FreshIds t) (h : c.prove E t = (.ok a, t')) : spent t' = spent t + c.cost :=
  ((CostP.check E c t a t' h).1 (givenP_of hf)).2

/-- C112, the verifier's side of a check: the same numbers, whatever the proof. -/
theorem C112_check_verifier {E : Env F C} {c : Check TPoly} {s s' : VSt F C B} {a : Unit} (hs : Sane s) (h : c.verify E s = (.ok a, s')) : spentV s' = spentV s + c.cost :=
  ((CostV.check E c s a s' h).1 (givenV_of hs)).2

/-- C112, the prover's side of a program: the sum of the prices of its steps. -/
theorem C112_program_prover {E : Env F C} {prog : List (Step F)} {hs : List TPoly} {t t' : PTracker F C} {a : List TPoly} (hf : FreshIds t) (h : Step.proveAll E prog hs t = (.ok a, t')) :
    spent t' = spent t + Step.costAll prog :=
  ((CostP.proveAll E prog hs t a t' h).1 (givenP_of hf)).2

/-- C112, the verifier's side of a program. -/
theorem C112_program_verifier {E : Env F C} {prog : List (Step F)} {hs : List TPoly} {s s' : VSt F C B} {a : List TPoly} (hs0 : Sane s) (h : Step.verifyAll E prog hs s = (.ok a, s')) :
    spentV s' = spentV s + Step.costAll prog :=
  ((CostV.verifyAll E prog hs s a s' h).1 (givenV_of hs0)).2

/-- The price of committing to columns. -/
theorem committed_spent {commit : Mle F → Res C} {cols : List (Mle F)} (h : ∀ p ∈ cols, ∃ c, commit p = .ok c) :
    GivenP (committed commit cols) ∧ spent (committed commit cols) = ⟨cols.length, 0, 0, 0⟩ := by
  have key : ∀ (cols : List (Mle F)) (t : PTracker F C), (∀ p ∈ cols, ∃ c, commit p = .ok c) → GivenP t →
      GivenP (cols.foldl (fun t p => (TPoly.trackAndCommit commit p t).2) t) ∧
      spent (cols.foldl (fun t p => (TPoly.trackAndCommit commit p t).2) t) = spent t + ⟨cols.length, 0, 0, 0⟩ := by
    intro cols
    induction cols with
    | nil => exact fun t _ hg => ⟨hg, rfl⟩
    | cons p r ih =>
      intro t hc hg
      obtain ⟨c, hp⟩ := hc p (.head _)
      obtain ⟨a, ha⟩ : ∃ a, TPoly.trackAndCommit commit p t = (.ok a, (TPoly.trackAndCommit commit p t).2) := by
        refine ⟨⟨t.idCounter, p.numVars⟩, ?_⟩
        unfold TPoly.trackAndCommit PTracker.trackAndCommit
        rw [hp]
        rfl
      obtain ⟨g1, g2⟩ := (CostP.commit commit p t a _ ha).1 hg
      obtain ⟨g3, g4⟩ := ih _ (fun q hq => hc q (.tail _ hq)) g1
      refine ⟨g3, g4.trans ?_⟩
      rw [g2, cost_add_assoc]
      simp [cost_add, Nat.add_comm]
  obtain ⟨h1, h2⟩ := key cols PTracker.new h (fun e he => by simp [PTracker.new] at he)
  refine ⟨h1, h2.trans ?_⟩
  rw [show spent (PTracker.new : PTracker F C) = 0 from rfl, cost_zero_add]

/-- C112, the length of a proof: it contains one commitment for each column and those the program's steps cost. -/
theorem C112_proof_commitments {E : Env F C} {prog : List (Step F)} {cols : List (Mle F)} {t' t2 : PTracker F C} {a : List TPoly} {debug : Bool} {pcs : Pcs F C B} {H : Oracle F C}
    {p : CompiledProof F C B} (hC : ∀ q ∈ cols, ∃ c, E.commit q = .ok c) (h : Step.proveAll E prog (startHandles cols) (committed E.commit cols) = (.ok a, t'))
    (hc : PTracker.compile debug pcs H t' = (.ok p, t2)) : p.comms.length = cols.length + (Step.costAll prog).commits := by
  rw [compile_comms hc]
  obtain ⟨g1, g2⟩ := committed_spent hC
  have := ((CostP.proveAll E prog _ _ a t' h).1 g1).2
  rw [g2] at this
  exact congrArg Cost.commits this

/-- C112: two provers of the same program have the same numbers, whatever their data, commitment schemes and challenges; so has the verifier. -/
theorem C112_same {E E' : Env F C} {V : Env F C} {prog : List (Step F)} {hs hs' hv : List TPoly} {t t' u u' : PTracker F C} {s s' : VSt F C B} {a b c : List TPoly} (hf : FreshIds t) (hu : FreshIds u)
    (hS : Sane s) (e : spent t = spent u) (e' : spent t = spentV s) (h1 : Step.proveAll E prog hs t = (.ok a, t')) (h2 : Step.proveAll E' prog hs' u = (.ok b, u'))
    (h3 : Step.verifyAll V prog hv s = (.ok c, s')) : spent t' = spent u' ∧ spent t' = spentV s' := by
  rw [C112_program_prover hf h1, C112_program_prover hu h2, C112_program_verifier hS h3, ← e, ← e']
  exact ⟨rfl, rfl⟩

theorem soundBounds_draws {K : Type} (N : Nat) (W : K → Column F) : ∀ c : Check K, (c.soundBounds N W).length = c.cost.draws
  | .groupBy _ _ _ _ aggs _ => by
    simp [Check.soundBounds, Check.cost, List.countP_eq_length_filter]
    omega
  | .multiset _ _ | .bagEq _ _ | .bagSum _ _ _ | .inclusion _ _ | .inclusionAdvice _ _ _ | .noZeros _ | .selector _ | .permutation _ _ _ | .sort _ _ | .support _ _ _
  | .supportAdvice _ _ _ _ | .disjoint _ _ _ | .setDisjoint _ _ _ | .union _ _ _ _ | .diff _ _ _ _ _ _ | .intersect _ _ _ _ _ _ | .joinReduction _ _ _ _ _
  | .indexTransform _ _ | .joinAdvice _ _ _ _ _ => rfl

/-- C112: the bounds of C86 are for as many challenges as the table says. -/
theorem C112_bounds (N : Nat) : ∀ (prog : List (Step F)) (W : List (Column F)), (Step.soundBoundsAll N W prog).length = (Step.costAll prog).draws
  | [], _ => rfl
  | .check c :: r, W => by
    change (c.soundBounds N (colAt W) ++ Step.soundBoundsAll N W r).length = c.cost.draws + (Step.costAll r).draws
    rw [List.length_append, soundBounds_draws, C112_bounds N r W]
  | .join a b ai bi :: r, W => by
    change ([1, _] ++ Step.soundBoundsAll N _ r).length = 2 + (Step.costAll r).draws
    rw [List.length_append, C112_bounds N r _]
    rfl
  | .commit _ :: r, _ | .add _ _ :: r, _ | .sub _ _ :: r, _ | .mul _ _ :: r, _ | .addScalar _ _ :: r, _ | .mulScalar _ _ :: r, _ =>
    (C112_bounds N r _).trans (by
      change _ = 0 + (Step.costAll r).draws
      rw [Nat.zero_add])

/-- The number of claims of a program. -/
def claimsOf (prog : List (Step F)) : Nat := (Step.costAll prog).zeros + (Step.costAll prog).sums

/-- C112 and C111 together: for a proof prepared in advance the bound of the whole session is given by the program, the number of variables and the degree. -/
theorem C112_session_fixed_proof [Finite F] {E : Env F C} {N D : Nat} {prog : List (Step F)} (h2 : (2 : F) ≠ 0) (hn : NatsNonzero F (2 ^ N)) (hf : Step.FitsAll N [] prog) {M : Nat}
    (hM : (Step.costAll prog).draws + (claimsOf prog + N + 1) + N ≤ M) (P : C → List F → F) (hP : ∀ c, Multilinear (P c)) (pf : CompiledProof F C B) (hN : pf.scNumVars = N)
    (hdeg : NatsNonzero F pf.scMaxDegree) :
    ChanceAtMost ((Step.soundBoundsAll N [] prog).sum + (claimsOf prog + N + 1) + N * D) fun c : Fin M → F => ∃ a s tr,
      Step.verifyAll (E.withH (dealt c)) prog [] (withProof (VState.init : VState F C B).st pf) = (.ok a, s) ∧ VerifiedWith (dealt c) P s tr ∧
      max pf.scMaxDegree (claimDegree s + 1) ≤ D ∧ ¬ Step.MeansAll pf P N [] prog := by
  refine (C111_session_fixed_proof (E := E) h2 hn hf (by rw [C112_bounds]; exact hM) P hP pf hN hdeg (D := D) (q := claimsOf prog)).mono ?_
  rintro c ⟨a, s, tr, e1, e2, e3, e4⟩
  refine ⟨a, s, tr, e1, e2, ?_, e3, e4⟩
  have := ((CostV.verifyAll _ prog [] _ a s e1).1 (fun e he => by simp [withProof, VState.init, VSt.new] at he)).2
  have e0 : spentV (withProof (VState.init : VState F C B).st pf) = 0 := rfl
  rw [e0, cost_zero_add] at this
  change (spentV s).zeros + (spentV s).sums = _
  rw [this]
  rfl

/-- C112 and C111 together, for the library's own prover. -/
theorem C112_own_prover [Finite F] {V : Env F C} {N n d : Nat} {prog : List (Step F)} {cols : List (Mle F)} (pcs : Oracle F C → Pcs F C B) (hd : 1 ≤ d) (hchar : NatsNonzero F (d + 1)) (h2 : (2 : F) ≠ 0)
    (hn : NatsNonzero F (2 ^ N)) (hC : CanCommit V.commit N) (hcols : ∀ p ∈ cols, p.WF ∧ p.numVars ≤ N) (hne : cols ≠ []) (hf : Step.FitsAll N (startCols cols) prog)
    (hR : Step.RunsAll V.debug (startCols cols) prog) (hX : Step.ExactAll N (startCols cols) prog) {M : Nat} (hM : (Step.costAll prog).draws + (claimsOf prog + N + 1) ≤ M)
    (P : C → List F → F) :
    ChanceAtMost ((Step.soundBoundsAll N (startCols cols) prog).sum + (claimsOf prog + N + 1)) fun c : Fin M → F => ∃ t' p,
      OwnPasses V pcs (fun V => Step.proveAll V prog (startHandles cols)) (fun V => Step.verifyAll V prog (startHandles cols)) cols (dealt c) t' p ∧ Compilable t' n d N ∧
      OpensRun P N t' ∧ ¬ Step.MeansAll p P N (startCols cols) prog := by
  refine (C111_own_prover (n := n) (q := claimsOf prog) pcs hd hchar h2 hn hC hcols hne hf hR hX (by rw [C112_bounds]; exact hM) P).mono ?_
  rintro c ⟨t', p, h, h1, h2, h3⟩
  refine ⟨t', p, h, h1, ?_, h2, h3⟩
  obtain ⟨a, debug, vs, b, s', r1, -⟩ := h
  obtain ⟨g1, g2⟩ := committed_spent (commit := V.commit) (cols := cols) fun q hq => hC q (hcols q hq).1 (hcols q hq).2
  have := ((CostP.proveAll _ prog _ _ a t' r1).1 g1).2
  rw [g2] at this
  change (spent t').zeros + (spent t').sums ≤ _
  rw [this]
  exact le_of_eq (by
    change (0 + (Step.costAll prog).zeros) + (0 + (Step.costAll prog).sums) = _
    rw [Nat.zero_add, Nat.zero_add]
    rfl)

/-! ### A program with commitments, and a join -/
namespace GEx
open IEx

/-- Six commitments: three columns, two inverses for the comparison and one for the absence of zeros.  One challenge, four zeros, two sums. -/
example : Step.costAll prog86 = ⟨6, 1, 4, 2⟩ := by decide

/-- A run of the prover from scratch succeeds and spends that. -/
theorem spent112 : ((Step.proveAll (env 5) prog86 [] PTracker.new).1.isOk = true) ∧ spent (Step.proveAll (env 5) prog86 [] PTracker.new).2 = ⟨6, 1, 4, 2⟩ := by decide +kernel

end GEx

end Zksql
