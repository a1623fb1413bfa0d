import Verif.Lemmas.ProgramDegree
import Verif.Props.Cost
/-!
C113. The degree of what a program makes the verifier claim is bounded by a number computed from the program alone.
-/
set_option linter.unusedSectionVars false
namespace Zksql
open Spec VSt
variable {F C B : Type} [Field F] [DecidableEq F]

/-- What a run of a program leaves behind is well-formed, and what was there stays. -/
theorem program_later {E : Env F C} {N : Nat} {prog : List (Step F)} {hs : List TPoly} {s s' : VSt F C B} {a : List TPoly} (h2 : (2 : F) ≠ 0) (hn : NatsNonzero F (2 ^ N)) (hS : Sane s)
    (hk : KnownAll s hs) (hf : Step.FitsAll N (blank F hs) prog) (h : Step.verifyAll E prog hs s = (.ok a, s')) : Sane s' ∧ Onward s s' := by
  obtain ⟨bad, hbad⟩ := program_soundF (E := E) (B := B) h2 hn hS hk sized_blank hf
  obtain ⟨L, -⟩ := hbad () s.own.proof s.own.sumClaims ⟨fun _ h => h, hS.sums⟩ E.H a s' h
  have g := VGoes.program E prog hs s ⟨hS.wf.lt, hS.mats⟩
  rw [h] at g
  exact ⟨L.sane, g⟩

theorem claimDegree_le {s : VSt F C B} {D : Nat} : claimDegree s ≤ D ↔ (∀ h ∈ s.own.zeroClaims, handleDegree s h ≤ D) ∧ ∀ c ∈ s.own.sumClaims, handleDegree s c.1 ≤ D := by
  have key : ∀ l : List Nat, l.foldr max 0 ≤ D ↔ ∀ x ∈ l, x ≤ D := by
    intro l
    induction l with
    | nil => simp
    | cons x r ih => simp [ih]
  unfold claimDegree
  rw [key]
  simp only [List.mem_map, List.mem_append, forall_exists_index, and_imp, forall_apply_eq_imp_iff₂, or_imp, forall_and]
  exact Iff.rfl

/-- C113: the claims after a program have the degrees of the claims before it or at most the degree the table gives, whatever the proof contains.  `L` are the degrees of the columns the
program starts with. -/
theorem C113_program {E : Env F C} {N : Nat} {prog : List (Step F)} {hs : List TPoly} {L : List Nat} {s s' : VSt F C B} {a : List TPoly} (h2 : (2 : F) ≠ 0) (hn : NatsNonzero F (2 ^ N))
    (hS : Sane s) (hk : KnownAll s hs) (hf : Step.FitsAll N (blank F hs) prog) (hL : hs.map (fun x => handleDegree s x.id) = L) (h : Step.verifyAll E prog hs s = (.ok a, s')) :
    claimDegree s' ≤ max (claimDegree s) (Step.degreeAll L prog) := by
  obtain ⟨hS', g⟩ := program_later h2 hn hS hk hf h
  have ext : ∀ {x : Nat}, Spec.Known s x → dg s'.sh.comms x = handleDegree s x := fun {x} hx => degreeOf_ext hS.wf.refs g.closures _ x hx
  have hD : Deg.Degrees s'.sh.comms hs L := by
    subst hL
    refine ⟨by simp, fun i hi => le_of_eq ?_⟩
    unfold at'
    rw [List.getD_eq_getElem _ _ hi, List.getD_eq_getElem _ _ (by simpa using hi), List.getElem_map]
    exact ext (hk _ (List.getElem_mem hi))
  obtain ⟨z, u, -⟩ := (Deg.verifyAll (M := s'.sh.comms) E True prog hs L (blank F hs) (by rw [← hD.1, (sized_blank (F := F)).1]) hf fun _ => hD).2 trivial hS'.wf.refs s a s' h ⟨hS.wf.lt, hS.mats⟩
    fun _ _ h => h
  have h0 := (claimDegree_le (s := s)).1 (Nat.le_refl _)
  refine claimDegree_le.2 ⟨fun x hx => ?_, fun c hc => ?_⟩
  · rcases z x hx with hx | hx
    · exact (ext (hS.zeros x hx)).le.trans ((h0.1 x hx).trans (Nat.le_max_left _ _))
    · exact hx.trans (Nat.le_max_right _ _)
  · rcases u c hc with hc | hc
    · exact (ext (hS.sums c hc)).le.trans ((h0.2 c hc).trans (Nat.le_max_left _ _))
    · exact hc.trans (Nat.le_max_right _ _)

/-- C113 for one check, on columns of degree at most `d`. -/
theorem C113_check {E : Env F C} {N d : Nat} {hs : List TPoly} {c : Check Nat} {s s' : VSt F C B} (h2 : (2 : F) ≠ 0) (hn : NatsNonzero F (2 ^ N)) (hS : Sane s) (hk : KnownAll s hs)
    (hi : ∀ i ∈ c.names, i < hs.length) (hf : c.Fits N (colAt (blank F hs))) (hd : 1 ≤ d) (hdeg : ∀ i ∈ c.names, handleDegree s (at' hs i).id ≤ d)
    (h : (c.map (at' hs)).verify E s = (.ok (), s')) : claimDegree s' ≤ max (claimDegree s) (c.degree d) := by
  have hf' : Step.FitsAll N (blank F hs) [.check c] := ⟨⟨fun i h => (hi i h).trans_eq sized_blank.1, hf⟩, trivial⟩
  have h' : Step.verifyAll E [.check c] hs s = (.ok hs, s') := by
    change ((c.map (at' hs)).verify E >>= fun _ => pure hs) s = _
    rw [Act.bind_ok h]
    rfl
  obtain ⟨hS', g⟩ := program_later h2 hn hS hk hf' h'
  have ext : ∀ {x : Nat}, Spec.Known s x → dg s'.sh.comms x = handleDegree s x := fun {x} hx => degreeOf_ext hS.wf.refs g.closures _ x hx
  obtain ⟨z, u, -⟩ := (Deg.check (M := s'.sh.comms) (P := True) E (c.map (at' hs)) hd fun _ k hk' => by
    rw [check_names_map, List.mem_map] at hk'
    obtain ⟨i, hm, rfl⟩ := hk'
    refine (ext (hk _ ?_)).le.trans (hdeg i hm)
    unfold at'
    rw [List.getD_eq_getElem _ _ (hi i hm)]
    exact List.getElem_mem _).2 trivial hS'.wf.refs s () s' h ⟨hS.wf.lt, hS.mats⟩ fun _ _ h => h
  rw [Deg.degree_map] at z u
  have h0 := (claimDegree_le (s := s)).1 (Nat.le_refl _)
  refine claimDegree_le.2 ⟨fun x hx => ?_, fun c hc => ?_⟩
  · rcases z x hx with hx | hx
    · exact (ext (hS.zeros x hx)).le.trans ((h0.1 x hx).trans (Nat.le_max_left _ _))
    · exact hx.trans (Nat.le_max_right _ _)
  · rcases u c hc with hc | hc
    · exact (ext (hS.sums c hc)).le.trans ((h0.2 c hc).trans (Nat.le_max_left _ _))
    · exact hc.trans (Nat.le_max_right _ _)

/-- C113 for a new verifier. -/
theorem C113_from_scratch {E : Env F C} {N : Nat} {prog : List (Step F)} {pf : CompiledProof F C B} {s' : VSt F C B} {a : List TPoly} (h2 : (2 : F) ≠ 0) (hn : NatsNonzero F (2 ^ N))
    (hf : Step.FitsAll N [] prog) (h : Step.verifyAll E prog [] (withProof (VState.init : VState F C B).st pf) = (.ok a, s')) : claimDegree s' ≤ Step.degreeAll [] prog := by
  have hS : Sane (VState.init : VState F C B).st := VReachable.sane (debug := true) (H := fun _ _ => 0) ⟨[], rfl⟩
  have hS' : Sane (withProof (VState.init : VState F C B).st pf) := ⟨⟨hS.wf.refs, hS.wf.lt⟩, hS.queries, hS.mats, hS.absorbed, hS.sums, hS.zeros⟩
  have := C113_program (hs := []) (L := []) h2 hn hS' (by intro a ha; simp at ha) hf rfl h
  rwa [show claimDegree (withProof (VState.init : VState F C B).st pf) = 0 from rfl, Nat.zero_max] at this

/-- C113, C112 and C111 together: for a proof prepared in advance, the probability that the verifier accepts a false statement is bounded by numbers computed from the program, the number of
variables and the degree written in the proof. -/
theorem C113_session_fixed_proof [Finite F] {E : Env F C} {N : Nat} {prog : List (Step F)} (h2 : (2 : F) ≠ 0) (hn : NatsNonzero F (2 ^ N)) (hf : Step.FitsAll N [] prog) {M : Nat}
    (hM : (Step.costAll prog).draws + (claimsOf prog + N + 1) + N ≤ M) (P : C → List F → F) (hP : ∀ c, Multilinear (P c)) (pf : CompiledProof F C B) (hN : pf.scNumVars = N)
    (hdeg : NatsNonzero F pf.scMaxDegree) :
    ChanceAtMost ((Step.soundBoundsAll N [] prog).sum + (claimsOf prog + N + 1) + N * max pf.scMaxDegree (Step.degreeAll [] prog + 1)) fun c : Fin M → F => ∃ a s tr,
      Step.verifyAll (E.withH (dealt c)) prog [] (withProof (VState.init : VState F C B).st pf) = (.ok a, s) ∧ VerifiedWith (dealt c) P s tr ∧ ¬ Step.MeansAll pf P N [] prog := by
  refine (C112_session_fixed_proof (E := E) h2 hn hf hM P hP pf hN hdeg).mono ?_
  rintro c ⟨a, s, tr, e1, e2, e3⟩
  have := C113_from_scratch h2 hn hf e1
  exact ⟨a, s, tr, e1, e2, by omega, e3⟩
/-! ### The bounds are attained -/
namespace VerEx
open SumEx (G EC H env)

/-- The program of C95 has claims of degree 3, and 3 is what the table gives. -/
example : Step.degreeAll [] prog = 3 := by decide

/-- A proof with a commitment and a value for every handle. -/
def full : CompiledProof G G (BatchProof EC) :=
  { (CompiledProof.default : CompiledProof G G (BatchProof EC)) with
    comms := (List.range 150).map fun i => (i, (0 : G))
    sumcheckClaims := (List.range 150).map fun i => (i, (0 : G)) }

/-- The degree of the claims after a program. -/
def attained (prog : List (Step G)) : Option Nat :=
  match Step.verifyAll (env.withH fun _ _ => 0) prog [] (withProof (VState.init : VState G G (BatchProof EC)).st full) with
  | (.ok _, s') => some (claimDegree s')
  | _ => none

/-- Four columns and two products. -/
def columns : List (Step G) := [.commit ⟨1, [1, 2]⟩, .commit ⟨1, [1, 1]⟩, .commit ⟨1, [2, 1]⟩, .commit ⟨1, [2, 1]⟩, .mul 0 1, .mul 2 3]

/-- Each kind of check but the join reduction, whose run is long, on columns of degree 2. -/
def kinds : List (Check Nat) :=
  [.multiset [((4, 5), 4)] [((4, 5), 4)], .bagEq (4, 5) (4, 5), .bagSum (4, 5) (4, 5) (4, 5), .inclusion (4, 5) (4, 5), .inclusionAdvice (4, 5) (4, 5) 4, .noZeros (4, 5), .selector 4,
   .permutation (4, 5) (4, 5) 4, .sort (4, 5) (4, 5), .support (4, 5) (4, 5) (4, 5), .supportAdvice (4, 5) (4, 5) 4 (4, 5), .disjoint (4, 5) (4, 5) (4, 5), .setDisjoint (4, 5) (4, 5) (4, 5),
   .union (4, 5) (4, 5) (4, 5) (4, 5), .diff (4, 5) (4, 5) (4, 5) (4, 5) 4 (4, 5), .intersect (4, 5) (4, 5) (4, 5) (4, 5) (4, 5) (4, 5), .indexTransform ([4, 5], 4) ([4, 5], 4),
   .joinAdvice ([4, 5], 4) ([4, 5], 4) 0 0 [4, 5], .groupBy ([4, 5], 4) 0 (4, 5) 4 [(0, .sum, 4)] (4, 5)]

/-- For each of these kinds of check the claims of some run have the degree of the table. -/
theorem attained_kinds : kinds.map (fun c => attained (columns ++ [.check c])) = kinds.map fun c => some (Step.degreeAll [] (columns ++ [.check c])) := by decide +kernel

/-- So do those of a join, whose columns have degree 1 again. -/
theorem attained_join : attained (columns ++ [.join ([4, 5], 4) ([5], 5) 0 0, .check (.noZeros (6, 7))]) = some 7 ∧
    Step.degreeAll [] (columns ++ [.join ([4, 5], 4) ([5], 5) 0 0, .check (.noZeros (6, 7))]) = 7 := by decide +kernel

end VerEx

end Zksql
