import Verif.Lemmas.OnlineV
import Verif.Spec.Verified
/-!
Verifying the claims depends on the oracle only through the challenges drawn.
-/
set_option linter.unusedSectionVars false
namespace Zksql
open Spec
variable {F C B : Type} [Field F] [DecidableEq F]

namespace VSt

/-- Drawing `n` challenges one after the other. -/
def chalsA (H : Oracle F C) (l : String) : Nat → Act (VSt F C B) (List F)
  | 0 => pure []
  | n + 1 => do
    let c ← VSt.challenge H l
    let cs ← chalsA H l n
    pure (c :: cs)

theorem chalsA_loc (l : String) : ∀ n : Nat, VLoc (F := F) (C := C) (B := B) fun H => chalsA H l n
  | 0 => .pure _
  | n + 1 => .bind (.challenge l) fun _ => .bind (chalsA_loc l n) fun _ => .pure _

theorem challenge_started (H : Oracle F C) (l : String) (s : VSt F C B) (he : s.own.transcript.isEmpty = false) :
    VSt.challenge H l s = (.ok (chalStep H s.own.transcript l).1, { s with own := { s.own with transcript := (chalStep H s.own.transcript l).2 } }) := by
  unfold VSt.challenge
  rw [challenge_ok H s.own.transcript l he]

theorem chalsA_eq (H : Oracle F C) (l : String) : ∀ (n : Nat) (s : VSt F C B) (cs : List F) (x : Transcript F C), s.own.transcript.isEmpty = false →
    s.own.transcript.challengeLoop H l n = .ok (cs, x) → chalsA H l n s = (.ok cs, { s with own := { s.own with transcript := x } })
  | 0, s, cs, x, _, h => by
    obtain ⟨rfl, rfl⟩ := Prod.mk.inj (Except.ok.inj h)
    rfl
  | n + 1, s, cs, x, he, h => by
    have e1 := challenge_ok H s.own.transcript l he
    obtain ⟨r, x', e2, -⟩ := challengeLoop_ok H l n (chalStep H s.own.transcript l).2 rfl
    have e3 := challenge_started H l s he
    simp only [Transcript.challengeLoop, e1, ok_bind, e2] at h
    obtain ⟨rfl, rfl⟩ := Prod.mk.inj (Except.ok.inj h)
    unfold chalsA
    rw [Act.bind_ok e3, Act.bind_ok (chalsA_eq H l n { s with own := { s.own with transcript := (chalStep H s.own.transcript l).2 } } r x' rfl e2)]
    rfl

theorem challengesU_loc (l : String) (n : Nat) : VLoc (F := F) (C := C) (B := B) fun H => challengesU H l n := by
  intro s
  rcases e : s.own.transcript.isEmpty
  · have key : ∀ H, challengesU H l n s = chalsA H l n s := by
      intro H
      obtain ⟨r, x, h1, -⟩ := challengeLoop_ok H l n s.own.transcript e
      rw [chalsA_eq H l n s r x e h1]
      unfold challengesU Transcript.challenges
      rw [if_neg (by rw [e]; decide), h1]
    simp only [key]
    exact chalsA_loc l n s
  · have key : ∀ H, challengesU H l n s = (.error .panic, s) := by
      intro H
      unfold challengesU Transcript.challenges
      rw [if_pos e]
    simp only [key]
    exact ⟨fun _ => .refl _, fun _ _ => .inl trivial⟩

theorem challengeU_loc (l : String) : VLoc (F := F) (C := C) (B := B) fun H => challengeU H l := (VLoc.challenge l).expect

theorem foldZeroClaims_loc : ∀ (l : List Nat) (a : Nat), VLoc (F := F) (C := C) (B := B) fun H => foldZeroClaims H l a
  | [], _ => .pure _
  | _ :: r, _ => .bind (challengeU_loc _) fun _ => .bind (.mulScalar _ _) fun _ => .bind (.add _ _) fun _ => foldZeroClaims_loc r _

theorem foldSumClaims_loc : ∀ (l : List (Nat × F)) (a : Nat) (s : F), VLoc (F := F) (C := C) (B := B) fun H => foldSumClaims H l a s
  | [], _, _ => .pure _
  | _ :: r, _, _ => .bind (challengeU_loc _) fun _ => .bind (.mulScalar _ _) fun _ => .bind (.add _ _) fun _ => foldSumClaims_loc r _ _

theorem convertZero_loc (nv : Nat) : VLoc (F := F) (C := C) (B := B) fun H => convertZero H nv :=
  .bind (.virtual _) fun _ => .bind (LocT.reads _) fun _ => .bind (foldZeroClaims_loc _ _) fun _ => .bind (challengesU_loc _ _) fun _ => .bind (.virtual _) fun _ => .bind (.mul _ _) fun _ => .sumClaim _ _

theorem aggregate_loc : VLoc (F := F) (C := C) (B := B) fun H => aggregate H :=
  .bind (LocT.reads _) fun _ => .bind (convertZero_loc _) fun _ => .bind (.virtual _) fun _ => .bind (LocT.reads _) fun _ => foldSumClaims_loc _ _ _

/-- The rounds of the sumcheck. -/
def roundsA (H : Oracle F C) (pf : IOPProof F) : Nat → Nat → VerifierState F → Act (VSt F C B) (VerifierState F)
  | 0, _, st => pure st
  | n + 1, i, st => do
    let msg ← Act.lift (idx pf.proofs i)
    VSt.append "prover msg" (.elems msg)
    if st.finished then Act.lift (.error (.err .invalidVerifier)) else do
    let c ← VSt.challenge H "Internal round"
    roundsA H pf n (i + 1) (st.push msg c)

theorem append_loc (l : String) (d : TItem F C) : VLoc (F := F) (C := C) (B := B) fun _ => VSt.append l d := .on fun _ => ⟨⟨_, rfl⟩, rfl⟩

theorem roundsA_loc (pf : IOPProof F) : ∀ (n i : Nat) (st : VerifierState F), VLoc (F := F) (C := C) (B := B) fun H => roundsA H pf n i st
  | 0, _, _ => .pure _
  | n + 1, i, st => by
    unfold roundsA
    exact .bind (.lift _) fun _ => .bind (append_loc _ _) fun _ => .ite (.lift _) (.bind (.challenge _) fun _ => roundsA_loc pf n _ _)

theorem roundsA_eq (H : Oracle F C) (pf : IOPProof F) : ∀ (n i : Nat) (st st' : VerifierState F) (s : VSt F C B) (x : Transcript F C), verifyLoop H pf n i st s.own.transcript = .ok (st', x) →
    roundsA H pf n i st s = (.ok st', { s with own := { s.own with transcript := x } })
  | 0, _, st, st', s, x, h => by
    obtain ⟨rfl, rfl⟩ := Prod.mk.inj (Except.ok.inj h)
    rfl
  | n + 1, i, st, st', s, x, h => by
    unfold verifyLoop at h
    rcases e : idx pf.proofs i with w | msg
    · rw [e] at h
      cases h
    · rw [e, ok_bind] at h
      dsimp only at h
      unfold verifyRound at h
      by_cases hf : st.finished
      · rw [if_pos hf] at h
        cases h
      · rw [if_neg hf, challenge_ok H _ _ rfl, ok_bind] at h
        simp only [ok_bind] at h
        have ih := roundsA_eq H pf n (i + 1) _ st' { s with own := { s.own with transcript := (chalStep H (s.own.transcript.append "prover msg" (.elems msg)) "Internal round").2 } } x h
        unfold roundsA
        rw [e]
        have a1 : VSt.append "prover msg" (.elems msg) s = (.ok (), { s with own := { s.own with transcript := s.own.transcript.append "prover msg" (.elems msg) } }) := rfl
        rw [Act.bind_ok (m := Act.lift (.ok msg)) (a := msg) (s' := s) rfl, Act.bind_ok a1, if_neg hf, Act.bind_ok (challenge_started H "Internal round" _ rfl)]
        exact ih

/-- `SumCheck::verify` step by step. -/
def sumcheckA (H : Oracle F C) (sm : F) (pf : IOPProof F) (d n : Nat) : Act (VSt F C B) (SubClaim F) := do
  VSt.append "aux info" (.aux d n)
  let st ← roundsA H pf n 0 (verifierInit d n)
  Act.lift (checkAndGenerateSubclaim st sm)

theorem sumcheckA_loc (sm : F) (pf : IOPProof F) (d n : Nat) : VLoc (F := F) (C := C) (B := B) fun H => sumcheckA H sm pf d n :=
  .bind (append_loc _ _) fun _ => .bind (roundsA_loc _ _ _ _) fun _ => .lift _

theorem sumcheckA_eq {H : Oracle F C} {sm : F} {pf : IOPProof F} {d n : Nat} {s : VSt F C B} {sub : SubClaim F} {x : Transcript F C}
    (h : sumcheckVerify H sm pf d n s.own.transcript = .ok (sub, x)) : sumcheckA H sm pf d n s = (.ok sub, { s with own := { s.own with transcript := x } }) := by
  unfold sumcheckVerify at h
  dsimp only at h
  rcases e : verifyLoop H pf n 0 (verifierInit d n) (s.own.transcript.append "aux info" (.aux d n)) with w | ⟨st, y⟩
  · rw [e] at h
    cases h
  · rw [e, ok_bind] at h
    dsimp only at h
    rcases e2 : checkAndGenerateSubclaim st sm with w | u
    · rw [e2] at h
      cases h
    · rw [e2, ok_bind] at h
      obtain ⟨rfl, rfl⟩ := Prod.mk.inj (Except.ok.inj h)
      unfold sumcheckA
      have a1 : VSt.append "aux info" (.aux d n) s = (.ok (), { s with own := { s.own with transcript := s.own.transcript.append "aux info" (.aux d n) } }) := rfl
      rw [Act.bind_ok a1, Act.bind_ok (roundsA_eq H pf n 0 _ st { s with own := { s.own with transcript := s.own.transcript.append "aux info" (.aux d n) } } y e), e2]
      rfl

end VSt

/-- The claims are folded and the sumcheck of the proof `pf` is verified. -/
def endA (pf : CompiledProof F C B) (H : Oracle F C) : Act (VSt F C B) (SubClaim F) := VSt.aggregate H >>= fun r => VSt.sumcheckA H r.2 pf.scProof pf.scMaxDegree pf.scNumVars

theorem endA_loc (pf : CompiledProof F C B) : VLoc fun H => endA pf H := .bind VSt.aggregate_loc fun _ => VSt.sumcheckA_loc _ _ _ _

theorem endA_eq {H : Oracle F C} {P : C → List F → F} {s : VSt F C B} {x : Transcript F C} (h : VerifiedWith H P s x) : (endA s.own.proof H s).2.own.transcript = x := by
  obtain ⟨agg, sm, s1, sub, h1, h2, -⟩ := h
  unfold endA
  rw [Act.bind_ok h1, VSt.sumcheckA_eq h2]

end Zksql
