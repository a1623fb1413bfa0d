import Verif.Lemmas.OnlineP
import Verif.Lemmas.ZeroCheck
import Verif.Lemmas.EndToEnd
import Verif.Spec.OwnChance
/-!
The library's own prover under random challenges.
-/
set_option linter.unusedSectionVars false
namespace Zksql
open Spec
variable {F C B : Type} [Field F] [DecidableEq F]
/-! ### Folding the claims -/

namespace LocT
variable {S α : Type} {tr : S → Transcript F C}
theorem expect {m : Oracle F C → Act S α} (h : LocT tr m) : LocT tr fun H => Act.expect (m H) := by
  have key : ∀ (H : Oracle F C) s, (Act.expect (m H) s).2 = (m H s).2 := by
    intro H s
    unfold Act.expect
    rcases m H s with ⟨_ | _, _⟩ <;> rfl
  intro s
  refine ⟨fun H => by rw [key]; exact (h s).1 H, fun H H' => ?_⟩
  rcases (h s).2 H H' with h1 | h1
  · left
    show Act.expect (m H) s = Act.expect (m H') s
    unfold Act.expect
    rw [h1]
  · right
    rw [key, key]
    exact h1
end LocT

namespace PTracker

/-- Drawing `n` challenges one after the other. -/
def chalsA (H : Oracle F C) (l : String) : Nat → Act (PTracker F C) (List F)
  | 0 => pure []
  | n + 1 => do
    let c ← PTracker.challenge H l
    let cs ← chalsA H l n
    pure (c :: cs)

theorem chalsA_loc (l : String) : ∀ n : Nat, Loc (F := F) (C := C) fun H => chalsA H l n
  | 0 => .pure _
  | n + 1 => .bind (challenge_loc l) fun _ => .bind (chalsA_loc l n) fun _ => .pure _

theorem chalsA_eq (H : Oracle F C) (l : String) : ∀ (n : Nat) (t : PTracker F C) (cs : List F) (x : Transcript F C), t.transcript.isEmpty = false →
    t.transcript.challengeLoop H l n = .ok (cs, x) → chalsA H l n t = (.ok cs, { t with transcript := x })
  | 0, t, cs, x, _, h => by
    obtain ⟨rfl, rfl⟩ := Prod.mk.inj (Except.ok.inj h)
    rfl
  | n + 1, t, cs, x, he, h => by
    have e1 := challenge_ok H t.transcript l he
    obtain ⟨r, x', e2, -⟩ := challengeLoop_ok H l n (chalStep H t.transcript l).2 rfl
    have e3 : PTracker.challenge H l t = (.ok (chalStep H t.transcript l).1, { t with transcript := (chalStep H t.transcript l).2 }) := by
      unfold PTracker.challenge
      rw [e1]
    simp only [Transcript.challengeLoop, e1, ok_bind, e2] at h
    obtain ⟨rfl, rfl⟩ := Prod.mk.inj (Except.ok.inj h)
    unfold chalsA
    rw [Act.bind_ok e3, Act.bind_ok (chalsA_eq H l n { t with transcript := (chalStep H t.transcript l).2 } r x' rfl e2)]
    rfl

theorem challengesU_loc (l : String) (n : Nat) : Loc (F := F) (C := C) fun H => challengesU H l n := by
  intro t
  rcases e : t.transcript.isEmpty
  · have key : ∀ H, challengesU H l n t = chalsA H l n t := by
      intro H
      obtain ⟨r, x, h1, -⟩ := challengeLoop_ok H l n t.transcript e
      rw [chalsA_eq H l n t r x e h1]
      unfold challengesU Transcript.challenges
      rw [if_neg (by rw [e]; decide), h1]
    simp only [key]
    exact chalsA_loc l n t
  · have key : ∀ H, challengesU H l n t = (.error .panic, t) := by
      intro H
      unfold challengesU Transcript.challenges
      rw [if_pos e]
    simp only [key]
    exact ⟨fun _ => .refl _, fun _ _ => .inl trivial⟩

theorem challengeU_loc (l : String) : Loc (F := F) (C := C) fun H => challengeU H l := (challenge_loc l).expect

theorem trueSums_loc : ∀ l : List (Nat × F), Loc (F := F) (C := C) fun _ => trueSums l
  | [] => .pure _
  | _ :: r => .bind (evaluations_loc _) fun _ => .bind (trueSums_loc r) fun _ => .pure _

theorem equalize_loc : Loc (F := F) (C := C) fun _ => equalize :=
  .bind (.reads _) fun _ => .bind (.reads _) fun _ => .bind (modify_loc _ fun _ => rfl) fun _ => .bind (.reads _) fun _ => .bind (trueSums_loc _) fun _ =>
    .bind (modify_loc _ fun _ => rfl) fun _ => .pure _

theorem foldZeroClaims_loc : ∀ (l : List Nat) (a : Nat), Loc (F := F) (C := C) fun H => foldZeroClaims H l a
  | [], _ => .pure _
  | _ :: r, _ => .bind (challengeU_loc _) fun _ => .bind (mulScalar_loc _ _) fun _ => .bind (addSubPolys_loc _ _ _) fun _ => foldZeroClaims_loc r _

theorem foldSumClaims_loc : ∀ (l : List (Nat × F)) (a : Nat) (s : F), Loc (F := F) (C := C) fun H => foldSumClaims H l a s
  | [], _, _ => .pure _
  | _ :: r, _, _ => .bind (challengeU_loc _) fun _ => .bind (mulScalar_loc _ _) fun _ => .bind (addSubPolys_loc _ _ _) fun _ => foldSumClaims_loc r _ _

theorem convertZero_loc (nv : Nat) : Loc (F := F) (C := C) fun H => convertZero H nv :=
  .bind (.lift _) fun _ => .bind (trackMat_loc _) fun _ => .bind (.reads _) fun _ => .bind (foldZeroClaims_loc _ _) fun _ => .bind (challengesU_loc _ _) fun _ =>
    .bind (.expect (.lift _)) fun _ => .bind (trackMat_loc _) fun _ => .bind (mulPolys_loc _ _) fun _ => addSumClaim_loc _ _

theorem aggregate_loc : Loc (F := F) (C := C) fun H => aggregate H :=
  .bind equalize_loc fun _ => .bind (convertZero_loc _) fun _ => .bind (.lift _) fun _ => .bind (trackMat_loc _) fun _ => .bind (.reads _) fun _ => foldSumClaims_loc _ _ _

end PTracker
/-! ### The probability -/

theorem committed_draws (commit : Mle F → Res C) (cols : List (Mle F)) : draws (committed commit cols).transcript.events = 0 := by
  unfold committed
  have key : ∀ (cols : List (Mle F)) (t : PTracker F C), draws t.transcript.events = 0 →
      draws (cols.foldl (fun t p => (TPoly.trackAndCommit commit p t).2) t).transcript.events = 0 := by
    intro cols
    induction cols with
    | nil => exact fun _ h => h
    | cons p ps ih =>
      intro t h
      refine ih _ ?_
      beta_reduce
      rcases e : commit p with x | x
      · have e1 : (PTracker.trackAndCommit commit p t) = (.error x, t) := by
          unfold PTracker.trackAndCommit
          exact Act.bind_error (by rw [e]; rfl)
        have e2 : TPoly.trackAndCommit commit p t = (.error x, t) := by
          unfold TPoly.trackAndCommit
          exact Act.bind_error e1
        rw [e2]
        exact h
      · have e1 : ((TPoly.trackAndCommit commit p t).2).transcript = t.transcript.append "comm" (.comm x) := by
          unfold TPoly.trackAndCommit PTracker.trackAndCommit
          rw [e]
          rfl
        rw [e1]
        unfold Transcript.append
        rw [draws_append, h]
        rfl
  exact key cols _ rfl

/-- What holds of the library's own prover up to exceptional challenges, as a probability. -/
theorem own_chance [Finite F] {V : Env F C} {pcs : Oracle F C → Pcs F C B} {N n d : Nat} {α β : Type} {m : Env F C → Act (PTracker F C) α} {v : Env F C → Act (VSt F C B) β}
    {cols : List (Mle F)} {bounds : List Nat} {Concl : CompiledProof F C B → (C → List F → F) → Prop} (h : OwnProverSound V pcs N n d m v cols bounds Concl)
    (hm : Loc fun H => m (V.withH H)) {M q : Nat} (hM : bounds.length + (q + N + 1) ≤ M) (P : C → List F → F) :
    ChanceAtMost (bounds.sum + (q + N + 1)) fun c : Fin M → F => ∃ t' p, OwnPasses V pcs m v cols (dealt c) t' p ∧ Compilable t' n d N ∧ t'.zeroClaims.length + t'.sumClaims.length ≤ q ∧
      OpensRun P N t' ∧ ¬ Concl p P := by
  obtain ⟨bad, foldBad, hfold, hall⟩ := h
  have hsum : (bounds ++ List.replicate (q + N + 1) 1).sum = bounds.sum + (q + N + 1) := by simp
  have hlen : (bounds ++ List.replicate (q + N + 1) 1).length ≤ M := by simpa using hM
  rw [← hsum, ← sum_getD_le _ hlen]
  set t := committed V.commit cols with ht
  have hd0 : draws t.transcript.events = 0 := committed_draws V.commit cols
  let T : (Fin M → F) → PTracker F C := fun c => (m (V.withH (dealt c)) t).2
  -- what a session that counts gives
  have facts : ∀ c : Fin M → F, (∃ t' p, OwnPasses V pcs m v cols (dealt c) t' p ∧ Compilable t' n d N ∧ t'.zeroClaims.length + t'.sumClaims.length ≤ q ∧ OpensRun P N t' ∧ ¬ Concl p P) →
      (drawn t (T c)).length = bounds.length ∧ (foldDrawn (dealt c) (T c)).length ≤ q + N + 1 ∧ draws (T c).transcript.events = bounds.length ∧
      (∀ k h, (drawn t (T c))[k]? = some h → (bad h P).card ≤ bounds.getD k 0) ∧
      ((∃ h ∈ drawn t (T c), ∃ l, dealt c l h ∈ bad h P) ∨ ∃ h ∈ foldDrawn (dealt c) (T c), ∃ l, dealt c l h ∈ foldBad (T c) h) := by
    rintro c ⟨t', p, ⟨a, debug, vs, b, s', h1, h2, h3, h4, h5⟩, hk, hq, hO, hno⟩
    have e0 : T c = t' := congrArg (·.2) h1
    obtain ⟨a', t'', g1, g2⟩ := hall (dealt c)
    obtain ⟨-, rfl⟩ := Prod.mk.inj (h1.symm.trans g1)
    obtain ⟨g3, g4⟩ := g2 hk
    obtain ⟨g5, g6, g7, g8⟩ := g4 debug p h2 vs b s' h3 h4 h5
    rw [g5] at g6 g7 g8
    rw [e0]
    refine ⟨g6, by omega, ?_, fun k h hh => (g7 k h hh).1 P, ?_⟩
    · have go : GoesOn t.transcript t'.transcript := by
        have := (hm t).1 (dealt c)
        beta_reduce at this
        rwa [h1] at this
      obtain ⟨⟨ev, hev⟩, -⟩ := go
      have : drawn t t' = squeezes t.transcript.events ev := between_of hev.symm
      rw [← hev, draws_append, hd0, ← squeezes_length ev t.transcript.events, ← this, g6, Nat.zero_add]
    · by_contra hcon
      push Not at hcon
      exact hno (g8 P hO (fun h hh => hcon.1 h hh _) fun h hh => hcon.2 h hh _)
  refine chance_sum _ _ (fun c k => if k.val < bounds.length then ((drawn t (T c))[k.val]?.map fun h => bad h P).getD ∅
    else ((foldDrawn (dealt c) (T c))[k.val - bounds.length]?.map fun h => foldBad (T c) h).getD ∅) ?_ ?_ ?_
  · intro c k hc hk
    obtain ⟨f1, f2, -, f4, -⟩ := facts c hc
    split_ifs at hk ⊢ with hlt
    · rw [List.getD_append _ _ _ _ hlt]
      rcases e : (drawn t (T c))[k.val]? with _ | x
      · simp
      · exact f4 _ x e
    · rcases e : (foldDrawn (dealt c) (T c))[k.val - bounds.length]? with _ | x
      · simp
      · have hx : k.val - bounds.length < (foldDrawn (dealt c) (T c)).length := by
          by_contra hcon
          rw [List.getElem?_eq_none (by omega)] at e
          cases e
        rw [List.getD_append_right _ _ _ _ (by omega), List.getD_replicate _ (by omega)]
        exact hfold _ _
  · intro c hc
    obtain ⟨f1, f2, f3, -, f5⟩ := facts c hc
    rcases f5 with ⟨x, hx, l, hin⟩ | ⟨x, hx, l, hin⟩
    · obtain ⟨k, hk, rfl⟩ := List.getElem_of_mem hx
      have hk' := List.getElem?_eq_getElem hk
      refine ⟨⟨k, by omega⟩, ?_⟩
      rw [dealt_at c hd0 hk' (by omega)] at hin
      rw [if_pos (by dsimp only; omega)]
      dsimp only
      rw [hk']
      exact hin
    · obtain ⟨k, hk, rfl⟩ := List.getElem_of_mem hx
      have hk' := List.getElem?_eq_getElem hk
      refine ⟨⟨bounds.length + k, by omega⟩, ?_⟩
      rw [dealt_after c hk' (by omega)] at hin
      rw [if_neg (by dsimp only; omega)]
      dsimp only
      rw [Nat.add_sub_cancel_left, hk']
      simp only [f3] at hin
      exact hin
  · intro c c' k hc hc' e
    have e' : ∀ i : Fin M, i.val < k.val → c i = c' i := fun i hi => e i hi
    obtain ⟨f1, -, f3, -⟩ := facts c hc
    obtain ⟨d1, d2⟩ := hm.dealt t c c' k.val e'
    rw [hd0] at d1 d2
    by_cases hlt : k.val < bounds.length
    · rw [if_pos hlt, if_pos hlt]
      have : (drawn t (T c))[k.val]? = (drawn t (T c'))[k.val]? := d1
      rw [this]
    · rw [if_neg hlt, if_neg hlt]
      have hl : (between t.transcript (T c).transcript).length = bounds.length := f1
      have eT : T c = T c' := congrArg (·.2) (d2 (by
        show 0 + (between t.transcript (T c).transcript).length ≤ k.val
        omega))
      obtain ⟨a1, -⟩ := PTracker.aggregate_loc.dealt (T c) c c' k.val e'
      rw [f3] at a1
      have a2 : (foldDrawn (dealt c) (T c))[k.val - bounds.length]? = (foldDrawn (dealt c') (T c))[k.val - bounds.length]? := a1
      rw [a2, eT]

end Zksql
