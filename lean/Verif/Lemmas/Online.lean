import Verif.Lemmas.ErrorKinds
import Verif.Lemmas.Chance
/-!
A run depends on the oracle only through the challenges it has drawn.
-/
set_option linter.unusedSectionVars false
namespace Zksql
open Spec
variable {F C B S : Type} [Field F] [DecidableEq F] {α β : Type}

/-- The histories of the challenges drawn between two transcripts. -/
def between (t t' : Transcript F C) : List (List (TEvent F C)) := squeezes t.events (t'.events.drop t.events.length)

/-- The transcript goes on. -/
def GoesOn (t t' : Transcript F C) : Prop := t.events <+: t'.events ∧ t'.label = t.label

theorem GoesOn.refl (t : Transcript F C) : GoesOn t t := ⟨List.prefix_refl _, rfl⟩
theorem GoesOn.trans {a b c : Transcript F C} (h1 : GoesOn a b) (h2 : GoesOn b c) : GoesOn a c := ⟨h1.1.trans h2.1, h2.2.trans h1.2⟩

theorem between_of {t t' : Transcript F C} {ev : List (TEvent F C)} (h : t'.events = t.events ++ ev) : between t t' = squeezes t.events ev := by
  unfold between
  rw [h, List.drop_left]

theorem between_trans {a b c : Transcript F C} (h1 : GoesOn a b) (h2 : GoesOn b c) : between a c = between a b ++ between b c := by
  obtain ⟨x, hx⟩ := h1.1
  obtain ⟨y, hy⟩ := h2.1
  rw [between_of hx.symm, between_of hy.symm, between_of (ev := x ++ y) (by rw [← hy, ← hx, List.append_assoc]), squeezes_append, hx]

/-- Two runs draw the same challenges up to one that the oracles answer differently. -/
def Parts (H H' : Oracle F C) (t t1 t2 : Transcript F C) : Prop :=
  ∃ pre h r1 r2, between t t1 = pre ++ h :: r1 ∧ between t t2 = pre ++ h :: r2 ∧ H t.label h ≠ H' t.label h

/-- A family of calls, one for each oracle, that depends on the oracle only through the challenges drawn. -/
def LocT (tr : S → Transcript F C) (m : Oracle F C → Act S α) : Prop :=
  ∀ s, (∀ H, GoesOn (tr s) (tr (m H s).2)) ∧ ∀ H H', m H s = m H' s ∨ Parts H H' (tr s) (tr (m H s).2) (tr (m H' s).2)

namespace LocT
variable {tr : S → Transcript F C}

theorem on {m : Act S α} (h : ∀ s, GoesOn (tr s) (tr (m s).2)) : LocT tr (fun _ : Oracle F C => m) := fun s => ⟨fun _ => h s, fun _ _ => .inl rfl⟩
theorem same {m : Act S α} (h : ∀ s, tr (m s).2 = tr s) : LocT tr (fun _ : Oracle F C => m) := on fun s => h s ▸ .refl _

theorem bind {m : Oracle F C → Act S α} {f : Oracle F C → α → Act S β} (hm : LocT tr m) (hf : ∀ a, LocT tr fun H => f H a) : LocT tr fun H => m H >>= f H := by
  have hon : ∀ s H, GoesOn (tr (m H s).2) (tr ((m H >>= f H) s).2) := by
    intro s H
    rcases e : m H s with ⟨x | a, s1⟩
    · rw [Act.bind_error e]
      exact .refl _
    · rw [Act.bind_ok e]
      exact (hf a s1).1 H
  intro s
  refine ⟨fun H => ((hm s).1 H).trans (hon s H), fun H H' => ?_⟩
  beta_reduce
  rcases (hm s).2 H H' with h | ⟨pre, h, r1, r2, h1, h2, h3⟩
  · rcases e : m H s with ⟨x | a, s1⟩
    · rw [Act.bind_error e, Act.bind_error (h.symm.trans e)]
      exact .inl rfl
    · have g := (hm s).1 H
      rw [e] at g
      rw [Act.bind_ok e, Act.bind_ok (h.symm.trans e)]
      rcases (hf a s1).2 H H' with h4 | ⟨pre, h', r1, r2, h4, h5, h6⟩
      · exact .inl h4
      · refine .inr ⟨between (tr s) (tr s1) ++ pre, h', r1, r2, ?_, ?_, g.2 ▸ h6⟩
        · rw [between_trans g ((hf a s1).1 H), h4, List.append_assoc]
        · rw [between_trans g ((hf a s1).1 H'), h5, List.append_assoc]
  · refine .inr ⟨pre, h, r1 ++ between (tr (m H s).2) (tr ((m H >>= f H) s).2), r2 ++ between (tr (m H' s).2) (tr ((m H' >>= f H') s).2), ?_, ?_, h3⟩
    · rw [between_trans ((hm s).1 H) (hon s H), h1, List.append_assoc]
      rfl
    · rw [between_trans ((hm s).1 H') (hon s H'), h2, List.append_assoc]
      rfl

theorem pure (a : α) : LocT tr (fun _ : Oracle F C => (Pure.pure a : Act S α)) := same fun _ => rfl
theorem lift (r : Res α) : LocT tr (fun _ : Oracle F C => (Act.lift r : Act S α)) := same fun _ => rfl
theorem reads (f : S → Res α) : LocT tr (fun _ : Oracle F C => (Act.reads f : Act S α)) := same fun _ => rfl
theorem assert (p : Prop) [Decidable p] : LocT tr (fun _ : Oracle F C => (Act.assert p : Act S Unit)) := same fun s => by
  unfold Act.assert
  split <;> rfl
theorem ite {p : Prop} [Decidable p] {a b : Oracle F C → Act S α} (h1 : LocT tr a) (h2 : LocT tr b) : LocT tr fun H => if p then a H else b H := by
  split
  · exact h1
  · exact h2
theorem forget {m : Oracle F C → Act S α} (h : LocT tr m) : LocT tr fun H => Spec.forget (m H) := bind h fun _ => pure ()

/-- Drawing a challenge. -/
theorem chal {l : String} {m : Oracle F C → Act S F} (set : S → Transcript F C → S) (hset : ∀ s t, tr (set s t) = t)
    (h : ∀ H s, m H s = match (tr s).challenge H l with | .ok (c, t) => (.ok c, set s t) | .error e => (.error e, s)) : LocT tr m := by
  intro s
  rcases e : (tr s).isEmpty
  · have key : ∀ H, m H s = (.ok (H (tr s).label ((tr s).events ++ [.squeeze l])),
        set s (Transcript.append { tr s with events := (tr s).events ++ [.squeeze l] } l (.elem (H (tr s).label ((tr s).events ++ [.squeeze l]))))) := by
      intro H
      rw [h]
      unfold Transcript.challenge
      rw [if_neg (by rw [e]; decide)]
    have ev : ∀ H, (tr (m H s).2).events = (tr s).events ++ [.squeeze l, .absorb l (.elem (H (tr s).label ((tr s).events ++ [.squeeze l])))] := by
      intro H
      rw [key, hset]
      simp [Transcript.append]
    refine ⟨fun H => ⟨⟨_, (ev H).symm⟩, by rw [key, hset]; rfl⟩, fun H H' => ?_⟩
    by_cases hh : H (tr s).label ((tr s).events ++ [.squeeze l]) = H' (tr s).label ((tr s).events ++ [.squeeze l])
    · left
      rw [key, key, hh]
    · refine .inr ⟨[], (tr s).events ++ [.squeeze l], [], [], ?_, ?_, hh⟩
      · rw [between_of (ev H)]
        rfl
      · rw [between_of (ev H')]
        rfl
  · have key : ∀ H, m H s = (.error (.err .invalidTranscript), s) := by
      intro H
      rw [h]
      unfold Transcript.challenge
      rw [e, if_pos rfl]
    refine ⟨fun H => by rw [key]; exact .refl _, fun H H' => .inl (by rw [key, key])⟩
end LocT

/-! ### Dealt challenges -/

/-- With challenges that agree before the `k`-th, the same `k`-th challenge is drawn; and if fewer are drawn, the runs are the same. -/
theorem LocT.dealt {tr : S → Transcript F C} {m : Oracle F C → Act S α} (h : LocT tr m) (s : S) {M : Nat} (c c' : Fin M → F) (k : Nat)
    (e : ∀ i : Fin M, i.val < k → c i = c' i) :
    (between (tr s) (tr (m (Spec.dealt c) s).2))[k - draws (tr s).events]? = (between (tr s) (tr (m (Spec.dealt c') s).2))[k - draws (tr s).events]? ∧
      (draws (tr s).events + (between (tr s) (tr (m (Spec.dealt c) s).2)).length ≤ k → m (Spec.dealt c) s = m (Spec.dealt c') s) := by
  rcases (h s).2 (Spec.dealt c) (Spec.dealt c') with h1 | ⟨pre, x, r1, r2, h1, h2, h3⟩
  · exact ⟨by rw [h1], fun _ => h1⟩
  · have hx : (between (tr s) (tr (m (Spec.dealt c) s).2))[pre.length]? = some x := by rw [h1]; simp
    have hd := squeezes_draws _ _ _ _ hx
    have hk : k < draws x := by
      by_contra hc
      refine h3 ?_
      unfold Spec.dealt
      split
      · exact e _ (by dsimp only; omega)
      · rfl
    have hle : k - draws (tr s).events ≤ pre.length := by omega
    constructor
    · rw [h1, h2]
      rcases Nat.lt_or_ge (k - draws (tr s).events) pre.length with h4 | h4
      · rw [List.getElem?_append_left h4, List.getElem?_append_left h4]
      · rw [show k - draws (tr s).events = pre.length by omega]
        simp
    · rw [h1, List.length_append, List.length_cons]
      omega

end Zksql
