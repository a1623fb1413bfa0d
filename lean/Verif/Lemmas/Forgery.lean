import Verif.Lemmas.VerifyRun
/-!
Replacing the proof a verifier holds, and where challenges come from.
-/
set_option linter.unusedSectionVars false
namespace Zksql
open Spec
variable {F C B α β : Type} [Field F]

/-! ### Replacing the proof -/

/-- The same tracker holding another proof. -/
def VSt.re (p : CompiledProof F C B) (s : VSt F C B) : VSt F C B := { s with own := { s.own with proof := p } }

/-- The same tracker and handles holding another proof. -/
def Spec.VState.re (p : CompiledProof F C B) (vs : VState F C B) : VState F C B := ⟨vs.st.re p, vs.handles⟩

/-- A call that behaves the same whichever of the two proofs the tracker holds. -/
def Swap (p p' : CompiledProof F C B) (m : Act (VSt F C B) α) : Prop :=
  ∀ s, s.own.proof = p → m (s.re p') = ((m s).1, (m s).2.re p') ∧ (m s).2.own.proof = p

variable {p p' : CompiledProof F C B}

theorem Swap.bind {m : Act (VSt F C B) α} {f : α → Act (VSt F C B) β} (h1 : Swap p p' m) (h2 : ∀ a, Swap p p' (f a)) : Swap p p' (m >>= f) := by
  intro s hs
  obtain ⟨a1, a2⟩ := h1 s hs
  rw [Act.bind_run, Act.bind_run, a1]
  rcases hm : m s with ⟨e | a, s'⟩
  · rw [hm] at a2
    exact ⟨rfl, a2⟩
  · rw [hm] at a2
    exact h2 a s' a2

theorem swap_pure (a : α) : Swap p p' (pure a) := fun _ hs => ⟨rfl, hs⟩

theorem swap_modify (f : VSt F C B → VSt F C B) (h1 : ∀ s, f (s.re p') = (f s).re p') (h2 : ∀ s, (f s).own.proof = s.own.proof) : Swap p p' (Act.modify f) :=
  fun s hs => ⟨by rw [Act.modify_run, Act.modify_run, h1], (h2 s).trans hs⟩

theorem swap_reads (f : VSt F C B → Res α) (h : ∀ s, s.own.proof = p → f (s.re p') = f s) : Swap p p' (Act.reads f) :=
  fun s hs => ⟨by rw [Act.reads_run, Act.reads_run, h s hs], hs⟩

theorem Swap.expect {m : Act (VSt F C B) α} (h : Swap p p' m) : Swap p p' (Act.expect m) := by
  intro s hs
  obtain ⟨a1, a2⟩ := h s hs
  unfold Act.expect
  rw [a1]
  rcases hm : m s with ⟨e | a, s'⟩ <;> rw [hm] at a2 <;> exact ⟨rfl, a2⟩

theorem swap_assert (q : Prop) [Decidable q] : Swap p p' (Act.assert q : Act (VSt F C B) Unit) := by
  intro s hs
  unfold Act.assert
  split <;> exact ⟨rfl, hs⟩

theorem swap_genId : Swap p p' (VSt.genId : Act (VSt F C B) Nat) := fun _ hs => ⟨rfl, hs⟩
theorem swap_getNextId : Swap p p' (VSt.getNextId : Act (VSt F C B) Nat) := fun _ hs => ⟨rfl, hs⟩
theorem swap_virt (c : VComm F) : Swap p p' (VSt.trackVirtual c : Act (VSt F C B) Nat) := fun _ hs => ⟨rfl, hs⟩
theorem swap_trackMat (c : C) : Swap p p' (VSt.trackMatComm c : Act (VSt F C B) Nat) := fun _ hs => ⟨rfl, hs⟩
theorem swap_addScalar (i : Nat) (c : F) : Swap p p' (VSt.addScalar i c : Act (VSt F C B) Nat) := swap_genId.bind fun _ => swap_virt _
theorem swap_transfer (hc : p'.comms = p.comms) (debug : Bool) (id : Nat) : Swap p p' (VSt.transferComm debug id : Act (VSt F C B) Nat) :=
  (swap_reads _ fun s hs => by rw [hs]; exact congrArg (fun l => unwrap (l.lookup id)) hc).bind fun _ => (swap_trackMat _).expect.bind fun _ =>
    (swap_assert _).bind fun _ => swap_pure _
theorem swap_claimed (hc : p'.sumcheckClaims = p.sumcheckClaims) (id : Nat) : Swap p p' (VSt.claimedSum id : Act (VSt F C B) F) :=
  swap_reads _ fun s hs => by rw [hs]; exact congrArg (fun l => unwrap (l.lookup id)) hc
theorem swap_challenge (H : Oracle F C) (label : String) : Swap p p' (VSt.challenge H label : Act (VSt F C B) F) := by
  intro s hs
  have e : (s.re p').own.transcript = s.own.transcript := rfl
  unfold VSt.challenge
  rw [e]
  rcases s.own.transcript.challenge H label with e | ⟨c, tr⟩ <;> exact ⟨rfl, hs⟩
theorem swap_evals [DecidableEq F] (hc : p'.queryMap = p.queryMap) : Swap p p' (VSt.transferEvals : Act (VSt F C B) Unit) := by
  intro s hs
  refine ⟨?_, hs⟩
  unfold VSt.transferEvals Act.modify
  subst hs
  simp only [VSt.re, hc]

theorem swap_handle {m : Act (VSt F C B) Nat} (hm : Swap p p' m) {vs vs' : VState F C B} (hp : vs.st.own.proof = p) (h : vstepHandle vs m = .ok vs') :
    vstepHandle (vs.re p') m = .ok (vs'.re p') ∧ vs'.st.own.proof = p := by
  obtain ⟨a1, a2⟩ := hm vs.st hp
  unfold vstepHandle at h ⊢
  have : (vs.re p').st = vs.st.re p' := rfl
  rw [this, a1]
  rcases hr : m vs.st with ⟨(e | _) | a, s'⟩ <;> rw [hr] at h a2 <;> simp at h
  · subst h; exact ⟨rfl, a2⟩
  · subst h; exact ⟨rfl, a2⟩

theorem swap_other {m : Act (VSt F C B) α} (hm : Swap p p' m) {vs vs' : VState F C B} (hp : vs.st.own.proof = p) (h : vstepOther vs m = .ok vs') :
    vstepOther (vs.re p') m = .ok (vs'.re p') ∧ vs'.st.own.proof = p := by
  obtain ⟨a1, a2⟩ := hm vs.st hp
  unfold vstepOther at h ⊢
  have : (vs.re p').st = vs.st.re p' := rfl
  rw [this, a1]
  rcases hr : m vs.st with ⟨(e | _) | a, s'⟩ <;> rw [hr] at h a2 <;> simp at h
  · subst h; exact ⟨rfl, a2⟩
  · subst h; exact ⟨rfl, a2⟩

theorem swap_op [DecidableEq F] (debug : Bool) (H : Oracle F C) (h1 : p'.comms = p.comms) (h2 : p'.sumcheckClaims = p.sumcheckClaims) (h3 : p'.queryMap = p.queryMap)
    (op : VOp F C B) (hop : ∀ q, op ≠ .setProof q) {vs vs' : VState F C B} (hp : vs.st.own.proof = p) (h : op.run debug H vs = .ok vs') :
    op.run debug H (vs.re p') = .ok (vs'.re p') ∧ vs'.st.own.proof = p := by
  have hh : (vs.re p').handles = vs.handles := rfl
  cases op <;> simp only [VOp.run] at h ⊢
  case trackComm c => exact swap_handle (swap_trackMat c) hp h
  case transfer id => exact swap_handle (swap_transfer h1 debug id) hp h
  case transferNext => exact swap_handle (swap_getNextId.bind fun id => swap_transfer h1 debug id) hp h
  case virt f => exact swap_handle (swap_virt _) hp h
  case add i j =>
    obtain ⟨a, ha, h⟩ := idx_bind_ok h
    obtain ⟨b, hb, h⟩ := idx_bind_ok h
    rw [hh, idx, idx, ha, hb]
    exact swap_handle (swap_virt _) hp h
  case sub i j =>
    obtain ⟨a, ha, h⟩ := idx_bind_ok h
    obtain ⟨b, hb, h⟩ := idx_bind_ok h
    rw [hh, idx, idx, ha, hb]
    exact swap_handle (swap_virt _) hp h
  case mul i j =>
    obtain ⟨a, ha, h⟩ := idx_bind_ok h
    obtain ⟨b, hb, h⟩ := idx_bind_ok h
    rw [hh, idx, idx, ha, hb]
    exact swap_handle (swap_virt _) hp h
  case addScalar i c =>
    obtain ⟨a, ha, h⟩ := idx_bind_ok h
    rw [hh, idx, ha]
    exact swap_handle (swap_addScalar _ _) hp h
  case mulScalar i c =>
    obtain ⟨a, ha, h⟩ := idx_bind_ok h
    rw [hh, idx, ha]
    exact swap_handle (swap_virt _) hp h
  case incFront i c =>
    obtain ⟨a, ha, h⟩ := idx_bind_ok h
    rw [hh, idx, ha]
    exact swap_handle (swap_virt _) hp h
  case incBack i c =>
    obtain ⟨a, ha, h⟩ := idx_bind_ok h
    rw [hh, idx, ha]
    exact swap_handle (swap_virt _) hp h
  case setProof q => exact absurd rfl (hop q)
  case transferEvals => exact swap_other (swap_evals h3) hp h
  case challenge label => exact swap_other (swap_challenge H label) hp h
  case append label d => exact swap_other (fun _ hs => ⟨rfl, hs⟩) hp h
  case sumClaim i v =>
    obtain ⟨a, ha, h⟩ := idx_bind_ok h
    rw [hh, idx, ha]
    exact swap_other (fun _ hs => ⟨rfl, hs⟩) hp h
  case proverSum i =>
    obtain ⟨a, ha, h⟩ := idx_bind_ok h
    rw [hh, idx, ha]
    exact swap_other ((swap_claimed h2 a).bind fun _ _ hs => ⟨rfl, hs⟩) hp h
  case zeroClaim i =>
    obtain ⟨a, ha, h⟩ := idx_bind_ok h
    rw [hh, idx, ha]
    exact swap_other (fun _ hs => ⟨rfl, hs⟩) hp h

theorem swap_ops [DecidableEq F] (debug : Bool) (H : Oracle F C) (h1 : p'.comms = p.comms) (h2 : p'.sumcheckClaims = p.sumcheckClaims) (h3 : p'.queryMap = p.queryMap)
    (ops : List (VOp F C B)) (hops : ∀ q, VOp.setProof q ∉ ops) {vs vs' : VState F C B} (hp : vs.st.own.proof = p) (h : runVOps debug H vs ops = .ok vs') :
    runVOps debug H (vs.re p') ops = .ok (vs'.re p') ∧ vs'.st.own.proof = p := by
  induction ops generalizing vs with
  | nil =>
    simp only [runVOps, List.foldlM_nil] at h ⊢
    injection h with h; subst h
    exact ⟨rfl, hp⟩
  | cons op ops ih =>
    simp only [runVOps, List.foldlM_cons] at h ⊢
    rcases hr : op.run debug H vs with e | s1
    · rw [hr] at h; simp at h
    · rw [hr, ok_bind] at h
      obtain ⟨b1, b2⟩ := swap_op debug H h1 h2 h3 op (fun q e => hops q (by rw [e]; exact List.mem_cons_self)) hp hr
      rw [b1, ok_bind]
      exact ih (fun q hq => hops q (List.mem_cons_of_mem _ hq)) b2 h

/-! ### Where challenges come from -/

theorem roundChals_from (H : Oracle F C) (ms : List (List F)) (tr : Transcript F C) :
    (∀ c ∈ (roundChals H ms tr).1, ∃ evs, tr.events.length < evs.length ∧ c = H tr.label evs) ∧ (roundChals H ms tr).2.label = tr.label ∧
      tr.events.length ≤ (roundChals H ms tr).2.events.length := by
  induction ms generalizing tr with
  | nil => simp [roundChals]
  | cons m ms ih =>
    obtain ⟨i1, i2, i3⟩ := ih (chalStep H (tr.append "prover msg" (.elems m)) "Internal round").2
    simp only [roundChals]
    refine ⟨?_, i2, ?_⟩
    · intro c hc
      rcases List.mem_cons.1 hc with rfl | hc
      · refine ⟨tr.events ++ [.absorb "prover msg" (.elems m)] ++ [.squeeze "Internal round"], by simp, rfl⟩
      · obtain ⟨evs, h1, h2⟩ := i1 c hc
        refine ⟨evs, lt_of_le_of_lt ?_ h1, h2⟩
        simp only [chalStep, Transcript.append, List.length_append, List.length_cons, List.length_nil]
        omega
    · have : tr.events.length ≤ (chalStep H (tr.append "prover msg" (.elems m)) "Internal round").2.events.length := by
        simp only [chalStep, Transcript.append, List.length_append, List.length_cons, List.length_nil]
        omega
      exact this.trans i3

theorem challengeLoop_from (H : Oracle F C) (label : String) (n : Nat) (tr tr' : Transcript F C) (cs : List F) (h : tr.challengeLoop H label n = .ok (cs, tr')) :
    tr'.label = tr.label ∧ tr.events.length ≤ tr'.events.length := by
  induction n generalizing tr cs with
  | zero =>
    simp only [Transcript.challengeLoop] at h
    injection h with h
    obtain ⟨-, rfl⟩ := Prod.mk.inj h
    exact ⟨rfl, le_refl _⟩
  | succ n ih =>
    simp only [Transcript.challengeLoop] at h
    rcases hc : tr.challenge H label with e | ⟨c, tr1⟩
    · rw [hc] at h; simp at h
    rw [hc, ok_bind] at h
    rcases hl : tr1.challengeLoop H label n with e | ⟨cs', tr2⟩
    · simp [hl] at h
    simp only [hl, ok_bind] at h
    injection h with h
    obtain ⟨-, rfl⟩ := Prod.mk.inj h
    obtain ⟨i1, i2⟩ := ih tr1 cs' hl
    unfold Transcript.challenge at hc
    split at hc
    · simp at hc
    · injection hc with hc
      obtain ⟨-, rfl⟩ := Prod.mk.inj hc
      refine ⟨i1, ?_⟩
      simp [Transcript.append] at i2
      omega

theorem challenges_from (H : Oracle F C) (label : String) (n : Nat) (tr tr' : Transcript F C) (cs : List F) (h : tr.challenges H label n = .ok (cs, tr')) :
    tr'.label = tr.label ∧ tr.events.length ≤ tr'.events.length := by
  unfold Transcript.challenges at h
  split at h
  · simp at h
  · exact challengeLoop_from H label n tr tr' cs h

end Zksql
