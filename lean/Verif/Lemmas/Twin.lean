import Verif.Lemmas.Forgery
import Verif.Spec.Binding
import Verif.Lemmas.Claims
/-!
Two verifiers whose proofs differ in the claimed sums only.
-/
set_option linter.unusedSectionVars false
namespace Zksql
open Spec
variable {F C B α β : Type} [Field F]

/-- Two verifier states that agree on everything but the claimed sums of the proof and the values of the recorded sum claims. -/
structure Twin (s s' : VSt F C B) : Prop where
  sh : s'.sh = s.sh
  tr : s'.own.transcript = s.own.transcript
  cnt : s'.own.idCounter = s.own.idCounter
  mats : s'.own.matComms = s.own.matComms
  zeros : s'.own.zeroClaims = s.own.zeroClaims
  sums : s'.own.sumClaims.map (·.1) = s.own.sumClaims.map (·.1)
  proof : s'.own.proof = { s.own.proof with sumcheckClaims := s'.own.proof.sumcheckClaims }
  keys : ∀ id, (s'.own.proof.sumcheckClaims.lookup id).isSome = (s.own.proof.sumcheckClaims.lookup id).isSome

/-- Two outcomes: both succeed with related values, or both fail alike. -/
def ResRel (R : α → α → Prop) : Res α → Res α → Prop
  | .ok a, .ok b => R a b
  | .error e, .error e' => e = e'
  | _, _ => False

/-- Two calls that behave alike on such states. -/
def TwinRun (R : α → α → Prop) (m m' : Act (VSt F C B) α) : Prop :=
  ∀ s s', Twin s s' → ResRel R (m s).1 (m' s').1 ∧ Twin (m s).2 (m' s').2

theorem TwinRun.bind {R : α → α → Prop} {R' : β → β → Prop} {m m' : Act (VSt F C B) α} {f f' : α → Act (VSt F C B) β} (h1 : TwinRun R m m')
    (h2 : ∀ a b, R a b → TwinRun R' (f a) (f' b)) : TwinRun R' (m >>= f) (m' >>= f') := by
  intro s s' hs
  obtain ⟨a1, a2⟩ := h1 s s' hs
  rw [Act.bind_run, Act.bind_run]
  rcases hm : m s with ⟨e | a, t⟩ <;> rcases hm' : m' s' with ⟨e' | b, t'⟩ <;> rw [hm, hm'] at a1 a2
  · exact ⟨a1, a2⟩
  · exact a1.elim
  · exact a1.elim
  · exact h2 a b a1 t t' a2

theorem TwinRun.mono {R R' : α → α → Prop} {m m' : Act (VSt F C B) α} (h : TwinRun R m m') (hR : ∀ a b, R a b → R' a b) : TwinRun R' m m' := by
  intro s s' hs
  obtain ⟨a1, a2⟩ := h s s' hs
  refine ⟨?_, a2⟩
  rcases hm : m s with ⟨e | a, t⟩ <;> rcases hm' : m' s' with ⟨e' | b, t'⟩ <;> rw [hm, hm'] at a1
  · exact a1
  · exact a1.elim
  · exact a1.elim
  · exact hR a b a1

theorem TwinRun.expect {R : α → α → Prop} {m m' : Act (VSt F C B) α} (h : TwinRun R m m') : TwinRun R (Act.expect m) (Act.expect m') := by
  intro s s' hs
  obtain ⟨a1, a2⟩ := h s s' hs
  unfold Act.expect
  rcases hm : m s with ⟨e | a, t⟩ <;> rcases hm' : m' s' with ⟨e' | b, t'⟩ <;> rw [hm, hm'] at a1 a2
  · exact ⟨rfl, a2⟩
  · exact a1.elim
  · exact a1.elim
  · exact ⟨a1, a2⟩

theorem twin_pure {R : α → α → Prop} {a b : α} (h : R a b) : TwinRun R (pure a : Act (VSt F C B) α) (pure b) := fun _ _ hs => ⟨h, hs⟩

theorem twin_assert (q : Prop) [Decidable q] : TwinRun (· = ·) (Act.assert q : Act (VSt F C B) Unit) (Act.assert q) := by
  intro s s' hs
  unfold Act.assert
  split <;> exact ⟨rfl, hs⟩

theorem twin_genId : TwinRun (· = ·) (VSt.genId : Act (VSt F C B) Nat) VSt.genId := by
  intro s s' hs
  exact ⟨hs.cnt.symm, ⟨hs.sh, hs.tr, congrArg (· + 1) hs.cnt, hs.mats, hs.zeros, hs.sums, hs.proof, hs.keys⟩⟩

theorem twin_getNextId : TwinRun (· = ·) (VSt.getNextId : Act (VSt F C B) Nat) VSt.getNextId := fun _ _ hs => ⟨hs.cnt.symm, hs⟩

theorem twin_insert (id : Nat) (c : VComm F) : TwinRun (· = ·) (VSt.insertComm id c : Act (VSt F C B) Unit) (VSt.insertComm id c) := by
  intro s s' hs
  exact ⟨rfl, ⟨congrArg (fun sh : VShared F => { sh with comms := amInsert id c sh.comms }) hs.sh, hs.tr, hs.cnt, hs.mats, hs.zeros, hs.sums, hs.proof,
    hs.keys⟩⟩

theorem twin_virt (c : VComm F) : TwinRun (· = ·) (VSt.trackVirtual c : Act (VSt F C B) Nat) (VSt.trackVirtual c) :=
  twin_genId.bind fun a b hab => by subst hab; exact (twin_insert a c).bind fun _ _ _ => twin_pure rfl

theorem twin_addScalar (i : Nat) (c : F) : TwinRun (· = ·) (VSt.addScalar i c : Act (VSt F C B) Nat) (VSt.addScalar i c) :=
  twin_genId.bind fun _ _ _ => twin_virt _

theorem twin_append (label : String) (d : TItem F C) : TwinRun (· = ·) (VSt.append label d : Act (VSt F C B) Unit) (VSt.append label d) := by
  intro s s' hs
  exact ⟨rfl, ⟨hs.sh, congrArg (fun t : Transcript F C => t.append label d) hs.tr, hs.cnt, hs.mats, hs.zeros, hs.sums, hs.proof, hs.keys⟩⟩

theorem twin_trackMat (c : C) : TwinRun (· = ·) (VSt.trackMatComm c : Act (VSt F C B) Nat) (VSt.trackMatComm c) :=
  twin_genId.bind fun a b hab => by
    subst hab
    refine (twin_insert a _).bind fun _ _ _ => (twin_append "comm" (.comm c)).bind fun _ _ _ => TwinRun.bind (R := (· = ·)) ?_ fun _ _ _ => twin_pure rfl
    intro s s' hs
    exact ⟨rfl, ⟨hs.sh, hs.tr, hs.cnt, congrArg (amInsert a c) hs.mats, hs.zeros, hs.sums, hs.proof, hs.keys⟩⟩

theorem Twin.field {s s' : VSt F C B} (h : Twin s s') : s'.own.proof.comms = s.own.proof.comms ∧ s'.own.proof.queryMap = s.own.proof.queryMap ∧
    s'.own.proof.scProof = s.own.proof.scProof ∧ s'.own.proof.scMaxDegree = s.own.proof.scMaxDegree ∧ s'.own.proof.scNumVars = s.own.proof.scNumVars ∧
    s'.own.proof.pcsProof = s.own.proof.pcsProof := by
  rw [h.proof]
  exact ⟨rfl, rfl, rfl, rfl, rfl, rfl⟩

theorem twin_reads {f f' : VSt F C B → Res α} {R : α → α → Prop} (h : ∀ s s', Twin s s' → ResRel R (f s) (f' s')) : TwinRun R (Act.reads f) (Act.reads f') := by
  intro s s' hs
  exact ⟨h s s' hs, hs⟩

theorem resRel_of_eq {a b : Res α} (h : a = b) : ResRel (· = ·) a b := by
  subst h
  cases a <;> exact rfl

theorem twin_transfer (debug : Bool) (id : Nat) : TwinRun (· = ·) (VSt.transferComm debug id : Act (VSt F C B) Nat) (VSt.transferComm debug id) :=
  (twin_reads fun s s' hs => resRel_of_eq (by rw [hs.field.1])).bind fun a b hab => by
    subst hab
    exact (twin_trackMat a).expect.bind fun _ _ hcd => by
      subst hcd
      exact (twin_assert _).bind fun _ _ _ => twin_pure rfl

theorem twin_claimed (id : Nat) : TwinRun (fun _ _ => True) (VSt.claimedSum id : Act (VSt F C B) F) (VSt.claimedSum id) :=
  twin_reads fun s s' hs => by
    have := hs.keys id
    rcases h1 : s.own.proof.sumcheckClaims.lookup id with _ | a <;> rcases h2 : s'.own.proof.sumcheckClaims.lookup id with _ | b <;> rw [h1, h2] at this
    · exact rfl
    · simp at this
    · simp at this
    · exact trivial

theorem twin_addSum (id : Nat) (v v' : F) : TwinRun (· = ·) (VSt.addSumClaim id v : Act (VSt F C B) Unit) (VSt.addSumClaim id v') := by
  intro s s' hs
  refine ⟨rfl, ⟨hs.sh, hs.tr, hs.cnt, hs.mats, hs.zeros, ?_, hs.proof, hs.keys⟩⟩
  show (s'.own.sumClaims ++ [(id, v')]).map (·.1) = (s.own.sumClaims ++ [(id, v)]).map (·.1)
  rw [List.map_append, List.map_append, hs.sums]
  rfl

theorem twin_addZero (id : Nat) : TwinRun (· = ·) (VSt.addZeroClaim id : Act (VSt F C B) Unit) (VSt.addZeroClaim id) := by
  intro s s' hs
  exact ⟨rfl, ⟨hs.sh, hs.tr, hs.cnt, hs.mats, congrArg (· ++ [id]) hs.zeros, hs.sums, hs.proof, hs.keys⟩⟩

theorem twin_challenge (H : Oracle F C) (label : String) : TwinRun (· = ·) (VSt.challenge H label : Act (VSt F C B) F) (VSt.challenge H label) := by
  intro s s' hs
  unfold VSt.challenge
  rw [hs.tr]
  rcases s.own.transcript.challenge H label with e | ⟨c, tr⟩
  · exact ⟨rfl, hs⟩
  · exact ⟨rfl, ⟨hs.sh, rfl, hs.cnt, hs.mats, hs.zeros, hs.sums, hs.proof, hs.keys⟩⟩

theorem twin_challengesU (H : Oracle F C) (label : String) (n : Nat) : TwinRun (· = ·) (VSt.challengesU H label n : Act (VSt F C B) (List F)) (VSt.challengesU H label n) := by
  intro s s' hs
  unfold VSt.challengesU
  rw [hs.tr]
  rcases s.own.transcript.challenges H label n with e | ⟨c, tr⟩
  · exact ⟨rfl, hs⟩
  · exact ⟨rfl, ⟨hs.sh, rfl, hs.cnt, hs.mats, hs.zeros, hs.sums, hs.proof, hs.keys⟩⟩

theorem twin_evals [DecidableEq F] : TwinRun (· = ·) (VSt.transferEvals : Act (VSt F C B) Unit) VSt.transferEvals := by
  intro s s' hs
  refine ⟨rfl, ⟨?_, hs.tr, hs.cnt, hs.mats, hs.zeros, hs.sums, hs.proof, hs.keys⟩⟩
  show ({ s'.sh with queries := s'.own.proof.queryMap.foldl (fun m e => amInsert e.1 e.2 m) s'.sh.queries } : VShared F) = _
  rw [hs.sh, hs.field.2.1]
  rfl

/-! ### Histories -/

/-- Two histories in step: states as above, and the same handles. -/
def TwinState (vs vs' : VState F C B) : Prop := Twin vs.st vs'.st ∧ vs'.handles = vs.handles

theorem twin_handle {m m' : Act (VSt F C B) Nat} (hm : TwinRun (· = ·) m m') {vs vs' : VState F C B} (h : TwinState vs vs') :
    ResRel TwinState (vstepHandle vs m) (vstepHandle vs' m') := by
  obtain ⟨a1, a2⟩ := hm vs.st vs'.st h.1
  unfold vstepHandle
  rcases hr : m vs.st with ⟨(e | _) | a, t⟩ <;> rcases hr' : m' vs'.st with ⟨(e' | _) | b, t'⟩ <;> rw [hr, hr'] at a1 a2 <;>
    first | exact a1.elim | (cases a1; done) | skip
  · exact ⟨a2, h.2⟩
  · exact rfl
  · obtain rfl : a = b := a1
    exact ⟨a2, congrArg (· ++ [a]) h.2⟩

theorem twin_other {R : α → α → Prop} {m m' : Act (VSt F C B) α} (hm : TwinRun R m m') {vs vs' : VState F C B} (h : TwinState vs vs') :
    ResRel TwinState (vstepOther vs m) (vstepOther vs' m') := by
  obtain ⟨a1, a2⟩ := hm vs.st vs'.st h.1
  unfold vstepOther
  rcases hr : m vs.st with ⟨(e | _) | a, t⟩ <;> rcases hr' : m' vs'.st with ⟨(e' | _) | b, t'⟩ <;> rw [hr, hr'] at a1 a2 <;>
    first | exact a1.elim | (cases a1; done) | skip
  · exact ⟨a2, h.2⟩
  · exact rfl
  · exact ⟨a2, h.2⟩

theorem twin_idx {vs vs' : VState F C B} (h : TwinState vs vs') (i : Nat) {f f' : Nat → Res (VState F C B)}
    (hf : ∀ a, ResRel TwinState (f a) (f' a)) : ResRel TwinState (idx vs.handles i >>= f) (idx vs'.handles i >>= f') := by
  rw [h.2]
  rcases idx vs.handles i with e | a
  · exact rfl
  · exact hf a

theorem twin_op [DecidableEq F] (debug : Bool) (H : Oracle F C) (op : VOp F C B) (hop : ∀ q, op ≠ .setProof q) {vs vs' : VState F C B} (h : TwinState vs vs') :
    ResRel TwinState (op.run debug H vs) (op.run debug H vs') := by
  cases op <;> simp only [VOp.run]
  case trackComm c => exact twin_handle (twin_trackMat c) h
  case transfer id => exact twin_handle (twin_transfer debug id) h
  case transferNext => exact twin_handle (twin_getNextId.bind fun a b hab => by subst hab; exact twin_transfer debug a) h
  case virt f => exact twin_handle (twin_virt _) h
  case add i j => exact twin_idx h i fun _ => twin_idx h j fun _ => twin_handle (twin_virt _) h
  case sub i j => exact twin_idx h i fun _ => twin_idx h j fun _ => twin_handle (twin_virt _) h
  case mul i j => exact twin_idx h i fun _ => twin_idx h j fun _ => twin_handle (twin_virt _) h
  case addScalar i c => exact twin_idx h i fun _ => twin_handle (twin_addScalar _ _) h
  case mulScalar i c => exact twin_idx h i fun _ => twin_handle (twin_virt _) h
  case incFront i c => exact twin_idx h i fun _ => twin_handle (twin_virt _) h
  case incBack i c => exact twin_idx h i fun _ => twin_handle (twin_virt _) h
  case setProof q => exact absurd rfl (hop q)
  case transferEvals => exact twin_other twin_evals h
  case challenge label => exact twin_other (twin_challenge H label) h
  case append label d => exact twin_other (twin_append label d) h
  case sumClaim i v => exact twin_idx h i fun _ => twin_other (twin_addSum _ _ _) h
  case proverSum i => exact twin_idx h i fun a => twin_other ((twin_claimed a).bind fun v v' _ => twin_addSum a v v') h
  case zeroClaim i => exact twin_idx h i fun _ => twin_other (twin_addZero _) h

theorem twin_ops [DecidableEq F] (debug : Bool) (H : Oracle F C) (ops : List (VOp F C B)) (hops : ∀ q, VOp.setProof q ∉ ops) {vs vs' : VState F C B}
    (h : TwinState vs vs') : ResRel TwinState (runVOps debug H vs ops) (runVOps debug H vs' ops) := by
  induction ops generalizing vs vs' with
  | nil => exact h
  | cons op ops ih =>
    simp only [runVOps, List.foldlM_cons]
    have h1 := twin_op debug H op (fun q e => hops q (by rw [e]; exact List.mem_cons_self)) h
    rcases hr : op.run debug H vs with e | s1 <;> rcases hr' : op.run debug H vs' with e' | s1' <;> rw [hr, hr'] at h1
    · exact h1
    · exact h1.elim
    · exact h1.elim
    · exact ih (fun q hq => hops q (List.mem_cons_of_mem _ hq)) h1

/-! ### Verification -/

theorem twin_foldZero (H : Oracle F C) (cs : List Nat) (agg : Nat) :
    TwinRun (· = ·) (VSt.foldZeroClaims H cs agg : Act (VSt F C B) Nat) (VSt.foldZeroClaims H cs agg) := by
  induction cs generalizing agg with
  | nil => exact twin_pure rfl
  | cons c cs ih =>
    unfold VSt.foldZeroClaims
    refine (twin_challenge H _).expect.bind fun a b hab => ?_
    subst hab
    refine (twin_virt _).bind fun a b hab => ?_
    subst hab
    refine (twin_virt _).bind fun a b hab => ?_
    subst hab
    exact ih a

theorem twin_convertZero (H : Oracle F C) (nv : Nat) : TwinRun (· = ·) (VSt.convertZero H nv : Act (VSt F C B) Unit) (VSt.convertZero H nv) := by
  unfold VSt.convertZero
  refine (twin_virt _).bind fun a b hab => ?_
  subst hab
  refine TwinRun.bind (R := (· = ·)) (twin_reads fun s s' hs => resRel_of_eq (by rw [hs.zeros])) fun l l' hl => ?_
  subst hl
  refine (twin_foldZero H l a).bind fun a b hab => ?_
  subst hab
  refine (twin_challengesU H _ _).bind fun a b hab => ?_
  subst hab
  refine (twin_virt _).bind fun a b hab => ?_
  subst hab
  refine (twin_virt _).bind fun a b hab => ?_
  subst hab
  exact twin_addSum _ _ _

theorem twin_foldSum (H : Oracle F C) (cs cs' : List (Nat × F)) (hcs : cs'.map (·.1) = cs.map (·.1)) (agg : Nat) (s s' : F) :
    TwinRun (fun a b => b.1 = a.1) (VSt.foldSumClaims H cs agg s : Act (VSt F C B) (Nat × F)) (VSt.foldSumClaims H cs' agg s') := by
  induction cs generalizing cs' agg s s' with
  | nil =>
    obtain rfl : cs' = [] := by simpa using hcs
    exact twin_pure rfl
  | cons c cs ih =>
    rcases cs' with _ | ⟨c', cs'⟩
    · simp at hcs
    obtain ⟨h1, h2⟩ : c'.1 = c.1 ∧ cs'.map (·.1) = cs.map (·.1) := by simpa using hcs
    unfold VSt.foldSumClaims
    refine (twin_challenge H _).expect.bind fun a b hab => ?_
    subst hab
    rw [h1]
    refine (twin_virt _).bind fun a b hab => ?_
    subst hab
    refine (twin_virt _).bind fun a b hab => ?_
    subst hab
    exact ih cs' h2 _ _ _

theorem twin_aggregate (H : Oracle F C) : TwinRun (fun a b => b.1 = a.1) (VSt.aggregate H : Act (VSt F C B) (Nat × F)) (VSt.aggregate H) := by
  unfold VSt.aggregate
  refine TwinRun.bind (R := (· = ·)) (twin_reads fun s s' hs => resRel_of_eq (by rw [hs.field.2.2.2.2.1])) fun n n' hn => ?_
  subst hn
  refine (twin_convertZero H n).bind fun _ _ _ => ?_
  refine (twin_virt _).bind fun a b hab => ?_
  subst hab
  refine TwinRun.bind (R := fun l l' : List (Nat × F) => l'.map (·.1) = l.map (·.1)) (twin_reads fun s s' hs => hs.sums) fun l l' hl => ?_
  exact twin_foldSum H l l' hl _ _ _

theorem twin_checkSumcheck [DecidableEq F] (H : Oracle F C) (v : F) :
    TwinRun (· = ·) (VSt.checkSumcheck H v : Act (VSt F C B) (SubClaim F)) (VSt.checkSumcheck H v) := by
  intro s s' hs
  obtain ⟨-, -, h1, h2, h3, -⟩ := hs.field
  unfold VSt.checkSumcheck
  rw [h1, h2, h3, hs.tr]
  rcases sumcheckVerify H v s.own.proof.scProof s.own.proof.scMaxDegree s.own.proof.scNumVars s.own.transcript with (e | _) | ⟨sub, tr⟩
  · exact ⟨rfl, ⟨hs.sh, rfl, hs.cnt, hs.mats, hs.zeros, hs.sums, hs.proof, hs.keys⟩⟩
  · exact ⟨rfl, ⟨hs.sh, rfl, hs.cnt, hs.mats, hs.zeros, hs.sums, hs.proof, hs.keys⟩⟩
  · exact ⟨rfl, ⟨hs.sh, rfl, hs.cnt, hs.mats, hs.zeros, hs.sums, hs.proof, hs.keys⟩⟩

theorem twin_checkBatch (pcs : Pcs F C B) (comms : List C) (pts : List (List F)) (bp : B) :
    TwinRun (· = ·) (VSt.checkBatch pcs comms pts bp : Act (VSt F C B) Bool) (VSt.checkBatch pcs comms pts bp) := by
  intro s s' hs
  unfold VSt.checkBatch
  rw [hs.tr]
  rcases pcs.batchVerify comms pts bp s.own.transcript with e | ⟨b, tr⟩
  · exact ⟨rfl, ⟨hs.sh, rfl, hs.cnt, hs.mats, hs.zeros, hs.sums, hs.proof, hs.keys⟩⟩
  · exact ⟨rfl, ⟨hs.sh, rfl, hs.cnt, hs.mats, hs.zeros, hs.sums, hs.proof, hs.keys⟩⟩

/-- What `verify_claims` does once the claims are folded. -/
def VSt.afterAggregate [DecidableEq F] (pcs : Pcs F C B) (H : Oracle F C) (v : F) : Act (VSt F C B) Unit := do
  let sub ← VSt.checkSumcheck H v
  let ids ← Act.reads fun s => .ok (PTracker.sortedIds s.own.proof.comms)
  let comms ← Act.reads fun s => ids.mapM fun id => unwrap (s.own.matComms.lookup id)
  let bp ← Act.reads fun s => idx s.own.proof.pcsProof 0
  let _ ← VSt.checkBatch pcs comms (ids.map fun _ => sub.point) bp
  pure ()

theorem verifyClaims_eq [DecidableEq F] (pcs : Pcs F C B) (H : Oracle F C) :
    VSt.verifyClaims pcs H = VSt.aggregate H >>= fun a => VSt.afterAggregate pcs H a.2 := rfl

theorem twin_after [DecidableEq F] (pcs : Pcs F C B) (H : Oracle F C) (v : F) :
    TwinRun (· = ·) (VSt.afterAggregate pcs H v) (VSt.afterAggregate pcs H v) := by
  unfold VSt.afterAggregate
  refine (twin_checkSumcheck H v).bind fun a b hab => ?_
  subst hab
  refine TwinRun.bind (R := (· = ·)) (twin_reads fun s s' hs => resRel_of_eq (by rw [hs.field.1])) fun l l' hl => ?_
  subst hl
  refine TwinRun.bind (R := (· = ·)) (twin_reads fun s s' hs => resRel_of_eq (by rw [hs.mats])) fun l l' hl => ?_
  subst hl
  refine TwinRun.bind (R := (· = ·)) (twin_reads fun s s' hs => resRel_of_eq (by rw [hs.field.2.2.2.2.2])) fun l l' hl => ?_
  subst hl
  exact (twin_checkBatch _ _ _ _).bind fun _ _ _ => twin_pure rfl
/-! ### The folded sum -/

theorem twin_res_bind {α β : Type} {r : Res α} {f : α → Res β} {b : β} (h : (r >>= f) = .ok b) : ∃ a, r = .ok a ∧ f a = .ok b := by
  cases r with
  | error _ => cases h
  | ok a => exact ⟨a, rfl, h⟩

theorem challengeU_inv {H : Oracle F C} {label : String} {s s' : VSt F C B} {c : F} (h : VSt.challengeU H label s = (.ok c, s')) :
    ∃ tr, s.own.transcript.challenge H label = .ok (c, tr) ∧ s' = { s with own := { s.own with transcript := tr } } := by
  unfold VSt.challengeU Act.expect VSt.challenge at h
  rcases hc : s.own.transcript.challenge H label with e | ⟨c', tr⟩ <;> rw [hc] at h
  · simp at h
  · obtain ⟨h1, h2⟩ := Prod.mk.inj h
    obtain rfl := Except.ok.inj h1
    exact ⟨tr, rfl, h2.symm⟩

theorem foldZero_inv (H : Oracle F C) (cs : List Nat) {agg a : Nat} {s s' : VSt F C B} {l : List F} {tr : Transcript F C}
    (h : VSt.foldZeroClaims H cs agg s = (.ok a, s')) (hl : s.own.transcript.challengeLoop H "zerocheck challenge" cs.length = .ok (l, tr)) :
    s'.own.transcript = tr ∧ s'.own.sumClaims = s.own.sumClaims ∧ s'.own.proof = s.own.proof := by
  induction cs generalizing agg s l with
  | nil =>
    unfold VSt.foldZeroClaims at h
    obtain ⟨-, rfl⟩ := Prod.mk.inj h
    simp only [List.length_nil, Transcript.challengeLoop] at hl
    obtain ⟨-, rfl⟩ := Prod.mk.inj (Except.ok.inj hl)
    exact ⟨rfl, rfl, rfl⟩
  | cons c cs ih =>
    unfold VSt.foldZeroClaims at h
    obtain ⟨x, s1, h1, h⟩ := Act.bind_eq_ok.1 h
    obtain ⟨tr1, h2, rfl⟩ := challengeU_inv h1
    rw [VSt.mulScalar, Act.bind_ok (VSt.trackVirtual_run _ _), VSt.addComms, Act.bind_ok (VSt.trackVirtual_run _ _)] at h
    simp only [List.length_cons, Transcript.challengeLoop, h2, ok_bind] at hl
    obtain ⟨⟨l2, tr2⟩, h3, h4⟩ := twin_res_bind hl
    obtain ⟨-, rfl⟩ := Prod.mk.inj (Except.ok.inj h4)
    have := ih h h3
    exact this

theorem foldSum_inv (H : Oracle F C) (cs : List (Nat × F)) {agg a : Nat} {s s' : VSt F C B} {l : List F} {tr : Transcript F C} {sm v : F}
    (h : VSt.foldSumClaims H cs agg sm s = (.ok (a, v), s')) (hl : s.own.transcript.challengeLoop H "sumcheck challenge" cs.length = .ok (l, tr)) :
    v = sm + dot l (cs.map (·.2)) := by
  induction cs generalizing agg s l sm with
  | nil =>
    unfold VSt.foldSumClaims at h
    obtain ⟨h1, rfl⟩ := Prod.mk.inj h
    obtain ⟨-, rfl⟩ := Prod.mk.inj (Except.ok.inj h1)
    simp only [List.length_nil, Transcript.challengeLoop] at hl
    obtain ⟨rfl, rfl⟩ := Prod.mk.inj (Except.ok.inj hl)
    simp [dot]
  | cons c cs ih =>
    unfold VSt.foldSumClaims at h
    obtain ⟨x, s1, h1, h⟩ := Act.bind_eq_ok.1 h
    obtain ⟨tr1, h2, rfl⟩ := challengeU_inv h1
    rw [VSt.mulScalar, Act.bind_ok (VSt.trackVirtual_run _ _), VSt.addComms, Act.bind_ok (VSt.trackVirtual_run _ _)] at h
    simp only [List.length_cons, Transcript.challengeLoop, h2, ok_bind] at hl
    obtain ⟨⟨l2, tr2⟩, h3, h4⟩ := twin_res_bind hl
    obtain ⟨rfl, rfl⟩ := Prod.mk.inj (Except.ok.inj h4)
    rw [ih h h3, List.map_cons, dot_cons]
    ring

/-- The folded sum, computed from the recorded sums and the challenges. -/
theorem aggregate_value (H : Oracle F C) {s s1 : VSt F C B} {agg : Nat} {sm : F} {cs r ds : List F} (h : VSt.aggregate H s = (.ok (agg, sm), s1))
    (hch : FoldingChallenges H s cs r ds) : sm = foldedSum ds (s.own.sumClaims.map (·.2)) := by
  obtain ⟨tr1, tr2, tr3, a1, a2, a3⟩ := hch
  unfold VSt.aggregate VSt.convertZero at h
  rw [Act.reads_bind, Act.bind_assoc, Act.bind_ok (VSt.trackVirtual_run _ _), Act.bind_assoc, Act.reads_bind, Act.bind_assoc] at h
  obtain ⟨a, s2, h1, h⟩ := Act.bind_eq_ok.1 h
  obtain ⟨b1, b2, b3⟩ := foldZero_inv H _ h1 a1
  rw [Act.bind_assoc] at h
  obtain ⟨r', s3, h2, h⟩ := Act.bind_eq_ok.1 h
  unfold VSt.challengesU at h2
  rw [b1, a2] at h2
  obtain ⟨h3, rfl⟩ := Prod.mk.inj h2
  obtain rfl := Except.ok.inj h3
  rw [Act.bind_assoc, Act.bind_ok (VSt.trackVirtual_run _ _), VSt.mulComms, Act.bind_assoc, Act.bind_ok (VSt.trackVirtual_run _ _)] at h
  obtain ⟨_, s4, h4, h⟩ := Act.bind_eq_ok.1 h
  obtain ⟨-, rfl⟩ := Prod.mk.inj h4
  rw [Act.bind_ok (VSt.trackVirtual_run _ _), Act.reads_bind] at h
  have hlen : (s2.own.sumClaims ++ [(s2.own.idCounter + 1, (0 : F))]).length = s.own.sumClaims.length + 1 := by
    rw [b2]
    simp [VSt.push]
  have := foldSum_inv H _ h (l := ds) (tr := tr3) (by
    show tr2.challengeLoop H "sumcheck challenge" (s2.own.sumClaims ++ [(s2.own.idCounter + 1, (0 : F))]).length = _
    rw [hlen]; exact a3)
  rw [this, zero_add]
  unfold foldedSum
  show dot ds ((s2.own.sumClaims ++ [(s2.own.idCounter + 1, (0 : F))]).map (·.2)) = _
  rw [b2, List.map_append]
  rfl

theorem twin_folded (H : Oracle F C) {s s' : VSt F C B} (ht : Twin s s') {cs r ds : List F} (hch : FoldingChallenges H s cs r ds)
    (hf : foldedSum ds (s'.own.sumClaims.map (·.2)) = foldedSum ds (s.own.sumClaims.map (·.2))) :
    ∀ agg sm s1 agg' sm' s1', VSt.aggregate H s = (.ok (agg, sm), s1) → VSt.aggregate H s' = (.ok (agg', sm'), s1') → sm' = sm := by
  intro agg sm s1 agg' sm' s1' h1 h2
  have hch' : FoldingChallenges H s' cs r ds := by
    unfold FoldingChallenges
    have hl : s'.own.sumClaims.length = s.own.sumClaims.length := by simpa using congrArg List.length ht.sums
    rw [ht.tr, ht.zeros, ht.field.2.2.2.2.1, hl]
    exact hch
  rw [aggregate_value H h1 hch, aggregate_value H h2 hch', hf]

end Zksql
