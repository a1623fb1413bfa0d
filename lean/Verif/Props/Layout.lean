import Verif.Lemmas.LayoutVerify
import Verif.Props.Compile
/-!
C102: results do not depend on the order in which hash maps are visited nor on the addresses of tables.
-/
set_option linter.unusedSectionVars false
namespace Zksql
open Spec PTracker
variable {F C B : Type} [Field F]

/-- C102: every history of prover calls ends in the same way, with the same handles and contents, however memory is rearranged before every call. -/
theorem C102_history {d : Nat → PTracker F C → PTracker F C} (hd : Rearranges d) (commit : Mle F → Res C) (H : Oracle F C) (ops : List (POp F C)) :
    AgreeBy (fun st st' => st.handles = st'.handles ∧ SameContents st.tracker st'.tracker)
      (runOps commit H PState.init ops) (runRearranged d commit H 0 PState.init ops) :=
  runRearranged_same hd commit H ops 0 ⟨rfl, new_same⟩

/-- C102: a handle has the same values whatever the arrangement of memory. -/
theorem C102_values {t t' : PTracker F C} (h : SameContents t t') (a : TPoly) :
    (a.evaluations t).1 = (a.evaluations t').1 ∧ ∀ pt, a.evaluate t pt = a.evaluate t' pt :=
  ⟨agreeBy_eq.1 (evaluations_alike a.id t t' h).1, fun pt => evaluate_same h a.id pt⟩

/-- C102: a history followed by compiling gives the same proof, or fails in the same way, however memory is rearranged before every call and inside
the compilation. -/
theorem C102_proof [DecidableEq F] {d e : Nat → PTracker F C → PTracker F C} (hd : Rearranges d) (he : Rearranges e) (commit : Mle F → Res C) (H : Oracle F C)
    (debug : Bool) (pcs : Pcs F C B) (ops : List (POp F C)) :
    AgreeBy SameProof (runOps commit H PState.init ops >>= fun st => (compile debug pcs H st.tracker).1)
      (runRearranged d commit H 0 PState.init ops >>= fun st => (compileRearranged e debug pcs H st.tracker).1) :=
  agreeBy_bind (C102_history hd commit H ops) fun st st' h => (compile_alike he debug pcs H st.tracker st'.tracker h.2).1

/-- C102: the verifier accepts or refuses in the same way, however the maps of the proof it is given are ordered and its memory is rearranged. -/
theorem C102_verdict [DecidableEq F] {d e : Nat → VSt F C B → VSt F C B} (hd : VRearranges d) (he : VRearranges e) (H : Oracle F C) (debug : Bool) (pcs : Pcs F C B)
    {ops ops' : List (VOp F C B)} (ho : List.Forall₂ SameCall ops ops') :
    (runVOps debug H VState.init ops >>= fun vs => (VSt.verifyClaims pcs H vs.st).1) =
      (runVRearranged d debug H 0 VState.init ops' >>= fun vs => (verifyRearranged e pcs H vs.st).1) :=
  agreeBy_eq.1 (agreeBy_bind (runVRearranged_same hd debug H ho 0 ⟨rfl, vnew_same⟩) fun vs vs' h => agreeBy_eq.2 (verify_alike he pcs H vs.st vs'.st h.2).1)

/-- C102: the verifier's handles have the same values too. -/
theorem C102_verifier_values [DecidableEq F] {s s' : VSt F C B} (h : SameVerifier s s') (id : Nat) (pt : List F) :
    VSt.evalVirtual s.sh id pt = VSt.evalVirtual s'.sh id pt := evalVirtual_same h id pt

/-! ### Example -/
namespace LayEx

attribute [local irreducible] AgreeBy

theorem reverse_same {κ α : Type} [BEq κ] [LawfulBEq κ] {m : List (κ × α)} (h : (m.map (·.1)).Nodup) : SameMap m m.reverse := by
  have h' : (m.reverse.map (·.1)).Nodup := by rw [List.map_reverse]; exact List.nodup_reverse.2 h
  refine ⟨h, h', fun k => Option.ext fun v => ?_⟩
  rw [← mem_iff_lookup m h, ← mem_iff_lookup m.reverse h', List.mem_reverse]

/-- All maps in reverse order, all tables moved to other addresses. -/
def turn (t : PTracker F C) : PTracker F C :=
  { t with
    heap := 2 * t.heap + 5
    mats := (t.mats.map fun e => (e.1, ⟨2 * e.2.ptr + 4, e.2.mle⟩)).reverse
    virts := t.virts.reverse
    comms := t.comms.reverse }

theorem turn_rearranges : Rearranges (fun _ => turn : Nat → PTracker F C → PTracker F C) := by
  intro _ t h
  have hk := h.keysL
  have hk' : ((t.mats.map fun e => (e.1, (⟨2 * e.2.ptr + 4, e.2.mle⟩ : ArcMle F))).map (·.1)).Nodup := by
    simpa [List.map_map, Function.comp_def] using hk
  have look : ∀ id, (turn t).mats.lookup id = (t.mats.lookup id).map fun a => ⟨2 * a.ptr + 4, a.mle⟩ := fun id => by
    rw [← lookup_map_snd (fun a : ArcMle F => (⟨2 * a.ptr + 4, a.mle⟩ : ArcMle F)), (reverse_same hk').lookup id]
    rfl
  refine ⟨rfl, rfl, rfl, rfl, reverse_same h.virts.once, reverse_same h.comms.once, ?_, ?_, h.unused, ?_⟩
  · have : (turn t).mats.map (fun e => (e.1, e.2.mle)) = (t.mats.map fun e => (e.1, e.2.mle)).reverse := by
      simp [turn, List.map_reverse, List.map_map, Function.comp_def]
    rw [this]
    exact reverse_same h.mats.once
  · intro i j a b a' b' h1 h2 h3 h4
    rw [look, h1] at h3
    rw [look, h2] at h4
    simp only [Option.map_some, Option.some.injEq] at h3 h4
    subst h3
    subst h4
    simp only
    omega
  · intro i a ha
    rw [look] at ha
    rcases hl : t.mats.lookup i with _ | b
    · rw [hl] at ha; cases ha
    · rw [hl] at ha
      simp only [Option.map_some, Option.some.injEq] at ha
      subst ha
      have := h.unused i b hl
      simp only [turn]
      omega

/-- Memory is rearranged once, at the end of the compilation. -/
def late (k : Nat) : PTracker F C → PTracker F C := if k = 9 then turn else id

theorem late_rearranges : Rearranges (late : Nat → PTracker F C → PTracker F C) := by
  intro k t h
  unfold late
  split_ifs
  · exact turn_rearranges k t h
  · exact h

/-- The proof of the example when memory is rearranged. -/
def proof : Res (CompiledProof (ZMod 7) (ZMod 7) (BatchProof PfEx.E7)) :=
  runRearranged (fun _ => turn) (PfEx.com [3]) exBatchH 0 PState.init PfEx.ops >>= fun st => (compileRearranged late true (PfEx.pcs [3]) exBatchH st.tracker).1

/-- Two commitments in the example: a loop over the commitments of the proof visits them in another order ... -/
theorem other_order : (PfEx.proof [3] PfEx.ops).toOption.map (fun p => p.comms.map (·.1)) = some [1, 0] ∧ proof.toOption.map (fun p => p.comms.map (·.1)) = some [0, 1] := by
  decide +kernel

/-- ... and the proofs still say the same. -/
theorem same_proof : AgreeBy SameProof (PfEx.proof [3] PfEx.ops) proof := by
  have h := C102_proof (B := BatchProof PfEx.E7) turn_rearranges late_rearranges (PfEx.com [3]) exBatchH true (PfEx.pcs [3]) PfEx.ops
  rw [PfEx.run, ok_bind] at h
  unfold PfEx.proof proof
  with_reducible exact h

/-- All maps of the verifier in reverse order. -/
def vturn (s : VSt F C B) : VSt F C B :=
  ⟨{ s.own with
      matComms := s.own.matComms.reverse
      proof := { s.own.proof with
        comms := s.own.proof.comms.reverse
        sumcheckClaims := s.own.proof.sumcheckClaims.reverse
        queryMap := s.own.proof.queryMap.reverse } },
    ⟨s.sh.comms.reverse, s.sh.queries.reverse⟩⟩

theorem vturn_rearranges [DecidableEq F] : VRearranges (fun _ => vturn : Nat → VSt F C B → VSt F C B) := fun _ _ h =>
  ⟨rfl, rfl, rfl, rfl, reverse_same h.comms.once, ⟨reverse_same h.proof.comms.once, reverse_same h.proof.claims.once, reverse_same h.proof.answers.once, rfl, rfl, rfl, rfl⟩,
    reverse_same h.closures.once, reverse_same h.answers.once⟩

theorem sameCalls_refl [DecidableEq F] : ∀ ops : List (VOp F C B), (∀ p, VOp.setProof p ∉ ops) → List.Forall₂ SameCall ops ops
  | [], _ => .nil
  | op :: ops, h => .cons (by
      cases op <;> first
        | exact rfl
        | (rename_i p; exact absurd List.mem_cons_self (h p))) (sameCalls_refl ops fun p hp => h p (List.mem_cons_of_mem _ hp))

/-- The verifier accepts the rearranged proof of the example, with its own memory rearranged all the time. -/
example (p p' : CompiledProof (ZMod 7) (ZMod 7) (BatchProof PfEx.E7)) (h : PfEx.proof [3] PfEx.ops = .ok p) (h' : proof = .ok p') :
    (runVRearranged (fun _ => vturn) true exBatchH 0 VState.init (.setProof p' :: mirrorOps JEx.closed PfEx.ops) >>= fun vs =>
      (verifyRearranged (fun _ => vturn) (PfEx.pcs [3]) exBatchH vs.st).1) = .ok () := by
  have hs := same_proof
  rw [h, h', agreeBy_ok] at hs
  rw [← C102_verdict vturn_rearranges vturn_rearranges exBatchH true (PfEx.pcs [3])
    (List.Forall₂.cons (show SameCall (VOp.setProof p) (VOp.setProof p') from hs) (sameCalls_refl _ fun q hq => by
      simp [mirrorOps, mirror, PfEx.ops] at hq))]
  have := PfEx.run_verdict
  unfold PfEx.verdict at this
  rw [h, ok_bind] at this
  with_reducible exact this

end LayEx
end Zksql
