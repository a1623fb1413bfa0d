import Verif.Lemmas.Unread
import Verif.Lemmas.Crash
import Verif.Lemmas.VerifyRun
import Verif.Props.Program
/-!
C105: which parts of a proof decide.
-/
set_option linter.unusedSectionVars false
namespace Zksql
open Spec
variable {F C B : Type} [Field F] [DecidableEq F]

/-- C105 in full: a verifier that accepts a proof refuses every other proof with the same commitments and the same claimed sums. -/
def C105_statement : Prop :=
  ∀ (F C B : Type) [Field F] [DecidableEq F] (E : Env F C) (pcs : Pcs F C B) (prog : List (Step F)) (p p' : CompiledProof F C B),
    (checkProof E pcs prog p VSt.new).1.isOk = true → p'.comms = p.comms → p'.sumcheckClaims = p.sumcheckClaims → p' ≠ p →
    (checkProof E pcs prog p' VSt.new).1.isOk = false

/-- Calls of the verifier have the same results, one by one, for two proofs that agree on the read parts, whether the calls succeed or not; so has
`verify_claims` after them, and so have all calls after that. -/
theorem C105_unread (E : Env F C) (pcs : Pcs F C B) {p p' : CompiledProof F C B} (h : SameRead p p') (s : VSt F C B) (cs ds : List (VerifierCall F C)) :
    voutcomes E cs (loadProof p s) = voutcomes E cs (loadProof p' s) ∧
    (VSt.verifyClaims pcs E.H (vcallsOn E cs (loadProof p s))).1 = (VSt.verifyClaims pcs E.H (vcallsOn E cs (loadProof p' s))).1 ∧
    voutcomes E ds (VSt.verifyClaims pcs E.H (vcallsOn E cs (loadProof p s))).2 = voutcomes E ds (VSt.verifyClaims pcs E.H (vcallsOn E cs (loadProof p' s))).2 := by
  obtain ⟨h1, h2⟩ := VBlind.outcomes E cs _ _ (loadProof_alike h s)
  obtain ⟨h3, h4⟩ := VBlind.verifyClaims pcs E.H _ _ h2
  exact ⟨h1, h3, (VBlind.outcomes E ds _ _ h4).1⟩

theorem checkProof_blind (E : Env F C) (pcs : Pcs F C B) {p p' : CompiledProof F C B} (h : SameRead p p') (prog : List (Step F)) (s : VSt F C B) :
    (checkProof E pcs prog p s).1 = (checkProof E pcs prog p' s).1 :=
  (VBlind.bind (VBlind.program E prog []) (fun hs => VBlind.bind (VBlind.verifyClaims pcs E.H) fun _ => VBlind.pure hs) _ _ (loadProof_alike h s)).1

/-- The same for programs: the handles and the verdict are the same. -/
theorem C105_unread_program (E : Env F C) (pcs : Pcs F C B) {p p' : CompiledProof F C B} (h : SameRead p p') (prog : List (Step F)) (s : VSt F C B) :
    (checkProof E pcs prog p s).1 = (checkProof E pcs prog p' s).1 := checkProof_blind E pcs h prog s

/-- So an accepted proof stays accepted with any answers to queries, any point, any further round messages and any further opening proofs. -/
theorem C105_altered (E : Env F C) (pcs : Pcs F C B) (prog : List (Step F)) {p : CompiledProof F C B} {hs : List TPoly}
    (h : (checkProof E pcs prog p VSt.new).1 = .ok hs) (answers : List ((Nat × List F) × F)) (point : List F) (rounds : List (List F)) (openings : List B) :
    (checkProof E pcs prog { p with queryMap := answers, scProof := ⟨point, p.scProof.proofs ++ rounds⟩, pcsProof := p.pcsProof ++ openings } VSt.new).1 = .ok hs := by
  obtain ⟨_, hn, _, hb⟩ := checkProof_complete E pcs h
  rw [← h]
  symm
  refine checkProof_blind E pcs (p := p) (p' := { p with queryMap := answers, scProof := ⟨point, p.scProof.proofs ++ rounds⟩, pcsProof := p.pcsProof ++ openings })
    ⟨rfl, fun _ => rfl, rfl, rfl, ?_, ?_⟩ prog VSt.new
  · show p.scProof.proofs.take p.scNumVars = (p.scProof.proofs ++ rounds).take p.scNumVars
    rw [List.take_append_of_le_length hn]
  · show p.pcsProof.head? = (p.pcsProof ++ openings).head?
    obtain ⟨b, bs, e⟩ := List.exists_cons_of_ne_nil hb
    rw [e]; rfl

/-- The read parts are all needed: an accepted proof has at least one variable, a round message with `degree + 1` values for each of them, an opening proof,
and commitments only for identifiers under which the verifier has taken a commitment. -/
theorem C105_complete_partial (pcs : Pcs F C B) (H : Oracle F C) {s : VSt F C B} (h : (VSt.verifyClaims pcs H s).1 = .ok ()) :
    0 < s.own.proof.scNumVars ∧ s.own.proof.scNumVars ≤ s.own.proof.scProof.proofs.length ∧
    (∀ m ∈ s.own.proof.scProof.proofs.take s.own.proof.scNumVars, m.length = s.own.proof.scMaxDegree + 1) ∧ s.own.proof.pcsProof ≠ [] ∧
    ∀ e ∈ s.own.proof.comms, ∃ c, s.own.matComms.lookup e.1 = some c := verifyClaims_complete pcs H h

/-! ### Examples -/

namespace UnrEx
open PfEx

/-- The program of C85 with its commitments. -/
def prog : List (Step (ZMod 7)) := cols84.map .commit ++ prog85

/-- Checking a proof of it. -/
def verdict (p : CompiledProof (ZMod 7) (ZMod 7) (BatchProof E7)) : Res Unit :=
  (checkProof env84 (kzgOf (E := E7) H84 (1 : ZMod 7) (1 : ZMod 7) [3]) prog p VSt.new).1.map fun _ => ()


/-- Altered proofs: a round message with one value changed, without the last round message, with another degree, with another number of variables, without
the opening proof, without one of the commitments, with one commitment changed. -/
def alterations (p : CompiledProof (ZMod 7) (ZMod 7) (BatchProof E7)) : List (CompiledProof (ZMod 7) (ZMod 7) (BatchProof E7)) :=
  [{ p with scProof := { p.scProof with proofs := p.scProof.proofs.map fun m => m.set 0 (m.headD 0 + 1) } },
   { p with scProof := { p.scProof with proofs := p.scProof.proofs.dropLast } },
   { p with scMaxDegree := p.scMaxDegree + 1 }, { p with scNumVars := p.scNumVars + 1 }, { p with pcsProof := [] },
   { p with comms := p.comms.drop 1 }, { p with comms := p.comms ++ [(40, 1)] }]

/-- The honest proof is accepted, and it has answers to queries. -/
theorem accepted : (proof85.toOption.map fun p => ((verdict p).toOption, p.queryMap.length)) = some (some (), 6) := by decide +kernel

/-- Every one of the alterations is refused. -/
example : (proof85.toOption.map fun p => (alterations p).map fun p' => (verdict p').toOption) = some (List.replicate 7 none) := by decide +kernel

end UnrEx

theorem C105_violated : ¬ C105_statement := by
  intro hall
  have h := UnrEx.accepted
  rcases hp : PfEx.proof85 with e | p
  · rw [hp] at h
    cases h
  · rw [hp] at h
    simp only [Except.toOption, Option.map_some, Option.some.injEq, Prod.mk.injEq] at h
    obtain ⟨h1, h2⟩ := h
    rcases hc : (checkProof PfEx.env84 (kzgOf (E := PfEx.E7) PfEx.H84 (1 : ZMod 7) (1 : ZMod 7) [3]) UnrEx.prog p VSt.new).1 with e | hs
    · unfold UnrEx.verdict at h1
      rw [hc] at h1
      cases h1
    · have g := C105_altered PfEx.env84 (kzgOf (E := PfEx.E7) PfEx.H84 (1 : ZMod 7) (1 : ZMod 7) [3]) UnrEx.prog hc [] p.scProof.point [] []
      have := hall (ZMod 7) (ZMod 7) (BatchProof PfEx.E7) PfEx.env84 (kzgOf (E := PfEx.E7) PfEx.H84 (1 : ZMod 7) (1 : ZMod 7) [3]) UnrEx.prog p
        { p with queryMap := [], scProof := ⟨p.scProof.point, p.scProof.proofs ++ []⟩, pcsProof := p.pcsProof ++ [] } (by rw [hc]; rfl) rfl rfl
        (fun e => by
          have := congrArg CompiledProof.queryMap e
          rw [← this] at h2
          cases h2)
      rw [g] at this
      cases this

end Zksql
