import Verif.Lemmas.LayoutProtocols
import Verif.Props.Layout
import Verif.Props.Program
/-!
C102 for the protocols on bags and tables, and for programs.
-/
set_option linter.unusedSectionVars false
namespace Zksql
open Spec PTracker
variable {F C B : Type} [Field F] [DecidableEq F]

/-- C102: every check has the same outcome in two provers that hold the same, and they hold the same afterwards. -/
theorem C102_checks (E : Env F C) (c : Check TPoly) {t t' : PTracker F C} (h : SameContents t t') :
    (c.prove E t).1 = (c.prove E t').1 ∧ SameContents (c.prove E t).2 (c.prove E t').2 :=
  ⟨agreeBy_eq.1 (check_steady E c t t' h).1, (check_steady E c t t' h).2⟩

/-- C102: the same for the operations on tables and the splits of two bags. -/
theorem C102_tables (E : Env F C) (a b : Table) (x y : Bag) (i j : Nat) {t t' : PTracker F C} (h : SameContents t t') :
    ((FinalJoin.prove E a b i j t).1 = (FinalJoin.prove E a b i j t').1 ∧ SameContents (FinalJoin.prove E a b i j t).2 (FinalJoin.prove E a b i j t').2) ∧
    ((CrossProduct.prover E a b t).1 = (CrossProduct.prover E a b t').1 ∧ SameContents (CrossProduct.prover E a b t).2 (CrossProduct.prover E a b t').2) ∧
    ((LmrSplit.bag E x y t).1 = (LmrSplit.bag E x y t').1 ∧ SameContents (LmrSplit.bag E x y t).2 (LmrSplit.bag E x y t').2) ∧
    ((LmrSplit.set E x y t).1 = (LmrSplit.set E x y t').1 ∧ SameContents (LmrSplit.set E x y t).2 (LmrSplit.set E x y t').2) ∧
    ((LmrSplit.multBag E x y t).1 = (LmrSplit.multBag E x y t').1 ∧ SameContents (LmrSplit.multBag E x y t).2 (LmrSplit.multBag E x y t').2) ∧
    ((Supp.advice E x t).1 = (Supp.advice E x t').1 ∧ SameContents (Supp.advice E x t).2 (Supp.advice E x t').2) :=
  have k : ∀ {α : Type} {m : Act (PTracker F C) α}, Steady m → (m t).1 = (m t').1 ∧ SameContents (m t).2 (m t').2 := fun hm =>
    ⟨agreeBy_eq.1 (hm t t' h).1, (hm t t' h).2⟩
  ⟨k (join_steady E a b i j), k (crossProduct_steady E a b), k (split_steady E x y), k (setSplit_steady E x y), k (multSplit_steady E x y),
    k (suppAdvice_steady E x)⟩

/-- C102: a program has the same columns at the end, or fails in the same way, however memory is rearranged before every step. -/
theorem C102_program {d : Nat → PTracker F C → PTracker F C} (hd : Rearranges d) (E : Env F C) (prog : List (Step F)) :
    (Step.proveAll E prog [] PTracker.new).1 = (proveRearranged d E 0 prog [] PTracker.new).1 ∧
      SameContents (Step.proveAll E prog [] PTracker.new).2 (proveRearranged d E 0 prog [] PTracker.new).2 :=
  have h := program_alike E hd prog 0 [] _ _ new_same
  ⟨agreeBy_eq.1 h.1, h.2⟩

/-- C102: its proof says the same, also when memory is rearranged while compiling. -/
theorem C102_program_proof {d e : Nat → PTracker F C → PTracker F C} (hd : Rearranges d) (he : Rearranges e) (E : Env F C) (pcs : Pcs F C B)
    (prog : List (Step F)) :
    AgreeBy SameProof ((Step.proveAll E prog [] >>= fun _ => compile E.debug pcs E.H) PTracker.new).1
      ((proveRearranged d E 0 prog [] >>= fun _ => compileRearranged e E.debug pcs E.H) PTracker.new).1 :=
  (Alike.bindE (program_alike E hd prog 0 []) (fun _ => compile_alike he E.debug pcs E.H) _ _ new_same).1

/-- C102: and the verifier decides the same about it. -/
theorem C102_program_verdict {d e : Nat → VSt F C B → VSt F C B} (hd : VRearranges d) (he : VRearranges e) (E : Env F C) (pcs : Pcs F C B)
    (prog : List (Step F)) {p p' : CompiledProof F C B} (hp : SameProof p p') :
    ((VSt.setProof p >>= fun _ => Step.verifyAll E prog [] >>= fun _ => VSt.verifyClaims pcs E.H) VSt.new).1 =
      ((VSt.setProof p' >>= fun _ => checkRearranged d E 0 prog [] >>= fun _ => verifyRearranged e pcs E.H) VSt.new).1 :=
  (VAlike.bind (setProof_alike hp) (fun _ => VAlike.bind (vprogram_alike E hd prog 0 []) fun _ => verify_alike he pcs E.H) _ _ vnew_same).1

/-- C102: the maps that the advice of the protocols is computed from may be visited in any order: counting the values of a column, multiplicities for an
inclusion, the combined values of two bags for disjointness, selectors for a join reduction, the partners of a join. -/
theorem C102_advice (E : Env F C) (hr : Function.Injective E.rep) {m m' n n' : List (F × Nat)} (hm : SameMap m m') (hn : SameMap n n') (vs ss : List F) (len : Nat) :
    AgreeBy SameMap (multCount vs ss m) (multCount vs ss m') ∧ AgreeBy SameMap (FinalJoin.keyMap vs ss len m) (FinalJoin.keyMap vs ss len m') ∧
    Inclusion.adviceLoop vs ss m = Inclusion.adviceLoop vs ss m' ∧ Disjoint.adviceVecs E len m n = Disjoint.adviceVecs E len m' n' ∧
    JoinReduction.outside m vs = JoinReduction.outside m' vs ∧ FinalJoin.lookups m vs ss = FinalJoin.lookups m' vs ss :=
  ⟨multCount_same vs ss hm, keyMap_same vs ss len hm, adviceLoop_same vs ss hm, disjointVecs_same E hr len hm hn, outside_same hm vs, lookups_same hm vs ss⟩

/-! ### Example -/
namespace LayEx
open PfEx

/-- The program of C85 with its columns committed first. -/
def prog : List (Step (ZMod 7)) := cols84.map .commit ++ prog85

/-- The scheme of the example. -/
def scheme : Pcs (ZMod 7) (ZMod 7) (BatchProof E7) := kzgOf (E := E7) H84 (1 : ZMod 7) (1 : ZMod 7) [3]

/-- Its proof, and its proof when memory is rearranged. -/
def direct : Res (CompiledProof (ZMod 7) (ZMod 7) (BatchProof E7)) := ((Step.proveAll env84 prog [] >>= fun _ => compile env84.debug scheme env84.H) PTracker.new).1
def turned : Res (CompiledProof (ZMod 7) (ZMod 7) (BatchProof E7)) :=
  ((proveRearranged (fun _ => turn) env84 0 prog [] >>= fun _ => compileRearranged late env84.debug scheme env84.H) PTracker.new).1

/-- The verifier's decision about a proof when its memory is rearranged all the time. -/
def decision (p : CompiledProof (ZMod 7) (ZMod 7) (BatchProof E7)) : Res Unit :=
  ((VSt.setProof p >>= fun _ => checkRearranged (fun _ => vturn) env84 0 prog [] >>= fun _ => verifyRearranged (fun _ => vturn) scheme env84.H) VSt.new).1

/-- Six commitments, which a loop visits in another order in the second proof; both proofs are accepted by a verifier whose memory is rearranged. -/
example : direct.toOption.map (fun p => p.comms.map (·.1)) = some [28, 19, 11, 2, 1, 0] ∧ turned.toOption.map (fun p => p.comms.map (·.1)) = some [1, 0, 2, 11, 19, 28] ∧
    (direct >>= decision).toOption = some () ∧ (turned >>= decision).toOption = some () := by
  decide +kernel

/-- Two orders of a map of counts. -/
example : SameMap [((1 : ZMod 7), 2), (3, 1)] [((3 : ZMod 7), 1), (1, 2)] := reverse_same (by decide)

end LayEx
end Zksql
