import Verif.Model.BagChecks
import Verif.Spec.Closures
import Verif.Spec.Mle
import Mathlib.Algebra.BigOperators.Group.Finset.Basic
/-!
What it means for the claims a verifier has recorded to be true, and for a check to be sound up to a few challenges.
-/
namespace Zksql.Spec
open Zksql
variable {F C B : Type} [Field F] [DecidableEq F]

/-! ### Committed polynomials and claims -/

/-- Queries to committed polynomials are answered by the polynomial `P c` behind the commitment `c`.  Nothing is assumed about `P`: a dishonest
prover chooses it. -/
def answer (s : VSt F C B) (P : C → List F → F) (id : Nat) (x : List F) : Res F :=
  match s.own.matComms.lookup id with
  | some c => .ok (P c x)
  | none => .error .panic

/-- The value of a handle at a point. -/
def valueAt (s : VSt F C B) (P : C → List F → F) (h : Nat) (x : List F) : Res F := VSt.evalC s.sh.comms (answer s P) (h + 1) h x

/-- On the hypercube of dimension `N` the handle takes the values `T 0, ..., T (2^N - 1)`. -/
def Vals (s : VSt F C B) (P : C → List F → F) (N h : Nat) (T : Nat → F) : Prop :=
  ∀ b < 2 ^ N, valueAt s P h (boolPt N b) = .ok (T b)

/-- Every recorded claim is true over the hypercube of dimension `N`: what is claimed to vanish vanishes, and what is claimed to sum to a value
does. -/
def ClaimsTrue (P : C → List F → F) (N : Nat) (s : VSt F C B) : Prop :=
  (∀ h ∈ s.own.zeroClaims, Vals s P N h fun _ => 0) ∧
    ∀ c ∈ s.own.sumClaims, ∃ T, Vals s P N c.1 T ∧ cubeSum N T = c.2

/-- The handle is a table with `2^nv` entries: on a larger hypercube it repeats. -/
def Holds (s : VSt F C B) (P : C → List F → F) (N h nv : Nat) (T : Nat → F) : Prop :=
  nv ≤ N ∧ Vals s P N h fun b => T (b % 2 ^ nv)

/-- A handle the verifier knows. -/
def Known (s : VSt F C B) (h : Nat) : Prop := (s.sh.comms.lookup h).isSome

/-- A well-formed verifier state: closures and claims refer to known handles, queries to known commitments, and every commitment is in the
transcript. -/
structure Sane (s : VSt F C B) : Prop where
  wf : s.Wf
  queries : ∀ h i, s.sh.comms.lookup h = some (.query i) → (s.own.matComms.lookup i).isSome
  mats : ∀ i c, s.own.matComms.lookup i = some c → i < s.own.idCounter
  absorbed : ∀ i c, s.own.matComms.lookup i = some c → TEvent.absorb "comm" (.comm c) ∈ s.own.transcript.events
  sums : ∀ c ∈ s.own.sumClaims, Known s c.1
  zeros : ∀ h ∈ s.own.zeroClaims, Known s h

/-! ### Bags -/

/-- The contents of a bag: `2^nv` values with their selectors. -/
structure BagTab (F : Type) where
  nv : Nat
  val : Nat → F
  sel : Nat → F

namespace BagTab

/-- The value occurs in an active row. -/
def Active (t : BagTab F) (z : F) : Prop := ∃ i < 2 ^ t.nv, t.sel i ≠ 0 ∧ t.val i = z

/-- The selector is 0 or 1 in every row. -/
def Boolean (t : BagTab F) : Prop := ∀ i < 2 ^ t.nv, t.sel i = 0 ∨ t.sel i = 1

/-- The number of active rows with the value. -/
def count (t : BagTab F) (z : F) : Nat := ((List.range (2 ^ t.nv)).filter fun i => t.sel i ≠ 0 ∧ t.val i = z).length

/-- The sum of multiplicity times selector over the rows with the value. -/
def weight (t : BagTab F) (m : Nat → F) (z : F) : F := ∑ i ∈ Finset.range (2 ^ t.nv), if t.val i = z then m i * t.sel i else 0

/-- No active value occurs twice. -/
def Nodup (t : BagTab F) : Prop := ∀ i < 2 ^ t.nv, ∀ j < 2 ^ t.nv, t.sel i ≠ 0 → t.sel j ≠ 0 → t.val i = t.val j → i = j

end BagTab

/-- The verifier's bag has these contents. -/
structure HoldsBag (s : VSt F C B) (P : C → List F → F) (N : Nat) (b : BagComm) (t : BagTab F) : Prop where
  nv : b.numVars = t.nv
  val : Holds s P N b.poly t.nv t.val
  sel : Holds s P N b.selector t.nv t.sel

/-- The verifier knows the handles of the bag. -/
def KnownBag (s : VSt F C B) (b : BagComm) : Prop := Known s b.poly ∧ Known s b.selector

/-- Bags with multiplicities. -/
abbrev Side (F : Type) := List (BagTab F × (Nat → F))

/-- Total weight of a value on one side. -/
def Side.total (l : Side F) (z : F) : F := (l.map fun e => e.1.weight e.2 z).sum

/-- The verifier's bags and multiplicities have these contents. -/
def HoldsSide (s : VSt F C B) (P : C → List F → F) (N : Nat) : List BagComm → List Nat → Side F → Prop
  | [], [], [] => True
  | b :: bs, m :: ms, e :: es => HoldsBag s P N b e.1 ∧ Holds s P N m e.1.nv e.2 ∧ HoldsSide s P N bs ms es
  | _, _, _ => False

/-- The number of entries in the bags. -/
def entries (l : List BagComm) : Nat := (l.map fun b => 2 ^ b.numVars).sum

/-! ### Soundness up to a few challenges -/

/-- The histories at which challenges are drawn: prefixes of the transcript that end in a challenge. -/
def squeezes (pre : List (TEvent F C)) : List (TEvent F C) → List (List (TEvent F C))
  | [] => []
  | .squeeze l :: r => (pre ++ [.squeeze l]) :: squeezes (pre ++ [.squeeze l]) r
  | .absorb l d :: r => squeezes (pre ++ [.absorb l d]) r

/-- The histories of the challenges drawn between two states. -/
def newChallenges (s s' : VSt F C B) : List (List (TEvent F C)) :=
  squeezes s.own.transcript.events (s'.own.transcript.events.drop s.own.transcript.events.length)

/-- The same state with another proof. -/
def withProof (s : VSt F C B) (pf : CompiledProof F C B) : VSt F C B := { s with own := { s.own with proof := pf } }

/-- The call `V`, made in state `s`, is sound up to a few exceptional challenges.  Whatever the proof `pf` and the oracle `H` are and however the call
ends successfully, it draws as many challenges as `bounds` has entries; and if all claims recorded then are true of the committed polynomials, the
conclusion holds unless one of the drawn challenges is exceptional.  For the `k`-th challenge there are at most `bounds[k]` exceptional values.
Which ones is determined by the history before that challenge was drawn and by the polynomials committed to in that history: the exceptional
values are chosen before the oracle and before the proof, so the prover may adapt everything it sends to the challenges. -/
def SoundExcept {α : Type} (V : Oracle F C → Act (VSt F C B) α) (s : VSt F C B) (N : Nat) (bounds : List Nat)
    (Concl : CompiledProof F C B → (C → List F → F) → Prop) : Prop :=
  ∃ bad : List (TEvent F C) → (C → List F → F) → Finset F, ∀ (pf : CompiledProof F C B) (H : Oracle F C) (a : α) (s' : VSt F C B),
    V H (withProof s pf) = (.ok a, s') →
    (newChallenges s s').length = bounds.length ∧
    (∀ k h, (newChallenges s s')[k]? = some h → (∀ P, (bad h P).card ≤ bounds.getD k 0) ∧
      ∀ P P' : C → List F → F, (∀ c, TEvent.absorb "comm" (.comm c) ∈ h → P c = P' c) → bad h P = bad h P') ∧
    ∀ P, ClaimsTrue P N s' → (∀ h ∈ newChallenges s s', H s.own.transcript.label h ∉ bad h P) → Concl pf P

end Zksql.Spec
