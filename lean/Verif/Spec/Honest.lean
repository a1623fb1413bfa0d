import Verif.Spec.Iop
import Verif.Spec.WellFormed
/-!
Honest runs: a prover and a verifier executing the two sides of a check on the same data.
-/
namespace Zksql.Spec
open Zksql
variable {F C B : Type} [Field F] [DecidableEq F]

/-- Prover and verifier are in step: same counter, same transcript, same commitments under the same identifiers, same claimed identifiers in the
same order; and the verifier has read the claimed sums in the proof it holds. -/
structure Together (t : PTracker F C) (s : VSt F C B) : Prop where
  counter : s.own.idCounter = t.idCounter
  transcript : s.own.transcript = t.transcript
  comms : s.own.matComms = t.comms
  sums : s.own.sumClaims.map (·.1) = t.sumClaims.map (·.1)
  zeros : s.own.zeroClaims = t.zeroClaims
  read : ∀ c ∈ s.own.sumClaims, s.own.proof.sumcheckClaims.lookup c.1 = some c.2

/-- The prover's handle is the polynomial with the values `T 0, ..., T (2^nv - 1)` on the hypercube. -/
def HoldsP (t : PTracker F C) (a : TPoly) (T : Nat → F) : Prop :=
  t.getPolyNv a.id = .ok a.numVars ∧ (a.evaluations t).1 = .ok ((List.range (2 ^ a.numVars)).map T)

/-- The prover's bag has these contents. -/
structure HoldsBagP (t : PTracker F C) (b : Bag) (T : BagTab F) : Prop where
  nv : b.poly.numVars = T.nv
  nvSel : b.selector.numVars = T.nv
  val : HoldsP t b.poly T.val
  sel : HoldsP t b.selector T.sel

/-- The two handles are the same on both sides. -/
def sameBag (b : Bag) : BagComm := ⟨b.poly.id, b.selector.id, b.poly.numVars⟩

/-- Polynomials in at most `N` variables can be committed to. -/
def CanCommit (commit : Mle F → Res C) (N : Nat) : Prop := ∀ p : Mle F, p.WF → p.numVars ≤ N → ∃ c, commit p = .ok c

/-- `P` is what was committed to: on a larger hypercube the table repeats. -/
def Opens (commit : Mle F → Res C) (P : C → List F → F) (N : Nat) : Prop :=
  ∀ (p : Mle F) (c : C), p.WF → p.numVars ≤ N → commit p = .ok c → ∀ b < 2 ^ N, P c (boolPt N b) = p.tbl (b % 2 ^ p.numVars)

/-- The proof carries the prover's commitments and a value for each of its sum claims. -/
structure Carries (pf : CompiledProof F C B) (t : PTracker F C) : Prop where
  comms : ∀ id c, t.comms.lookup id = some c → pf.comms.lookup id = some c
  sums : ∀ e ∈ t.sumClaims, ∃ v, pf.sumcheckClaims.lookup e.1 = some v

/-- The values are those of the prover: the sums it claimed, over the hypercube of dimension `N` (`compile_proof` adjusts them so, C43). -/
def TrueSums (N : Nat) (pf : CompiledProof F C B) (t : PTracker F C) : Prop :=
  ∀ e ∈ t.sumClaims, ∀ nv, t.getPolyNv e.1 = .ok nv → pf.sumcheckClaims.lookup e.1 = some (2 ^ (N - nv) * e.2)

/-- The histories of the challenges the prover draws between two states. -/
def drawn (t t' : PTracker F C) : List (List (TEvent F C)) :=
  squeezes t.transcript.events (t'.transcript.events.drop t.transcript.events.length)

/-- The state the prover starts from: a well-formed tracker with a non-empty transcript. -/
structure Ready (commit : Mle F → Res C) (t : PTracker F C) : Prop where
  inv : t.Inv fun p c => commit p = .ok c
  started : t.transcript.isEmpty = false

/-- The call returns `x`.  It may fill caches, but issues no handle, records no claim and sends nothing, and every polynomial keeps its values. -/
def Returns (commit : Mle F → Res C) {α : Type} (m : Act (PTracker F C) α) (t : PTracker F C) (x : α) : Prop :=
  ∃ t', m t = (.ok x, t') ∧ Ready commit t' ∧ t'.idCounter = t.idCounter ∧ t'.transcript = t.transcript ∧ t'.comms = t.comms ∧
    t'.sumClaims = t.sumClaims ∧ t'.zeroClaims = t.zeroClaims ∧ ∀ a T, HoldsP t a T → HoldsP t' a T

/-- The sums the prover has claimed are the sums of the polynomials. -/
def SumsTrueP (t : PTracker F C) : Prop := ∀ c ∈ t.sumClaims, ∃ (a : TPoly) (T : Nat → F), a.id = c.1 ∧ HoldsP t a T ∧ cubeSum a.numVars T = c.2

/-- The polynomials the prover has claimed to vanish do. -/
def ZerosTrueP (t : PTracker F C) : Prop := ∀ i ∈ t.zeroClaims, ∃ (a : TPoly) (T : Nat → F), a.id = i ∧ HoldsP t a T ∧ ∀ b < 2 ^ a.numVars, T b = 0

/-- The two sides `m` and `v` of a check fit together.  Whatever the challenges are, the prover's side `m`, started in `t`, succeeds, keeps
earlier commitments, and the sums it claims are true; if the data is `Valid` and no drawn challenge is exceptional then what it claims to vanish does.  Take any verifier that is in
step with `t`, knows the handles (`Inputs`), and holds a proof that carries what the prover committed to and claimed.  It ends in step with the
prover and keeps its proof, or rejects with `InvalidVerifier`; it never panics.  If the data is `Valid`, the proof has the true sums and no drawn challenge is
exceptional, then it does not reject, and if `P` is what was committed to and gives its handles the same `Contents`, all its claims are true.
For some checks this last part needs a condition on the sizes, `Fits`: that the tables for which the verifier has a formula have as many variables as the setup.
The exceptional values of a challenge are given by `bad` from the history before it; there are at most `bounds[k]` of them for the `k`-th challenge. -/
def CompletesOutside (bad : List (TEvent F C) → Finset F) (E : Env F C) (P : C → List F → F) (N : Nat) {α β : Type}
    (m : Env F C → Act (PTracker F C) α) (v : Env F C → Act (VSt F C B) β)
    (t : PTracker F C) (bounds : List Nat) (Inputs Contents : VSt F C B → Prop) (Valid : Prop) (Fits : Prop := True) : Prop :=
  ∀ H : Oracle F C, ∃ (a : α) (t' : PTracker F C), m (E.withH H) t = (.ok a, t') ∧ Ready E.commit t' ∧
    (∀ id c, t.comms.lookup id = some c → t'.comms.lookup id = some c) ∧
    (drawn t t').length = bounds.length ∧ (∀ k h, (drawn t t')[k]? = some h → (bad h).card ≤ bounds.getD k 0) ∧
    (SumsTrueP t → SumsTrueP t') ∧ (Valid → (∀ h ∈ drawn t t', H t.transcript.label h ∉ bad h) → ZerosTrueP t → ZerosTrueP t') ∧
    ∀ s : VSt F C B, Sane s → Together t s → Inputs s → Carries s.own.proof t' →
      (∃ b s', v (E.withH H) s = (.ok b, s') ∧ Sane s' ∧ Together t' s' ∧ s'.own.proof = s.own.proof ∧
        (Opens E.commit P N → Contents s → ClaimsTrue P N s → TrueSums N s.own.proof t' → Valid → Fits →
          (∀ h ∈ drawn t t', H t.transcript.label h ∉ bad h) → ClaimsTrue P N s')) ∨
      (∃ s', v (E.withH H) s = (.error (.err .invalidVerifier), s') ∧
        ¬ (TrueSums N s.own.proof t' ∧ Valid ∧ ∀ h ∈ drawn t t', H t.transcript.label h ∉ bad h))

/-- The same for some choice of exceptional values. -/
def Completes (E : Env F C) (P : C → List F → F) (N : Nat) {α β : Type} (m : Env F C → Act (PTracker F C) α) (v : Env F C → Act (VSt F C B) β)
    (t : PTracker F C) (bounds : List Nat) (Inputs Contents : VSt F C B → Prop) (Valid : Prop) (Fits : Prop := True) : Prop :=
  ∃ bad : List (TEvent F C) → Finset F, CompletesOutside bad E P N m v t bounds Inputs Contents Valid Fits

/-- A bag with multiplicities, and what both contain. -/
structure Entry (F : Type) where
  bag : Bag
  mult : TPoly
  tab : BagTab F
  weights : Nat → F

/-- The prover has it. -/
structure Entry.HoldsP (t : PTracker F C) (e : Entry F) : Prop where
  bag : HoldsBagP t e.bag e.tab
  nv : e.mult.numVars = e.tab.nv
  mult : Spec.HoldsP t e.mult e.weights

/-- The verifier knows the handles. -/
def Entry.Known (s : VSt F C B) (e : Entry F) : Prop := KnownBag s (sameBag e.bag) ∧ Spec.Known s e.mult.id

/-- The verifier has it. -/
def Entry.Holds (s : VSt F C B) (P : C → List F → F) (N : Nat) (e : Entry F) : Prop :=
  HoldsBag s P N (sameBag e.bag) e.tab ∧ Spec.Holds s P N e.mult.id e.tab.nv e.weights

/-- All values in the bags of one side. -/
def Side.values (L : Side F) : Finset F := L.foldr (fun e S => (Finset.range (2 ^ e.1.nv)).image e.1.val ∪ S) ∅

/-- Rows of the second table are rows of the first, moved by the permutation column. -/
def Permutes (n : Nat) (f g p : Nat → F) : Prop :=
  ∃ σ : Nat → Nat, (∀ i < 2 ^ n, σ i < 2 ^ n) ∧ (∀ i < 2 ^ n, ∀ j < 2 ^ n, σ i = σ j → i = j) ∧ ∀ i < 2 ^ n, p i = (σ i : F) ∧ g i = f (σ i)

/-- Consecutive rows differ by an element of the range, and by a non-zero one after an active row. -/
def SortedIn (n r : Nat) (T σ ρ : Nat → F) : Prop :=
  ∀ i, i + 1 < 2 ^ n → (∃ j < 2 ^ r, T (i + 1) - T i = ρ j) ∧ (σ i ≠ 0 → T (i + 1) - T i ≠ 0)

/-! Numbers of exceptional challenges for an honest prover, for tables of dimensions `n`, `na`, ... and a range of dimension `r`. -/

/-- Sort check. -/
def hSort (n r : Nat) : List Nat := [0, 2 ^ n + 2 ^ n, 2 ^ n + 2 ^ r]
/-- Disjointness of multisets. -/
def hDisjoint (na nb r : Nat) : List Nat := hSort (max na nb + 1) r ++ [2 ^ na + 2 ^ (max na nb + 1), 2 ^ nb + 2 ^ (max na nb + 1)]
/-- Disjointness of sets. -/
def hSetDisjoint (na nb r : Nat) : List Nat := [2 ^ na + 2 ^ nb + 2 ^ (max na nb + 1)] ++ hSort (max na nb + 1) r
/-- Union. -/
def hUnion (na nb nu r : Nat) : List Nat := [2 ^ na + 2 ^ nb + 2 ^ (max na nb + 1)] ++ ([2 ^ (max na nb + 1) + 2 ^ nu] ++ hSort nu r)
/-- Difference. -/
def hDiff (na nb nl nm r : Nat) : List Nat := hSetDisjoint nl nb r ++ [2 ^ nl + 2 ^ nm + 2 ^ na, 2 ^ nm + 2 ^ nb]
/-- Intersection. -/
def hIntersect (na nb nl nm nr r : Nat) : List Nat := [2 ^ nl + 2 ^ nm + 2 ^ na, 2 ^ nm + 2 ^ nr + 2 ^ nb] ++ hSetDisjoint nl nr r
/-- Join reduction. -/
def hJoin (na nb r : Nat) : List Nat :=
  hDisjoint na nb r ++ (hDisjoint na na r ++ (hDisjoint nb nb r ++ [2 ^ na + 2 ^ nb, 2 ^ nb + 2 ^ na]))

end Zksql.Spec
