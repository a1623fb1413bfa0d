import Verif.Spec.Program
import Verif.Spec.Sets
/-!
What an accepted program says about the columns, when the prover is not trusted.
-/
namespace Zksql.Spec
open Zksql
variable {F C B K L : Type} [Field F] [DecidableEq F]

/-- The entries of the column are numbers below `M`, and `n` of them add up without reaching the characteristic. -/
def Small (r : Column F) (n M : Nat) : Prop := NatsNonzero F (n * M) ∧ ∀ j < 2 ^ r.nv, ∃ k < M, r.val j = (k : F)

/-- The column over a larger hypercube, where it repeats. -/
def Column.over (w : Column F) (b : Nat) : F := w.val (b % 2 ^ w.nv)

/-- What the check of a join establishes about the columns `Ms`: in every active row they have the key of the second table, and their product is that of an active row of the first. -/
def Joins (A T : TabData F) (ai bi : Nat) (Ms : List (Nat → F)) : Prop :=
  A.Boolean → T.Boolean → ∀ i, T.On i → (Ms.getD ai fun _ => 0) i = T.col bi i ∧ ∃ j, A.On j ∧ (Ms.map fun M => M i).prod = (A.row j).prod

namespace Check

/-- What the check is meant to establish about the columns, or as much of it as it does establish, when claims are about the hypercube of dimension `N`.
Nothing is said about the disjointness of sets, which the check does not establish; the checks for difference and intersection rely on it and establish only the rest. -/
def Means (N : Nat) (W : K → Column F) : Check K → Prop
  | multiset fs gs => ∀ z, Side.total (fs.map fun e => (bagTab W e.1, (W e.2).val)) z = Side.total (gs.map fun e => (bagTab W e.1, (W e.2).val)) z
  | bagEq f g => (∀ z, (bagTab W f).weight (fun _ => 1) z = (bagTab W g).weight (fun _ => 1) z) ∧
      ((bagTab W f).Boolean → (bagTab W g).Boolean → ∀ z, (bagTab W f).count z = (bagTab W g).count z)
  | bagSum f g h => ∀ z, (bagTab W f).weight (fun _ => 1) z + (bagTab W g).weight (fun _ => 1) z = (bagTab W h).weight (fun _ => 1) z
  | inclusion f g => (∀ z, (bagTab W f).weight (fun _ => 1) z ≠ 0 → (bagTab W g).Active z) ∧
      ((bagTab W f).Boolean → ∀ z, (bagTab W f).Active z → (bagTab W g).Active z)
  | inclusionAdvice f g m => ∀ z, (bagTab W f).weight (fun _ => 1) z = (bagTab W g).weight (W m).val z
  | noZeros f => ∀ i < 2 ^ (W f.1).nv, (W f.2).val i ≠ 0 → (W f.1).val i ≠ 0
  | selector m => ∀ i < 2 ^ (W m).nv, (W m).val i = 0 ∨ (W m).val i = 1
  | permutation f g p => (∀ x y, pairCount N (fun i : Nat => (i : F)) (W f.1).over x y = pairCount N (W p).over (W g.1).over x y) ∧
      ∀ π : Nat → Nat, (∀ i < 2 ^ N, π i < 2 ^ N ∧ (W p).over i = (π i : F)) → ∀ i < 2 ^ N, (W f.1).over (π i) = (W g.1).over i
  | sort f range => N = (W f.1).nv ∧
      (∀ i, i + 1 < 2 ^ (W f.1).nv → (∃ j < 2 ^ (W range.1).nv, (W f.1).val (i + 1) - (W f.1).val i = (W range.1).val j) ∧
        ((W f.2).val i ≠ 0 → (W f.1).val (i + 1) - (W f.1).val i ≠ 0)) ∧
      ∀ M, Small (W range.1) (2 ^ (W f.1).nv) M → (bagTab W f).Increasing ∧ (bagTab W f).Nodup
  | support f g range => ∀ M, Small (W range.1) (2 ^ (W g.1).nv) M → (bagTab W f).Boolean →
      (bagTab W g).Nodup ∧ ∀ z, (bagTab W f).Active z ↔ (bagTab W g).Active z
  | supportAdvice f g _ range => ∀ M, Small (W range.1) (2 ^ (W g.1).nv) M → (bagTab W f).Boolean →
      (bagTab W g).Nodup ∧ ∀ z, (bagTab W f).Active z ↔ (bagTab W g).Active z
  | disjoint f g range => ∀ M, Small (W range.1) (2 ^ (max (W f.1).nv (W g.1).nv + 1)) M → (bagTab W f).Boolean → (bagTab W g).Boolean →
      ∀ z, ¬((bagTab W f).Active z ∧ (bagTab W g).Active z)
  | setDisjoint _ _ _ => True
  | union f g u range => ∀ M, Small (W range.1) (2 ^ (W u.1).nv) M → (bagTab W f).Boolean → (bagTab W g).Boolean →
      (bagTab W u).Nodup ∧ ∀ z, (bagTab W u).Active z ↔ (bagTab W f).Active z ∨ (bagTab W g).Active z
  | diff f g l m _ _ => (∀ z, (bagTab W l).weight (fun _ => 1) z + (bagTab W m).weight (fun _ => 1) z = (bagTab W f).weight (fun _ => 1) z) ∧
      ∀ z, (bagTab W m).weight (fun _ => 1) z ≠ 0 → (bagTab W g).Active z
  | intersect f g l m r _ => (∀ z, (bagTab W l).weight (fun _ => 1) z + (bagTab W m).weight (fun _ => 1) z = (bagTab W f).weight (fun _ => 1) z) ∧
      ∀ z, (bagTab W m).weight (fun _ => 1) z + (bagTab W r).weight (fun _ => 1) z = (bagTab W g).weight (fun _ => 1) z
  | joinReduction f g lSel rSel range => ∀ M, 0 < M → Small (W range.1) (2 ^ (max (W f.1).nv (W g.1).nv + 1)) M → (bagTab W f).Boolean → (bagTab W g).Boolean →
      (∀ i < 2 ^ (W f.1).nv, (W lSel).val i = 0 ∨ (W lSel).val i = 1) ∧ (∀ i < 2 ^ (W g.1).nv, (W rSel).val i = 0 ∨ (W rSel).val i = 1) ∧
      (∀ i < 2 ^ (W f.1).nv, (W f.2).val i ≠ 0 → ((W lSel).val i = 1 ↔ ¬(bagTab W g).Active ((W f.1).val i))) ∧
      ∀ i < 2 ^ (W g.1).nv, (W g.2).val i ≠ 0 → ((W rSel).val i = 1 ↔ ¬(bagTab W f).Active ((W g.1).val i))
  | indexTransform inp out => (tabData W inp).Boolean → (tabData W out).Boolean →
      ∀ i, (tabData W out).On i → ∃ j, (tabData W inp).On j ∧ ((tabData W out).row i).prod = ((tabData W inp).row j).prod
  | joinAdvice a b ai bi ta => Joins (tabData W a) (tabData W b) ai bi (ta.map fun c => (W c).val)
  | groupBy inp key grp mult aggs range => ∀ M, Small (W range.1) (2 ^ (W grp.1).nv) M → (tabData W inp).Boolean →
      (bagTab W grp).Nodup ∧ (∀ z, ((tabData W inp).bag key).Active z ↔ (bagTab W grp).Active z) ∧
      (∀ i < 2 ^ (W grp.1).nv, (W grp.2).val i ≠ 0 → (W mult).val i * (W grp.2).val i = (((tabData W inp).bag key).count ((W grp.1).val i) : F)) ∧
      (∀ e ∈ aggs, e.2.1 = .sum → ∀ i < 2 ^ (W grp.1).nv, (W grp.2).val i ≠ 0 → (W e.2.2).val i * (W grp.2).val i = sumAt (tabData W inp) key e.1 ((W grp.1).val i)) ∧
      ((bagTab W grp).Boolean → GroupsOf (tabData W inp) (groupData W key grp mult aggs))

/-- Numbers of exceptional challenges for a prover that is not trusted. -/
def soundBounds (N : Nat) (W : K → Column F) : Check K → List Nat
  | multiset fs gs => [((fs ++ gs).map fun e => 2 ^ (W e.1.1).nv).sum]
  | bagEq f g => [2 ^ (W f.1).nv + 2 ^ (W g.1).nv]
  | bagSum f g h => [2 ^ (W f.1).nv + 2 ^ (W g.1).nv + 2 ^ (W h.1).nv]
  | inclusion f g => [2 ^ (W f.1).nv + 2 ^ (W g.1).nv]
  | inclusionAdvice f g _ => [2 ^ (W f.1).nv + 2 ^ (W g.1).nv]
  | noZeros _ => []
  | selector _ => []
  | permutation _ _ _ => [(2 * 2 ^ N) * (2 * 2 ^ N), 2 * 2 ^ N]
  | sort f range => sortBounds (W f.1).nv (W range.1).nv
  | support f g range => [2 ^ (W f.1).nv + 2 ^ (W g.1).nv] ++ sortBounds (W g.1).nv (W range.1).nv
  | supportAdvice f g _ range => [2 ^ (W f.1).nv + 2 ^ (W g.1).nv] ++ sortBounds (W g.1).nv (W range.1).nv
  | disjoint f g range => disjointBounds (W f.1).nv (W g.1).nv (W range.1).nv
  | setDisjoint f g range => setDisjointBounds (W f.1).nv (W g.1).nv (W range.1).nv
  | union f g u range => [2 ^ (W f.1).nv + 2 ^ (W g.1).nv + 2 ^ (W u.1).nv, 2 * 2 ^ (W u.1).nv] ++ sortBounds (W u.1).nv (W range.1).nv
  | diff f g l m _ range => setDisjointBounds (W l.1).nv (W g.1).nv (W range.1).nv ++
      [2 ^ (W l.1).nv + 2 ^ (W m.1).nv + 2 ^ (W f.1).nv, 2 ^ (W m.1).nv + 2 ^ (W g.1).nv]
  | intersect f g l m r range => [2 ^ (W l.1).nv + 2 ^ (W m.1).nv + 2 ^ (W f.1).nv, 2 ^ (W m.1).nv + 2 ^ (W r.1).nv + 2 ^ (W g.1).nv] ++
      setDisjointBounds (W l.1).nv (W r.1).nv (W range.1).nv
  | joinReduction f g _ _ range => disjointBounds (W f.1).nv (W g.1).nv (W range.1).nv ++ (disjointBounds (W f.1).nv (W f.1).nv (W range.1).nv ++
      (disjointBounds (W g.1).nv (W g.1).nv (W range.1).nv ++ [2 ^ (W f.1).nv + 2 ^ (W g.1).nv, 2 ^ (W g.1).nv + 2 ^ (W f.1).nv]))
  | indexTransform inp out => [1, 2 ^ (W out.2).nv + 2 ^ (W inp.2).nv]
  | joinAdvice a _ _ _ _ => [1, 2 ^ N + 2 ^ (W a.2).nv]
  | groupBy inp _ _ _ aggs range => [2 ^ (W inp.2).nv + 2 ^ (W inp.2).nv, (2 * 2 ^ (W inp.2).nv) * (2 * 2 ^ (W inp.2).nv), 2 * 2 ^ (W inp.2).nv,
      2 ^ (W inp.2).nv + 2 ^ (W range.1).nv] ++ (aggs.filter fun e => e.2.1 = .sum).map fun _ => 2 ^ (W inp.2).nv + 2 ^ (W inp.2).nv

end Check

namespace Step

/-- What an accepted program says.  For a column the prover was asked to commit to, there is a commitment in the proof, and whatever the contents are, if they have the
announced size then the rest of the program says what it says about them.  The same for the columns of a join, which are checked in addition. -/
def MeansAll (pf : CompiledProof F C B) (P : C → List F → F) (N : Nat) : List (Column F) → List (Step F) → Prop
  | _, [] => True
  | W, commit p :: r => ∃ id c, pf.comms.lookup id = some c ∧
      ∀ T : Nat → F, (∀ b < 2 ^ N, P c (boolPt N b) = T (b % 2 ^ p.numVars)) → MeansAll pf P N (W ++ [⟨p.numVars, T⟩]) r
  | W, check c :: r => c.Means N (colAt W) ∧ MeansAll pf P N W r
  | W, join a b ai bi :: r => ∃ cs : List C, cs.length = a.1.length ∧ (∀ c ∈ cs, ∃ id, pf.comms.lookup id = some c) ∧
      ∀ Ts : List (Nat → F), List.Forall₂ (fun c T => ∀ x < 2 ^ N, P c (boolPt N x) = T (x % 2 ^ (colAt W b.2).nv)) cs Ts →
        Joins (tabData (colAt W) a) (tabData (colAt W) b) ai bi Ts ∧ MeansAll pf P N (W ++ Ts.map fun T => ⟨(colAt W b.2).nv, T⟩) r
  | W, s :: r => MeansAll pf P N (s.next W) r

/-- Numbers of exceptional challenges. -/
def soundBoundsAll (N : Nat) : List (Column F) → List (Step F) → List Nat
  | _, [] => []
  | W, check c :: r => c.soundBounds N (colAt W) ++ soundBoundsAll N W r
  | W, join a b ai bi :: r => [1, 2 ^ N + 2 ^ (colAt W a.2).nv] ++ soundBoundsAll N ((join a b ai bi : Step F).next W) r
  | W, s :: r => soundBoundsAll N (s.next W) r

end Step

/-- Columns of the sizes of the handles; the contents do not matter. -/
def blank (F : Type) [Zero F] (hs : List TPoly) : List (Column F) := hs.map fun a => ⟨a.numVars, fun _ => 0⟩

end Zksql.Spec
