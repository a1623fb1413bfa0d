import Verif.Spec.EndToEnd
import Verif.Spec.TableRuns
import Verif.Spec.SumCheck
/-!
Programs: sequences of commitments, arithmetic on columns and checks, run with one pair of trackers and proved by one proof.

`K` is the type of names for columns.  A bag is a pair of columns, values and selector; a table is a list of columns and a selector.
-/
namespace Zksql.Spec
open Zksql
variable {F C B K L : Type} [Field F] [DecidableEq F]

/-! ### Checks -/

/-- The checks, on named columns. -/
inductive Check (K : Type)
  /-- The bags with multiplicities `fs` and `gs` have the same total multiplicities. -/
  | multiset (fs gs : List ((K × K) × K))
  | bagEq (f g : K × K)
  | bagSum (f g h : K × K)
  | inclusion (f g : K × K)
  | inclusionAdvice (f g : K × K) (m : K)
  | noZeros (f : K × K)
  | selector (m : K)
  | permutation (f g : K × K) (p : K)
  | sort (f range : K × K)
  | support (f g range : K × K)
  | supportAdvice (f g : K × K) (m : K) (range : K × K)
  | disjoint (f g range : K × K)
  | setDisjoint (f g range : K × K)
  | union (f g u range : K × K)
  | diff (f g l m : K × K) (mult : K) (range : K × K)
  | intersect (f g l m r range : K × K)
  | joinReduction (f g : K × K) (lSel rSel : K) (range : K × K)
  | indexTransform (inp out : List K × K)
  /-- The columns `ta` are those of the first table, moved to the rows of the second table with the same key. -/
  | joinAdvice (a b : List K × K) (ai bi : Nat) (ta : List K)
  /-- Groups with multiplicities and aggregates of a table, by one column. -/
  | groupBy (inp : List K × K) (key : Nat) (grp : K × K) (mult : K) (aggs : List (Nat × AggType × K)) (range : K × K)

/-- A bag of the prover. -/
def bagOf (b : TPoly × TPoly) : Bag := ⟨b.1, b.2⟩

/-- A table of the prover. -/
def tableOf (t : List TPoly × TPoly) : Table := ⟨t.1, t.2⟩

/-- The same on the verifier's side. -/
def bagCommOf (b : TPoly × TPoly) : BagComm := sameBag (bagOf b)

/-- The same on the verifier's side. -/
def tableCommOf (t : List TPoly × TPoly) : TableComm := sameTab (tableOf t)

/-- A request of the prover. -/
def requestOf (key : Nat) (grp : TPoly × TPoly) (mult : TPoly) (aggs : List (Nat × AggType × TPoly)) : GroupInstr TPoly := ⟨[key], [grp.1], grp.2, mult, aggs⟩

namespace Check

/-- Renaming. -/
def map (φ : K → L) : Check K → Check L
  | multiset fs gs => multiset (fs.map fun e => ((φ e.1.1, φ e.1.2), φ e.2)) (gs.map fun e => ((φ e.1.1, φ e.1.2), φ e.2))
  | bagEq f g => bagEq (f.map φ φ) (g.map φ φ)
  | bagSum f g h => bagSum (f.map φ φ) (g.map φ φ) (h.map φ φ)
  | inclusion f g => inclusion (f.map φ φ) (g.map φ φ)
  | inclusionAdvice f g m => inclusionAdvice (f.map φ φ) (g.map φ φ) (φ m)
  | noZeros f => noZeros (f.map φ φ)
  | selector m => selector (φ m)
  | permutation f g p => permutation (f.map φ φ) (g.map φ φ) (φ p)
  | sort f range => sort (f.map φ φ) (range.map φ φ)
  | support f g range => support (f.map φ φ) (g.map φ φ) (range.map φ φ)
  | supportAdvice f g m range => supportAdvice (f.map φ φ) (g.map φ φ) (φ m) (range.map φ φ)
  | disjoint f g range => disjoint (f.map φ φ) (g.map φ φ) (range.map φ φ)
  | setDisjoint f g range => setDisjoint (f.map φ φ) (g.map φ φ) (range.map φ φ)
  | union f g u range => union (f.map φ φ) (g.map φ φ) (u.map φ φ) (range.map φ φ)
  | diff f g l m mult range => diff (f.map φ φ) (g.map φ φ) (l.map φ φ) (m.map φ φ) (φ mult) (range.map φ φ)
  | intersect f g l m r range => intersect (f.map φ φ) (g.map φ φ) (l.map φ φ) (m.map φ φ) (r.map φ φ) (range.map φ φ)
  | joinReduction f g lSel rSel range => joinReduction (f.map φ φ) (g.map φ φ) (φ lSel) (φ rSel) (range.map φ φ)
  | indexTransform inp out => indexTransform (inp.1.map φ, φ inp.2) (out.1.map φ, φ out.2)
  | joinAdvice a b ai bi ta => joinAdvice (a.1.map φ, φ a.2) (b.1.map φ, φ b.2) ai bi (ta.map φ)
  | groupBy inp key grp mult aggs range =>
    groupBy (inp.1.map φ, φ inp.2) key (grp.map φ φ) (φ mult) (aggs.map fun e => (e.1, e.2.1, φ e.2.2)) (range.map φ φ)

/-- The columns a check is about. -/
def names : Check K → List K
  | multiset fs gs => (fs ++ gs).flatMap fun e => [e.1.1, e.1.2, e.2]
  | bagEq f g => [f.1, f.2, g.1, g.2]
  | bagSum f g h => [f.1, f.2, g.1, g.2, h.1, h.2]
  | inclusion f g => [f.1, f.2, g.1, g.2]
  | inclusionAdvice f g m => [f.1, f.2, g.1, g.2, m]
  | noZeros f => [f.1, f.2]
  | selector m => [m]
  | permutation f g p => [f.1, f.2, g.1, g.2, p]
  | sort f range => [f.1, f.2, range.1, range.2]
  | support f g range => [f.1, f.2, g.1, g.2, range.1, range.2]
  | supportAdvice f g m range => [f.1, f.2, g.1, g.2, m, range.1, range.2]
  | disjoint f g range => [f.1, f.2, g.1, g.2, range.1, range.2]
  | setDisjoint f g range => [f.1, f.2, g.1, g.2, range.1, range.2]
  | union f g u range => [f.1, f.2, g.1, g.2, u.1, u.2, range.1, range.2]
  | diff f g l m mult range => [f.1, f.2, g.1, g.2, l.1, l.2, m.1, m.2, mult, range.1, range.2]
  | intersect f g l m r range => [f.1, f.2, g.1, g.2, l.1, l.2, m.1, m.2, r.1, r.2, range.1, range.2]
  | joinReduction f g lSel rSel range => [f.1, f.2, g.1, g.2, lSel, rSel, range.1, range.2]
  | indexTransform inp out => inp.1 ++ inp.2 :: (out.1 ++ [out.2])
  | joinAdvice a b _ _ ta => a.1 ++ a.2 :: (b.1 ++ b.2 :: ta)
  | groupBy inp _ grp mult aggs range => inp.1 ++ inp.2 :: grp.1 :: grp.2 :: mult :: range.1 :: range.2 :: aggs.map (·.2.2)

/-- The prover's side of the check. -/
def prove (E : Env F C) : Check TPoly → Act (PTracker F C) Unit
  | multiset fs gs => Multitool.prove E (fs.map fun e => bagOf e.1) (gs.map fun e => bagOf e.1) (fs.map (·.2)) (gs.map (·.2))
  | bagEq f g => BagEq.prove E (bagOf f) (bagOf g)
  | bagSum f g h => BagSum.prove E (bagOf f) (bagOf g) (bagOf h)
  | inclusion f g => Inclusion.prove E (bagOf f) (bagOf g)
  | inclusionAdvice f g m => Inclusion.proveWithAdvice E (bagOf f) (bagOf g) m
  | noZeros f => NoZeros.prove E (bagOf f)
  | selector m => SelectorValid.prove m
  | permutation f g p => PrescPerm.prove E (bagOf f) (bagOf g) p
  | sort f range => StrictSort.prove E (bagOf f) (bagOf range)
  | support f g range => Supp.prove E (bagOf f) (bagOf g) (bagOf range)
  | supportAdvice f g m range => Supp.proveWithAdvice E (bagOf f) (bagOf g) m (bagOf range)
  | disjoint f g range => Disjoint.prove E (bagOf f) (bagOf g) (bagOf range)
  | setDisjoint f g range => SetDisjoint.prove E (bagOf f) (bagOf g) (bagOf range)
  | union f g u range => SetUnion.prove E (bagOf f) (bagOf g) (bagOf u) (bagOf range)
  | diff f g l m mult range => SetDiff.prove E (bagOf f) (bagOf g) (bagOf l) (bagOf m) mult (bagOf range)
  | intersect f g l m r range => SetIntersect.prove E (bagOf f) (bagOf g) (bagOf l) (bagOf m) (bagOf r) (bagOf range)
  | joinReduction f g lSel rSel range => JoinReduction.prove E (bagOf f) (bagOf g) lSel rSel (bagOf range)
  | indexTransform inp out => IndexTransform.prove E (tableOf inp) (tableOf out)
  | joinAdvice a b ai bi ta => FinalJoin.proveWithAdvice E (tableOf a) (tableOf b) ai bi ta >>= fun _ => pure ()
  | groupBy inp key grp mult aggs range => GroupBy.proveWithAdvice E (tableOf inp) (requestOf key grp mult aggs) (bagOf range) >>= fun _ => pure ()

/-- The verifier's side of the check. -/
def verify (E : Env F C) : Check TPoly → Act (VSt F C B) Unit
  | multiset fs gs => Multitool.verify E (fs.map fun e => bagCommOf e.1) (gs.map fun e => bagCommOf e.1) (fs.map (·.2.id)) (gs.map (·.2.id))
  | bagEq f g => BagEq.verify E (bagCommOf f) (bagCommOf g)
  | bagSum f g h => BagSum.verify E (bagCommOf f) (bagCommOf g) (bagCommOf h)
  | inclusion f g => Inclusion.verify E (bagCommOf f) (bagCommOf g)
  | inclusionAdvice f g m => Inclusion.verifyWithAdvice E (bagCommOf f) (bagCommOf g) m.id
  | noZeros f => NoZeros.verify E (bagCommOf f)
  | selector m => SelectorValid.verify m.id
  | permutation f g p => PrescPerm.verify E (bagCommOf f) (bagCommOf g) p.id
  | sort f range => StrictSort.verify E (bagCommOf f) (bagCommOf range)
  | support f g range => Supp.verify E (bagCommOf f) (bagCommOf g) (bagCommOf range)
  | supportAdvice f g m range => Supp.verifyWithAdvice E (bagCommOf f) (bagCommOf g) m.id (bagCommOf range)
  | disjoint f g range => Disjoint.verify E (bagCommOf f) (bagCommOf g) (bagCommOf range)
  | setDisjoint f g range => SetDisjoint.verify E (bagCommOf f) (bagCommOf g) (bagCommOf range)
  | union f g u range => SetUnion.verify E (bagCommOf f) (bagCommOf g) (bagCommOf u) (bagCommOf range)
  | diff f g l m mult range => SetDiff.verify E (bagCommOf f) (bagCommOf g) (bagCommOf l) (bagCommOf m) mult.id (bagCommOf range)
  | intersect f g l m r range => SetIntersect.verify E (bagCommOf f) (bagCommOf g) (bagCommOf l) (bagCommOf m) (bagCommOf r) (bagCommOf range)
  | joinReduction f g lSel rSel range => JoinReduction.verify E (bagCommOf f) (bagCommOf g) lSel.id rSel.id (bagCommOf range)
  | indexTransform inp out => IndexTransform.verify E (tableCommOf inp) (tableCommOf out)
  | joinAdvice a b ai bi ta => FinalJoin.verifyWithAdvice E (tableCommOf a) (tableCommOf b) ai bi (ta.map (·.id)) >>= fun _ => pure ()
  | groupBy inp key grp mult aggs range =>
    GroupBy.verifyWithAdvice E (tableCommOf inp) (sameInstr (requestOf key grp mult aggs)) (bagCommOf range) >>= fun _ => pure ()

end Check

/-- The contents of a column: `2^nv` values. -/
structure Column (F : Type) where
  nv : Nat
  val : Nat → F

/-- The contents of a bag. -/
def bagTab (W : K → Column F) (b : K × K) : BagTab F := ⟨(W b.1).nv, (W b.1).val, (W b.2).val⟩

/-- The contents of a table. -/
def tabData (W : K → Column F) (t : List K × K) : TabData F := ⟨(W t.2).nv, t.1.map fun c => (W c).val, (W t.2).val⟩

/-- The contents of a request. -/
def groupData (W : K → Column F) (key : Nat) (grp : K × K) (mult : K) (aggs : List (Nat × AggType × K)) : GroupData F :=
  ⟨key, bagTab W grp, (W mult).val, aggs.map fun e => (e.1, e.2.1, (W e.2.2).val)⟩

/-- Values and selector of the bag have the same length. -/
def Even (W : K → Column F) (b : K × K) : Prop := (W b.2).nv = (W b.1).nv

/-- All columns of the table have the same length. -/
def EvenTab (W : K → Column F) (t : List K × K) : Prop := ∀ c ∈ t.1, (W c).nv = (W t.2).nv

namespace Check

/-- The columns a check is about have matching sizes, and everything the check builds from them has at most `N` variables. -/
def Fits (N : Nat) (W : K → Column F) (c : Check K) : Prop := (∀ k ∈ c.names, (W k).nv ≤ N) ∧
  match c with
  | multiset fs gs => fs ≠ [] ∧ gs ≠ [] ∧ ∀ e ∈ fs ++ gs, Even W e.1 ∧ (W e.2).nv = (W e.1.1).nv
  | bagEq f g => Even W f ∧ Even W g ∧ (W f.1).nv = (W g.1).nv
  | bagSum f g h => Even W f ∧ Even W g ∧ Even W h
  | inclusion f g => Even W f ∧ Even W g
  | inclusionAdvice f g m => Even W f ∧ Even W g ∧ (W m).nv = (W g.1).nv
  | noZeros f => Even W f
  | selector _ => True
  | permutation f g p => Even W f ∧ Even W g ∧ (W g.1).nv = (W f.1).nv ∧ (W p).nv = (W f.1).nv
  | sort f _ => Even W f
  | support f g _ => Even W f ∧ Even W g
  | supportAdvice f g m _ => Even W f ∧ Even W g ∧ (W m).nv = (W g.1).nv
  | disjoint f g _ => Even W f ∧ Even W g ∧ max (W f.1).nv (W g.1).nv + 1 ≤ N
  | setDisjoint f g _ => Even W f ∧ Even W g ∧ max (W f.1).nv (W g.1).nv + 1 ≤ N
  | union f g u _ => Even W f ∧ Even W g ∧ Even W u ∧ max (W f.1).nv (W g.1).nv + 1 ≤ N
  | diff f g l m mult _ => Even W f ∧ Even W g ∧ Even W l ∧ Even W m ∧ (W mult).nv = (W g.1).nv ∧ max (W l.1).nv (W g.1).nv + 1 ≤ N
  | intersect f g l m r _ => Even W f ∧ Even W g ∧ Even W l ∧ Even W m ∧ Even W r ∧ max (W l.1).nv (W r.1).nv + 1 ≤ N
  | joinReduction f g lSel rSel _ => Even W f ∧ Even W g ∧ (W lSel).nv = (W f.1).nv ∧ (W rSel).nv = (W g.1).nv ∧ max (W f.1).nv (W g.1).nv + 1 ≤ N
  | indexTransform inp out => EvenTab W inp ∧ EvenTab W out ∧ out.1.length = inp.1.length
  | joinAdvice a b ai bi ta => EvenTab W a ∧ EvenTab W b ∧ (∀ c ∈ ta, (W c).nv = (W b.2).nv) ∧ ta.length = a.1.length ∧ ai < a.1.length ∧ bi < b.1.length
  | groupBy inp key grp mult aggs _ => EvenTab W inp ∧ Even W grp ∧ (W mult).nv = (W grp.1).nv ∧ (W inp.2).nv = (W grp.1).nv ∧ key < inp.1.length ∧
      ∀ e ∈ aggs, (W e.2.2).nv = (W grp.1).nv ∧ e.1 < inp.1.length ∧ (e.2.1 = .count ∨ e.2.1 = .sum)

/-- The prover can make the check: with debug checks, the key column of a join must have no value twice. -/
def Runs (debug : Bool) (W : K → Column F) : Check K → Prop
  | joinAdvice a _ ai _ _ => debug = true → DistinctColumn (tabData W a) ai
  | _ => True

/-- Numbers of exceptional challenges for an honest prover. -/
def bounds (W : K → Column F) : Check K → List Nat
  | multiset fs gs => [((fs ++ gs).map fun e => 2 ^ (W e.1.1).nv).sum]
  | bagEq f g => [2 ^ (W f.1).nv + 2 ^ (W g.1).nv]
  | bagSum f g h => [2 ^ (W f.1).nv + 2 ^ (W g.1).nv + 2 ^ (W h.1).nv]
  | inclusion f g => [2 ^ (W f.1).nv + 2 ^ (W g.1).nv]
  | inclusionAdvice f g _ => [2 ^ (W f.1).nv + 2 ^ (W g.1).nv]
  | noZeros _ => []
  | selector _ => []
  | permutation f _ _ => [0, 2 ^ (W f.1).nv + 2 ^ (W f.1).nv]
  | sort f range => hSort (W f.1).nv (W range.1).nv
  | support f g range => [2 ^ (W f.1).nv + 2 ^ (W g.1).nv] ++ hSort (W g.1).nv (W range.1).nv
  | supportAdvice f g _ range => [2 ^ (W f.1).nv + 2 ^ (W g.1).nv] ++ hSort (W g.1).nv (W range.1).nv
  | disjoint f g range => hDisjoint (W f.1).nv (W g.1).nv (W range.1).nv
  | setDisjoint f g range => hSetDisjoint (W f.1).nv (W g.1).nv (W range.1).nv
  | union f g u range => hUnion (W f.1).nv (W g.1).nv (W u.1).nv (W range.1).nv
  | diff f g l m _ range => hDiff (W f.1).nv (W g.1).nv (W l.1).nv (W m.1).nv (W range.1).nv
  | intersect f g l m r range => hIntersect (W f.1).nv (W g.1).nv (W l.1).nv (W m.1).nv (W r.1).nv (W range.1).nv
  | joinReduction f g _ _ range => hJoin (W f.1).nv (W g.1).nv (W range.1).nv
  | indexTransform inp out => [0, 2 ^ (W out.2).nv + 2 ^ (W inp.2).nv]
  | joinAdvice a b _ _ _ => [0, 2 ^ (W b.2).nv + 2 ^ (W a.2).nv]
  | groupBy inp _ grp _ aggs range => [2 ^ (W inp.2).nv + 2 ^ (W grp.1).nv] ++ hSort (W grp.1).nv (W range.1).nv ++
      (aggs.filter fun e => e.2.1 = .sum).map fun _ => 2 ^ (W inp.2).nv + 2 ^ (W grp.1).nv

/-- Two bags of the representations `rep` without a common active value, in a range covering all smaller representations. -/
def Apart (rep : F → Nat) (r : Column F) (S T : BagTab F) : Prop :=
  ∃ M, Canonical rep ∧ 0 < M ∧ Covers r.nv r.val M ∧ S.Below rep M ∧ T.Below rep M ∧ ∀ z, ¬(S.Active z ∧ T.Active z)

/-- What the data must satisfy for an honest prover to be accepted. -/
def Valid (rep : F → Nat) (W : K → Column F) : Check K → Prop
  | multiset fs gs => ∀ z, Side.total (fs.map fun e => (bagTab W e.1, (W e.2).val)) z = Side.total (gs.map fun e => (bagTab W e.1, (W e.2).val)) z
  | bagEq f g => ∀ z, (bagTab W f).weight (fun _ => 1) z = (bagTab W g).weight (fun _ => 1) z
  | bagSum f g h => ∀ z, (bagTab W f).weight (fun _ => 1) z + (bagTab W g).weight (fun _ => 1) z = (bagTab W h).weight (fun _ => 1) z
  | inclusion f g => (bagTab W f).Boolean ∧ (bagTab W g).Boolean ∧ ∀ z, (bagTab W f).Active z → (bagTab W g).Active z
  | inclusionAdvice f g m => ∀ z, (bagTab W f).weight (fun _ => 1) z = (bagTab W g).weight (W m).val z
  | noZeros f => ∀ i < 2 ^ (W f.1).nv, (W f.2).val i ≠ 0 → (W f.1).val i ≠ 0
  | selector m => ∀ i < 2 ^ (W m).nv, (W m).val i = 0 ∨ (W m).val i = 1
  | permutation f g p => Permutes (W f.1).nv (W f.1).val (W g.1).val (W p).val
  | sort f range => SortedIn (W f.1).nv (W range.1).nv (W f.1).val (W f.2).val (W range.1).val
  | support f g range => (bagTab W f).Boolean ∧ (bagTab W g).Boolean ∧ NatsNonzero F (2 ^ (W f.1).nv) ∧ (bagTab W g).Nodup ∧
      (∀ z, (bagTab W f).Active z ↔ (bagTab W g).Active z) ∧ SortedIn (W g.1).nv (W range.1).nv (W g.1).val (W g.2).val (W range.1).val
  | supportAdvice f g m range => (∀ z, (bagTab W f).weight (fun _ => 1) z = (bagTab W g).weight (W m).val z) ∧
      (∀ i < 2 ^ (W g.1).nv, (W g.2).val i ≠ 0 → (W m).val i ≠ 0) ∧ SortedIn (W g.1).nv (W range.1).nv (W g.1).val (W g.2).val (W range.1).val
  | disjoint f g range => (bagTab W f).Boolean ∧ (bagTab W g).Boolean ∧ Apart rep (W range.1) (bagTab W f) (bagTab W g)
  | setDisjoint f g range => (bagTab W f).Nodup ∧ (bagTab W g).Nodup ∧ Apart rep (W range.1) (bagTab W f) (bagTab W g)
  | union f g u range => (bagTab W f).Boolean ∧ (bagTab W g).Boolean ∧ (bagTab W u).Boolean ∧
      NatsNonzero F (2 ^ (max (W f.1).nv (W g.1).nv + 1)) ∧ (bagTab W u).Nodup ∧
      (∀ z, (bagTab W f).Active z ∨ (bagTab W g).Active z ↔ (bagTab W u).Active z) ∧
      SortedIn (W u.1).nv (W range.1).nv (W u.1).val (W u.2).val (W range.1).val
  | diff f g l m mult range => (bagTab W l).Nodup ∧ (bagTab W g).Nodup ∧ Apart rep (W range.1) (bagTab W l) (bagTab W g) ∧
      (∀ z, (bagTab W l).weight (fun _ => 1) z + (bagTab W m).weight (fun _ => 1) z = (bagTab W f).weight (fun _ => 1) z) ∧
      ∀ z, (bagTab W m).weight (fun _ => 1) z = (bagTab W g).weight (W mult).val z
  | intersect f g l m r range => (bagTab W l).Nodup ∧ (bagTab W r).Nodup ∧ Apart rep (W range.1) (bagTab W l) (bagTab W r) ∧
      (∀ z, (bagTab W l).weight (fun _ => 1) z + (bagTab W m).weight (fun _ => 1) z = (bagTab W f).weight (fun _ => 1) z) ∧
      ∀ z, (bagTab W m).weight (fun _ => 1) z + (bagTab W r).weight (fun _ => 1) z = (bagTab W g).weight (fun _ => 1) z
  | joinReduction f g lSel rSel range => (bagTab W f).Boolean ∧ (bagTab W g).Boolean ∧
      (∃ M, Canonical rep ∧ 0 < M ∧ Covers (W range.1).nv (W range.1).val M ∧ (bagTab W f).Below rep M ∧ (bagTab W g).Below rep M) ∧
      (∀ i < 2 ^ (W f.1).nv, (W lSel).val i = 0 ∨ (W lSel).val i = 1) ∧ (∀ i < 2 ^ (W g.1).nv, (W rSel).val i = 0 ∨ (W rSel).val i = 1) ∧
      (∀ i < 2 ^ (W f.1).nv, (W f.2).val i ≠ 0 → ((W lSel).val i ≠ 0 ↔ ¬(bagTab W g).Active ((W f.1).val i))) ∧
      ∀ i < 2 ^ (W g.1).nv, (W g.2).val i ≠ 0 → ((W rSel).val i ≠ 0 ↔ ¬(bagTab W f).Active ((W g.1).val i))
  | indexTransform inp out => (tabData W inp).Boolean ∧ (tabData W out).Boolean ∧
      ∀ i, (tabData W out).On i → ∃ j, (tabData W inp).On j ∧ (tabData W out).row i = (tabData W inp).row j
  | joinAdvice a b ai bi ta => (tabData W a).Boolean ∧ (tabData W b).Boolean ∧
      ∀ i, (tabData W b).On i → ∃ j, (tabData W a).On j ∧ (ta.map fun c => (W c).val i) = (tabData W a).row j ∧ (tabData W a).col ai j = (tabData W b).col bi i
  | groupBy inp key grp mult aggs range => (tabData W inp).Boolean ∧ NatsNonzero F (2 ^ (W inp.2).nv) ∧
      GroupsOf (tabData W inp) (groupData W key grp mult aggs) ∧ SortedIn (W grp.1).nv (W range.1).nv (W grp.1).val (W grp.2).val (W range.1).val

/-- The tables for which the verifier has a formula have as many variables as the largest table of the proof, `N`.  Then the verifier's formulas agree with the prover's tables. -/
def Exact (N : Nat) (W : K → Column F) : Check K → Prop
  | permutation f _ _ => N = (W f.1).nv
  | sort f _ => N = (W f.1).nv
  | support _ g _ => N = (W g.1).nv
  | supportAdvice _ g _ _ => N = (W g.1).nv
  | disjoint f g _ => N = max (W f.1).nv (W g.1).nv + 1
  | setDisjoint f g _ => N = max (W f.1).nv (W g.1).nv + 1
  | union _ _ u _ => N = (W u.1).nv
  | diff _ g l _ _ _ => N = max (W l.1).nv (W g.1).nv + 1
  | intersect _ _ l _ r _ => N = max (W l.1).nv (W r.1).nv + 1
  | joinReduction f g _ _ _ => N = (W f.1).nv + 1 ∧ N = (W g.1).nv + 1
  | groupBy _ _ grp _ _ _ => N = (W grp.1).nv
  | _ => True

end Check

/-! ### Programs -/

/-- One step of a program.  Columns are named by their positions: first the columns the program is started with, then one for every step that makes a column. -/
inductive Step (F : Type)
  /-- The prover commits to a column and the verifier takes over the commitment. -/
  | commit (p : Mle F)
  | add (i j : Nat)
  | sub (i j : Nat)
  | mul (i j : Nat)
  | addScalar (i : Nat) (c : F)
  | mulScalar (i : Nat) (c : F)
  | check (c : Check Nat)
  /-- The one-to-many join of two tables: the prover commits to the columns of the first table, moved to the rows of the second, and they are checked. -/
  | join (a b : List Nat × Nat) (ai bi : Nat)

/-- For every active row of the second table, the last active row of the first table with the same key; zero for inactive rows. -/
def partners (A T : TabData F) (ai bi : Nat) : List Nat :=
  (List.range (2 ^ T.nv)).map fun i => if T.sel i ≠ 0 then Nat.findGreatest (fun j => A.sel j ≠ 0 ∧ A.col ai j = T.col bi i) (2 ^ A.nv - 1) else 0

/-- The column at a position. -/
def at' (hs : List TPoly) (i : Nat) : TPoly := hs.getD i ⟨0, 0⟩

/-- The contents of the column at a position. -/
def colAt (W : List (Column F)) (i : Nat) : Column F := W.getD i ⟨0, fun _ => 0⟩

namespace Step

/-- The prover's side of the steps, with the columns there are; returns all columns. -/
def proveAll (E : Env F C) : List (Step F) → List TPoly → Act (PTracker F C) (List TPoly)
  | [], hs => pure hs
  | commit p :: r, hs => TPoly.trackAndCommit E.commit p >>= fun x => proveAll E r (hs ++ [x])
  | add i j :: r, hs => (at' hs i).add (at' hs j) >>= fun x => proveAll E r (hs ++ [x])
  | sub i j :: r, hs => (at' hs i).sub (at' hs j) >>= fun x => proveAll E r (hs ++ [x])
  | mul i j :: r, hs => (at' hs i).mul (at' hs j) >>= fun x => proveAll E r (hs ++ [x])
  | addScalar i c :: r, hs => (at' hs i).addScalar c >>= fun x => proveAll E r (hs ++ [x])
  | mulScalar i c :: r, hs => (at' hs i).mulScalar c >>= fun x => proveAll E r (hs ++ [x])
  | check c :: r, hs => (c.map (at' hs)).prove E >>= fun _ => proveAll E r hs
  | join a b ai bi :: r, hs => FinalJoin.prove E (tableOf (a.1.map (at' hs), at' hs a.2)) (tableOf (b.1.map (at' hs), at' hs b.2)) ai bi >>= fun x =>
      proveAll E r (hs ++ x.colVals.take a.1.length)

/-- The verifier's side of the steps.  The number of variables of a new column is known from the program. -/
def verifyAll (E : Env F C) : List (Step F) → List TPoly → Act (VSt F C B) (List TPoly)
  | [], hs => pure hs
  | commit p :: r, hs => VSt.getNextId >>= fun id => VSt.transferComm E.debug id >>= fun x => verifyAll E r (hs ++ [⟨x, p.numVars⟩])
  | add i j :: r, hs => VSt.addComms (at' hs i).id (at' hs j).id >>= fun x => verifyAll E r (hs ++ [⟨x, (at' hs i).numVars⟩])
  | sub i j :: r, hs => VSt.subComms (at' hs i).id (at' hs j).id >>= fun x => verifyAll E r (hs ++ [⟨x, (at' hs i).numVars⟩])
  | mul i j :: r, hs => VSt.mulComms (at' hs i).id (at' hs j).id >>= fun x => verifyAll E r (hs ++ [⟨x, (at' hs i).numVars⟩])
  | addScalar i c :: r, hs => VSt.addScalar (at' hs i).id c >>= fun x => verifyAll E r (hs ++ [⟨x, (at' hs i).numVars⟩])
  | mulScalar i c :: r, hs => VSt.mulScalar (at' hs i).id c >>= fun x => verifyAll E r (hs ++ [⟨x, (at' hs i).numVars⟩])
  | check c :: r, hs => (c.map (at' hs)).verify E >>= fun _ => verifyAll E r hs
  | join a b ai bi :: r, hs => FinalJoin.verify E (tableCommOf (a.1.map (at' hs), at' hs a.2)) (tableCommOf (b.1.map (at' hs), at' hs b.2)) ai bi >>= fun y =>
      verifyAll E r (hs ++ (y.colVals.take a.1.length).map fun i => ⟨i, (at' hs b.2).numVars⟩)

/-- The contents of the columns after a step. -/
def next (W : List (Column F)) : Step F → List (Column F)
  | commit p => W ++ [⟨p.numVars, p.tbl⟩]
  | add i j => W ++ [⟨(colAt W i).nv, fun b => (colAt W i).val b + (colAt W j).val b⟩]
  | sub i j => W ++ [⟨(colAt W i).nv, fun b => (colAt W i).val b - (colAt W j).val b⟩]
  | mul i j => W ++ [⟨(colAt W i).nv, fun b => (colAt W i).val b * (colAt W j).val b⟩]
  | addScalar i c => W ++ [⟨(colAt W i).nv, fun b => (colAt W i).val b + c⟩]
  | mulScalar i c => W ++ [⟨(colAt W i).nv, fun b => c * (colAt W i).val b⟩]
  | check _ => W
  | join a b ai bi => W ++ a.1.map fun c =>
      ⟨(colAt W b.2).nv, moved (colAt W c).val (partners (tabData (colAt W) a) (tabData (colAt W) b) ai bi) (colAt W b.2).val⟩

/-- The contents of the columns after all steps. -/
def nextAll : List (Column F) → List (Step F) → List (Column F)
  | W, [] => W
  | W, s :: r => nextAll (s.next W) r

/-- The step can be made: it names columns there are, and sizes match. -/
def Fits (N : Nat) (W : List (Column F)) : Step F → Prop
  | commit p => p.WF ∧ p.numVars ≤ N
  | add i j => i < W.length ∧ j < W.length ∧ (colAt W j).nv = (colAt W i).nv
  | sub i j => i < W.length ∧ j < W.length ∧ (colAt W j).nv = (colAt W i).nv
  | mul i j => i < W.length ∧ j < W.length ∧ (colAt W j).nv = (colAt W i).nv
  | addScalar i _ => i < W.length
  | mulScalar i _ => i < W.length
  | check c => (∀ i ∈ c.names, i < W.length) ∧ c.Fits N (colAt W)
  | join a b ai bi => (∀ i ∈ a.1 ++ a.2 :: (b.1 ++ [b.2]), i < W.length ∧ (colAt W i).nv ≤ N) ∧ EvenTab (colAt W) a ∧ EvenTab (colAt W) b ∧
      ai < a.1.length ∧ bi < b.1.length

/-- All steps can be made. -/
def FitsAll (N : Nat) : List (Column F) → List (Step F) → Prop
  | _, [] => True
  | W, s :: r => s.Fits N W ∧ FitsAll N (s.next W) r

/-- The prover can make the step: in a join, selectors are 0 or 1, every active row of the second table has a partner, and with debug checks the key column of the first table has no
value twice. -/
def Runs (debug : Bool) (W : List (Column F)) : Step F → Prop
  | check c => c.Runs debug (colAt W)
  | join a b ai bi => (tabData (colAt W) a).Boolean ∧ (tabData (colAt W) b).Boolean ∧ Matched (tabData (colAt W) a) (tabData (colAt W) b) ai bi ∧
      (debug = true → DistinctColumn (tabData (colAt W) a) ai)
  | _ => True

/-- The prover can make all steps. -/
def RunsAll (debug : Bool) : List (Column F) → List (Step F) → Prop
  | _, [] => True
  | W, s :: r => s.Runs debug W ∧ RunsAll debug (s.next W) r

/-- What is checked is true. -/
def ValidAll (rep : F → Nat) : List (Column F) → List (Step F) → Prop
  | _, [] => True
  | W, check c :: r => c.Valid rep (colAt W) ∧ ValidAll rep W r
  | W, s :: r => ValidAll rep (s.next W) r

/-- The formulas of the verifier have the size of the largest table. -/
def ExactAll (N : Nat) : List (Column F) → List (Step F) → Prop
  | _, [] => True
  | W, check c :: r => c.Exact N (colAt W) ∧ ExactAll N W r
  | W, s :: r => ExactAll N (s.next W) r

/-- Numbers of exceptional challenges. -/
def boundsAll : List (Column F) → List (Step F) → List Nat
  | _, [] => []
  | W, check c :: r => c.bounds (colAt W) ++ boundsAll W r
  | W, join a b ai bi :: r => [0, 2 ^ (colAt W b.2).nv + 2 ^ (colAt W a.2).nv] ++ boundsAll ((join a b ai bi : Step F).next W) r
  | W, s :: r => boundsAll (s.next W) r

end Step

/-- The prover's columns have these contents. -/
def HoldsAllP (t : PTracker F C) (hs : List TPoly) (W : List (Column F)) : Prop := List.Forall₂ (fun a w => a.numVars = w.nv ∧ HoldsP t a w.val) hs W

/-- The verifier knows the columns. -/
def KnownAll (s : VSt F C B) (hs : List TPoly) : Prop := ∀ a ∈ hs, Known s a.id

/-- The verifier's columns have these contents. -/
def HoldsAll (s : VSt F C B) (P : C → List F → F) (N : Nat) (hs : List TPoly) (W : List (Column F)) : Prop :=
  List.Forall₂ (fun a w => Holds s P N a.id w.nv w.val) hs W

/-- The columns a program is started with, when they are the first ones committed to: position and identifier agree. -/
def startHandles (cols : List (Mle F)) : List TPoly := cols.mapIdx fun i p => ⟨i, p.numVars⟩

/-- Their contents. -/
def startCols (cols : List (Mle F)) : List (Column F) := cols.map fun p => ⟨p.numVars, p.tbl⟩

end Zksql.Spec
