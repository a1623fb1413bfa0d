import Verif.Spec.Inactive
import Mathlib.Data.Multiset.Range
/-!
A bag as the multiset of its active values, a table as the multiset of its active rows.
-/
namespace Zksql.Spec
open Zksql
variable {F K : Type} [Field F] [DecidableEq F]

/-- The active values, with multiplicity and without order. -/
def BagTab.values (t : BagTab F) : Multiset F := ((Multiset.range (2 ^ t.nv)).filter fun i => t.sel i ≠ 0).map t.val

/-- The active rows, with multiplicity and without order. -/
def TabData.rows (t : TabData F) : Multiset (List F) := ((Multiset.range (2 ^ t.nv)).filter fun i => t.sel i ≠ 0).map t.row

/-- The bag has the same active values, in any order and in any number of rows. -/
def SameValues (W W' : K → Column F) (b : K × K) : Prop := (bagTab W b).Boolean ∧ (bagTab W' b).Boolean ∧ (bagTab W' b).values = (bagTab W b).values

/-- The table has the same active rows, in any order and in any number of rows. -/
def SameRows (W W' : K → Column F) (t : List K × K) : Prop := (tabData W t).Boolean ∧ (tabData W' t).Boolean ∧ (tabData W' t).rows = (tabData W t).rows

/-- Every value has the same multiplicity. -/
def SameWeights (W W' : K → Column F) (b : K × K) (m : K) : Prop := ∀ z, (bagTab W' b).weight (W' m).val z = (bagTab W b).weight (W m).val z

/-- The bags and tables a check is about have the same contents.  Columns that belong to the rows of another column must have the same row by row (`SameActive`), and sorted columns, ranges and
selectors in every row. -/
def Check.SameContents (W W' : K → Column F) : Check K → Prop
  | multiset fs gs => ∀ e ∈ fs ++ gs, SameWeights W W' e.1 e.2
  | bagEq f g => SameValues W W' f ∧ SameValues W W' g
  | bagSum f g h => SameValues W W' f ∧ SameValues W W' g ∧ SameValues W W' h
  | inclusion f g => SameValues W W' f ∧ SameValues W W' g
  | inclusionAdvice f g m => SameValues W W' f ∧ SameWeights W W' g m
  | noZeros f => SameValues W W' f
  | support f g range => SameValues W W' f ∧ SameCol W W' g.1 ∧ SameCol W W' g.2 ∧ SameCol W W' range.1
  | supportAdvice f g m range => SameValues W W' f ∧ SameCol W W' g.1 ∧ SameCol W W' g.2 ∧ SameWhere W W' g.2 m ∧ SameCol W W' range.1
  | disjoint f g range => SameValues W W' f ∧ SameValues W W' g ∧ SameCol W W' range.1
  | setDisjoint f g range => SameValues W W' f ∧ SameValues W W' g ∧ SameCol W W' range.1
  | union f g u range => SameValues W W' f ∧ SameValues W W' g ∧ SameCol W W' u.1 ∧ SameCol W W' u.2 ∧ SameCol W W' range.1
  | diff f g l m mult range => SameValues W W' f ∧ SameValues W W' g ∧ SameValues W W' l ∧ SameValues W W' m ∧ SameWeights W W' g mult ∧ SameCol W W' range.1
  | intersect f g l m r range => SameValues W W' f ∧ SameValues W W' g ∧ SameValues W W' l ∧ SameValues W W' m ∧ SameValues W W' r ∧ SameCol W W' range.1
  | indexTransform inp out => SameRows W W' inp ∧ SameRows W W' out
  | joinAdvice a b _ _ ta => SameRows W W' a ∧ SameTab W W' b ∧ ∀ c ∈ ta, SameWhere W W' b.2 c
  | groupBy inp _ grp mult aggs range => SameRows W W' inp ∧ SameCol W W' grp.1 ∧ SameCol W W' grp.2 ∧ SameWhere W W' grp.2 mult ∧ (∀ e ∈ aggs, SameWhere W W' grp.2 e.2.2) ∧
      SameCol W W' range.1
  | selector m => SameCol W W' m
  | permutation f g p => SameCol W W' f.1 ∧ SameCol W W' g.1 ∧ SameCol W W' p
  | sort f range => SameCol W W' f.1 ∧ SameCol W W' f.2 ∧ SameCol W W' range.1
  | joinReduction f g lSel rSel range => SameBag W W' f ∧ SameBag W W' g ∧ SameCol W W' lSel ∧ SameCol W W' rSel ∧ SameCol W W' range.1

/-- Two programs with the same steps, except for the columns committed to, whose checks are about bags and tables with the same contents. -/
def Step.SameContentsAll : List (Column F) → List (Column F) → List (Step F) → List (Step F) → Prop
  | _, _, [], [] => True
  | W, W', commit p :: r, commit p' :: r' => SameContentsAll (W ++ [⟨p.numVars, p.tbl⟩]) (W' ++ [⟨p'.numVars, p'.tbl⟩]) r r'
  | W, W', check c :: r, check c' :: r' => c' = c ∧ c.SameContents (colAt W) (colAt W') ∧ SameContentsAll W W' r r'
  | W, W', s :: r, s' :: r' => s' = s ∧ SameContentsAll (s.next W) (s'.next W') r r'
  | _, _, _, _ => False

end Zksql.Spec
