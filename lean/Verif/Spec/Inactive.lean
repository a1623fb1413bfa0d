import Verif.Spec.Compilable
import Verif.Spec.ProgramSound
/-!
Data that differs only in rows that are switched off.
-/
namespace Zksql.Spec
open Zksql
variable {F K : Type} [Field F] [DecidableEq F]

/-- The column is the same in every row. -/
def SameCol (W W' : K → Column F) (k : K) : Prop := (W' k).nv = (W k).nv ∧ ∀ i < 2 ^ (W k).nv, (W' k).val i = (W k).val i

/-- The column is the same in the rows where the selector `s` is not zero. -/
def SameWhere (W W' : K → Column F) (s k : K) : Prop := (W' k).nv = (W k).nv ∧ ∀ i < 2 ^ (W k).nv, (W s).val i ≠ 0 → (W' k).val i = (W k).val i

/-- The bag has the same selector, and the same values in its active rows. -/
def SameBag (W W' : K → Column F) (b : K × K) : Prop := SameCol W W' b.2 ∧ SameWhere W W' b.2 b.1

/-- The table has the same selector, and the same values in its active rows. -/
def SameTab (W W' : K → Column F) (t : List K × K) : Prop := SameCol W W' t.2 ∧ ∀ c ∈ t.1, SameWhere W W' t.2 c

/-- The columns a check is about differ only in rows that are switched off.  A column that is checked to be sorted or permuted, a range, and a column that is itself a selector must not
differ at all: these checks read every row. -/
def Check.SameActive (W W' : K → Column F) : Check K → Prop
  | multiset fs gs => ∀ e ∈ fs ++ gs, SameBag W W' e.1 ∧ SameWhere W W' e.1.2 e.2
  | bagEq f g => SameBag W W' f ∧ SameBag W W' g
  | bagSum f g h => SameBag W W' f ∧ SameBag W W' g ∧ SameBag W W' h
  | inclusion f g => SameBag W W' f ∧ SameBag W W' g
  | inclusionAdvice f g m => SameBag W W' f ∧ SameBag W W' g ∧ SameWhere W W' g.2 m
  | noZeros f => SameBag W W' f
  | selector m => SameCol W W' m
  | permutation f g p => SameCol W W' f.1 ∧ SameCol W W' g.1 ∧ SameCol W W' p
  | sort f range => SameCol W W' f.1 ∧ SameCol W W' f.2 ∧ SameCol W W' range.1
  | support f g range => SameBag W W' f ∧ SameCol W W' g.1 ∧ SameCol W W' g.2 ∧ SameCol W W' range.1
  | supportAdvice f g m range => SameBag W W' f ∧ SameCol W W' g.1 ∧ SameCol W W' g.2 ∧ SameWhere W W' g.2 m ∧ SameCol W W' range.1
  | disjoint f g range => SameBag W W' f ∧ SameBag W W' g ∧ SameCol W W' range.1
  | setDisjoint f g range => SameBag W W' f ∧ SameBag W W' g ∧ SameCol W W' range.1
  | union f g u range => SameBag W W' f ∧ SameBag W W' g ∧ SameCol W W' u.1 ∧ SameCol W W' u.2 ∧ SameCol W W' range.1
  | diff f g l m mult range => SameBag W W' f ∧ SameBag W W' g ∧ SameBag W W' l ∧ SameBag W W' m ∧ SameWhere W W' g.2 mult ∧ SameCol W W' range.1
  | intersect f g l m r range => SameBag W W' f ∧ SameBag W W' g ∧ SameBag W W' l ∧ SameBag W W' m ∧ SameBag W W' r ∧ SameCol W W' range.1
  | joinReduction f g lSel rSel range => SameBag W W' f ∧ SameBag W W' g ∧ SameCol W W' lSel ∧ SameCol W W' rSel ∧ SameCol W W' range.1
  | indexTransform inp out => SameTab W W' inp ∧ SameTab W W' out
  | joinAdvice a b _ _ ta => SameTab W W' a ∧ SameTab W W' b ∧ ∀ c ∈ ta, SameWhere W W' b.2 c
  | groupBy inp _ grp mult aggs range => SameTab W W' inp ∧ SameCol W W' grp.1 ∧ SameCol W W' grp.2 ∧ SameWhere W W' grp.2 mult ∧ (∀ e ∈ aggs, SameWhere W W' grp.2 e.2.2) ∧
      SameCol W W' range.1

/-- Two programs with the same steps, except for the contents of committed columns, on columns that differ, for every check, only in rows that are switched off. -/
def Step.SameActiveAll : List (Column F) → List (Column F) → List (Step F) → List (Step F) → Prop
  | _, _, [], [] => True
  | W, W', commit p :: r, commit p' :: r' => p'.numVars = p.numVars ∧ SameActiveAll (W ++ [⟨p.numVars, p.tbl⟩]) (W' ++ [⟨p'.numVars, p'.tbl⟩]) r r'
  | W, W', check c :: r, check c' :: r' => c' = c ∧ c.SameActive (colAt W) (colAt W') ∧ SameActiveAll W W' r r'
  | W, W', s :: r, s' :: r' => s' = s ∧ SameActiveAll (s.next W) (s'.next W') r r'
  | _, _, _, _ => False

end Zksql.Spec
