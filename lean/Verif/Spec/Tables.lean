import Verif.Model.Tables
import Verif.Spec.Honest
import Verif.Spec.Advice
/-!
Tables and what the table protocols should compute.
-/
namespace Zksql.Spec
open Zksql
variable {F C B : Type} [Field F] [DecidableEq F]

/-- The contents of a table: `2^nv` rows, the columns and the selector. -/
structure TabData (F : Type) where
  nv : Nat
  cols : List (Nat → F)
  sel : Nat → F

namespace TabData

/-- Column `k`. -/
def col (T : TabData F) (k : Nat) : Nat → F := T.cols.getD k fun _ => 0

/-- The row as a list of values. -/
def row (T : TabData F) (i : Nat) : List F := T.cols.map fun c => c i

/-- The row is active. -/
def On (T : TabData F) (i : Nat) : Prop := i < 2 ^ T.nv ∧ T.sel i ≠ 0

/-- The selector is 0 or 1 in every row. -/
def Boolean (T : TabData F) : Prop := ∀ i < 2 ^ T.nv, T.sel i = 0 ∨ T.sel i = 1

/-- The bag made of one column. -/
def bag (T : TabData F) (k : Nat) : BagTab F := ⟨T.nv, T.col k, T.sel⟩

end TabData

/-- The prover's columns have these contents. -/
def HoldsColsP (t : PTracker F C) (nv : Nat) : List TPoly → List (Nat → F) → Prop
  | [], [] => True
  | c :: cs, f :: fs => c.numVars = nv ∧ HoldsP t c f ∧ HoldsColsP t nv cs fs
  | _, _ => False

/-- The prover's table has these contents. -/
structure HoldsTabP (t : PTracker F C) (tb : Table) (T : TabData F) : Prop where
  nvSel : tb.selector.numVars = T.nv
  sel : HoldsP t tb.selector T.sel
  cols : HoldsColsP t T.nv tb.colVals T.cols

/-- The same table on the verifier's side. -/
def sameTab (tb : Table) : TableComm := ⟨tb.colVals.map (·.id), tb.selector.id, tb.numVars⟩

/-- The verifier knows the handles of the table. -/
def KnownTab (s : VSt F C B) (tb : TableComm) : Prop := (∀ c ∈ tb.colVals, Known s c) ∧ Known s tb.selector

/-- The verifier's columns have these contents. -/
def HoldsCols (s : VSt F C B) (P : C → List F → F) (N nv : Nat) : List Nat → List (Nat → F) → Prop
  | [], [] => True
  | c :: cs, f :: fs => Holds s P N c nv f ∧ HoldsCols s P N nv cs fs
  | _, _ => False

/-- The verifier's table has these contents. -/
structure HoldsTab (s : VSt F C B) (P : C → List F → F) (N : Nat) (tb : TableComm) (T : TabData F) : Prop where
  nv : tb.numVars = T.nv
  sel : Holds s P N tb.selector T.nv T.sel
  cols : HoldsCols s P N T.nv tb.colVals T.cols

/-! ### Cross product -/

/-- The cross product: row `i * 2^nb + j` is row `i` of the first table followed by row `j` of the second. -/
def crossed (A T : TabData F) : TabData F :=
  ⟨A.nv + T.nv, (A.cols.map fun f r => f (r / 2 ^ T.nv)) ++ T.cols.map fun f r => f (r % 2 ^ T.nv), fun r => A.sel (r / 2 ^ T.nv) * T.sel (r % 2 ^ T.nv)⟩

/-- Whenever the handle is evaluated at a point with `nv` coordinates, the result is that of the polynomial with these values. -/
def EvalsTo (s : VSt F C B) (ans : Nat → List F → Res F) (nv h : Nat) (f : Nat → F) : Prop :=
  Known s h ∧ ∀ x : List F, x.length = nv → VSt.evalC s.sh.comms ans (h + 1) h x = .ok (mle f x)

/-- The same for a list of columns. -/
def EvalsCols (s : VSt F C B) (ans : Nat → List F → Res F) (nv : Nat) : List Nat → List (Nat → F) → Prop
  | [], [] => True
  | c :: cs, f :: fs => EvalsTo s ans nv c f ∧ EvalsCols s ans nv cs fs
  | _, _ => False

/-- The verifier's table evaluates as the table with these contents. -/
structure EvalsTab (s : VSt F C B) (ans : Nat → List F → Res F) (tb : TableComm) (T : TabData F) : Prop where
  nv : tb.numVars = T.nv
  sel : EvalsTo s ans T.nv tb.selector T.sel
  cols : EvalsCols s ans T.nv tb.colVals T.cols

/-! ### One-to-many join -/

/-- For every active row of the second table, the last active row of the first table with the same key; zero for inactive rows. -/
def IndexColumn (A B : TabData F) (ai bi : Nat) (ks : List Nat) : Prop :=
  ks.length = 2 ^ B.nv ∧ ∀ i < 2 ^ B.nv,
    (B.sel i ≠ 0 → A.On (ks.getD i 0) ∧ A.col ai (ks.getD i 0) = B.col bi i ∧ ∀ j, A.On j → A.col ai j = B.col bi i → j ≤ ks.getD i 0) ∧
    (B.sel i = 0 → ks.getD i 0 = 0)

/-- Every active row of the second table has a partner in the first. -/
def Matched (A B : TabData F) (ai bi : Nat) : Prop := ∀ i, B.On i → ∃ j, A.On j ∧ A.col ai j = B.col bi i

/-- A column moved by an index column: zero in inactive rows. -/
def moved (f : Nat → F) (ks : List Nat) (sel : Nat → F) : Nat → F := fun i => if sel i ≠ 0 then f (ks.getD i 0) else 0

/-! ### Split of two bags -/

/-- The active rows come first and their values ascend. -/
def ActiveAscending (rep : F → Nat) (T : BagTab F) : Prop :=
  ∃ n ≤ 2 ^ T.nv, (∀ i < 2 ^ T.nv, T.sel i ≠ 0 ↔ i < n) ∧ ∀ i j, i < j → j < n → rep (T.val i) ≤ rep (T.val j)

/-- The four bags split `S` and `T` into what is only in `S`, the common values with their occurrences in `S` and in `T`, and what is only in `T`. -/
structure SplitOf (S T L Ma Mb R : BagTab F) : Prop where
  boolean : L.Boolean ∧ Ma.Boolean ∧ Mb.Boolean ∧ R.Boolean
  left : ∀ z, (T.Active z → L.count z = 0 ∧ Ma.count z = S.count z) ∧ (¬ T.Active z → L.count z = S.count z ∧ Ma.count z = 0)
  right : ∀ z, (S.Active z → R.count z = 0 ∧ Mb.count z = T.count z) ∧ (¬ S.Active z → R.count z = T.count z ∧ Mb.count z = 0)

/-- The bag lists the values satisfying `on`, each in one active row, with these multiplicities; the multiplicity of an inactive row is 0. -/
structure Lists (T : BagTab F) (m : Nat → F) (on : F → Prop) (cnt : F → Nat) : Prop where
  boolean : T.Boolean
  nodup : T.Nodup
  active : ∀ z, T.Active z ↔ on z
  mult : ∀ i < 2 ^ T.nv, m i = if T.sel i ≠ 0 then (cnt (T.val i) : F) else 0

end Zksql.Spec
