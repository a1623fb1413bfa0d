import Verif.Spec.Lockstep
/-!
What the table protocols are run on and what they should establish.
-/
namespace Zksql.Spec
open Zksql
variable {F C B : Type} [Field F] [DecidableEq F]

/-! ### One-to-many join -/

/-- No two rows of the column, active or not, have the same value. -/
def DistinctColumn (A : TabData F) (k : Nat) : Prop := ∀ i < 2 ^ A.nv, ∀ j < 2 ^ A.nv, A.col k i = A.col k j → i = j

/-- The join: every row of the second table preceded by the row of the first table that `ks` gives for it (by zeros in inactive rows). -/
def joined (A T : TabData F) (ks : List Nat) : TabData F := ⟨T.nv, (A.cols.map fun f => moved f ks T.sel) ++ T.cols, T.sel⟩

/-- These columns are the polynomials behind the commitments that the proof stores under `base`, `base + 1`, .... -/
def Received (pf : CompiledProof F C B) (base : Nat) (P : C → List F → F) (N : Nat) (Ms : List (Nat → F)) : Prop :=
  ∀ k < Ms.length, ∃ c, pf.comms.lookup (base + k) = some c ∧ ∀ b < 2 ^ N, (Ms.getD k fun _ => 0) b = P c (boolPt N b)

/-! ### Group by -/

/-- The sum of column `c` over the active rows whose key is `z`. -/
def sumAt (T : TabData F) (key c : Nat) (z : F) : F := ∑ j ∈ Finset.range (2 ^ T.nv), if T.sel j ≠ 0 ∧ T.col key j = z then T.col c j else 0

/-- The contents of a request: the grouping column, the groups, their multiplicities and the requested aggregates. -/
structure GroupData (F : Type) where
  key : Nat
  groups : BagTab F
  mult : Nat → F
  aggs : List (Nat × AggType × (Nat → F))

/-- The prover's aggregates have these contents. -/
def HoldsAggsP (t : PTracker F C) (nv : Nat) : List (Nat × AggType × TPoly) → List (Nat × AggType × (Nat → F)) → Prop
  | [], [] => True
  | e :: es, f :: fs => e.1 = f.1 ∧ e.2.1 = f.2.1 ∧ e.2.2.numVars = nv ∧ HoldsP t e.2.2 f.2.2 ∧ HoldsAggsP t nv es fs
  | _, _ => False

/-- The prover's request has these contents. -/
structure HoldsRequestP (t : PTracker F C) (i : GroupInstr TPoly) (R : GroupData F) : Prop where
  key : i.groupingCols = [R.key]
  groups : ∃ c, i.supportCols = [c] ∧ HoldsBagP t ⟨c, i.supportSel⟩ R.groups
  nvMult : i.supportMult.numVars = R.groups.nv
  mult : HoldsP t i.supportMult R.mult
  aggs : HoldsAggsP t R.groups.nv i.aggs R.aggs

/-- The verifier knows the handles of the request. -/
def KnownRequest (s : VSt F C B) (i : GroupInstr Nat) : Prop :=
  (∀ c ∈ i.supportCols, Known s c) ∧ Known s i.supportSel ∧ Known s i.supportMult ∧ ∀ e ∈ i.aggs, Known s e.2.2

/-- The verifier's aggregates have these contents. -/
def HoldsAggs (s : VSt F C B) (P : C → List F → F) (N nv : Nat) : List (Nat × AggType × Nat) → List (Nat × AggType × (Nat → F)) → Prop
  | [], [] => True
  | e :: es, f :: fs => e.1 = f.1 ∧ e.2.1 = f.2.1 ∧ Holds s P N e.2.2 nv f.2.2 ∧ HoldsAggs s P N nv es fs
  | _, _ => False

/-- The verifier's request has these contents. -/
structure HoldsRequest (s : VSt F C B) (P : C → List F → F) (N : Nat) (i : GroupInstr Nat) (R : GroupData F) : Prop where
  key : i.groupingCols = [R.key]
  groups : ∃ c, i.supportCols = [c] ∧ Holds s P N c R.groups.nv R.groups.val
  sel : Holds s P N i.supportSel R.groups.nv R.groups.sel
  mult : Holds s P N i.supportMult R.groups.nv R.mult
  aggs : HoldsAggs s P N R.groups.nv i.aggs R.aggs

/-- The columns named in the request exist and the aggregates are counts and sums. -/
def GroupData.InRange (R : GroupData F) (T : TabData F) : Prop :=
  R.key < T.cols.length ∧ ∀ e ∈ R.aggs, e.1 < T.cols.length ∧ (e.2.1 = .count ∨ e.2.1 = .sum)

/-- The request describes the groups of the table: every key of an active row is in exactly one active row of the groups, with its number of
occurrences and the sums of the requested columns. -/
structure GroupsOf (T : TabData F) (R : GroupData F) : Prop where
  boolean : R.groups.Boolean
  nodup : R.groups.Nodup
  active : ∀ z, (T.bag R.key).Active z ↔ R.groups.Active z
  counts : ∀ i < 2 ^ R.groups.nv, R.groups.sel i ≠ 0 → R.mult i = ((T.bag R.key).count (R.groups.val i) : F)
  sums : ∀ e ∈ R.aggs, e.2.1 = .sum → ∀ i < 2 ^ R.groups.nv, R.groups.sel i ≠ 0 → e.2.2 i = sumAt T R.key e.1 (R.groups.val i)

/-- Exceptional challenges of the group-by check: those of the support check and one for each requested sum. -/
def groupBounds (n r : Nat) (aggs : List (Nat × AggType × Nat)) : List Nat :=
  [2 ^ n + 2 ^ n, (2 * 2 ^ n) * (2 * 2 ^ n), 2 * 2 ^ n, 2 ^ n + 2 ^ r] ++ (aggs.filter fun e => e.2.1 = .sum).map fun _ => 2 ^ n + 2 ^ n

/-- The table a group-by call returns according to the code: the groups and one multiplicity column for every requested count. -/
def GroupData.table (R : GroupData F) : TabData F :=
  ⟨R.groups.nv, R.groups.val :: (R.aggs.filter fun e => e.2.1 = .count).map fun _ => R.mult, R.groups.sel⟩

/-- The table with one column for every requested aggregate. -/
def GroupData.full (R : GroupData F) : TabData F :=
  ⟨R.groups.nv, R.groups.val :: R.aggs.map fun e => if e.2.1 = .count then R.mult else e.2.2, R.groups.sel⟩

/-- Numbers of exceptional challenges of the sums: one challenge for each. -/
def hSums (D : Nat) (R : GroupData F) : List Nat := (R.aggs.filter fun e => e.2.1 = .sum).map fun _ => D

end Zksql.Spec
