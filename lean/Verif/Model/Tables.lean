import Verif.Model.BagChecks
/-!
Protocols on tables and the split of two bags: src/zksql_poly_iop/{cross_product, index_transform, final_join_one_to_many, group_by,
util/intermed_bag_calc.rs}.
-/
namespace Zksql
variable {F C B : Type} [Field F] [DecidableEq F]

/-! ### Cross product -/
namespace CrossProduct

/-- The loop over the columns of the first table (src/zksql_poly_iop/cross_product/cross_product.rs L32-35). -/
def incFronts (k : Nat) : List TPoly → Act (PTracker F C) (List TPoly)
  | [] => pure []
  | c :: cs => do
    let c' ← c.incFront k
    let cs' ← incFronts k cs
    pure (c' :: cs')

/-- The loop over the columns of the second table (src/zksql_poly_iop/cross_product/cross_product.rs L37-40). -/
def incBacks (k : Nat) : List TPoly → Act (PTracker F C) (List TPoly)
  | [] => pure []
  | c :: cs => do
    let c' ← c.incBack k
    let cs' ← incBacks k cs
    pure (c' :: cs')

/-- `CrossProductIOP::prover_cross_product` (src/zksql_poly_iop/cross_product/cross_product.rs L22-51). -/
def prover (E : Env F C) (a b : Table) : Act (PTracker F C) Table := do
  let as ← incFronts b.numVars a.colVals
  let bs ← incBacks a.numVars b.colVals
  let sa ← a.selector.incFront b.numVars
  let sb ← b.selector.incBack a.numVars
  let s ← sa.mul sb
  Table.new E.debug (as ++ bs) s

/-- The loop over the columns of the first table, verifier (src/zksql_poly_iop/cross_product/cross_product.rs L64-67). -/
def vIncFronts (k : Nat) : List Nat → Act (VSt F C B) (List Nat)
  | [] => pure []
  | c :: cs => do
    let c' ← VSt.incFront c k
    let cs' ← vIncFronts k cs
    pure (c' :: cs')

/-- The loop over the columns of the second table, verifier (src/zksql_poly_iop/cross_product/cross_product.rs L69-72). -/
def vIncBacks (k : Nat) : List Nat → Act (VSt F C B) (List Nat)
  | [] => pure []
  | c :: cs => do
    let c' ← VSt.incBack c k
    let cs' ← vIncBacks k cs
    pure (c' :: cs')

/-- `CrossProductIOP::verifier_cross_product` (src/zksql_poly_iop/cross_product/cross_product.rs L53-81). -/
def verifier (a b : TableComm) : Act (VSt F C B) TableComm := do
  let as ← vIncFronts b.numVars a.colVals
  let bs ← vIncBacks a.numVars b.colVals
  let sa ← VSt.incFront a.selector b.numVars
  let sb ← VSt.incBack b.selector a.numVars
  let s ← VSt.mulComms sa sb
  pure ⟨as ++ bs, s, a.numVars + b.numVars⟩

/-- `front_alias_tracked_poly` (src/zksql_poly_iop/cross_product/utils.rs L7-27): every value is repeated. -/
def frontAlias (p : TPoly) (added : Nat) : Act (PTracker F C) TPoly := do
  let evals ← p.evaluations
  let mle ← Act.lift (Mle.fromEvals (p.numVars + added) (evals.flatMap fun x => List.replicate (2 ^ added) x))
  TPoly.trackMat mle

/-- `back_alias_tracked_poly` (src/zksql_poly_iop/cross_product/utils.rs L29-49): the whole column is repeated. -/
def backAlias (p : TPoly) (added : Nat) : Act (PTracker F C) TPoly := do
  let evals ← p.evaluations
  let mle ← Act.lift (Mle.fromEvals (p.numVars + added) (List.replicate (2 ^ added) evals).flatten)
  TPoly.trackMat mle

end CrossProduct

/-! ### Index transform -/
namespace IndexTransform

/-- The powers computed from the challenge (src/zksql_poly_iop/index_transform/utils.rs L93-97, L110-114). -/
def powers (r : F) (n : Nat) : List F := (List.range n).map fun i => r ^ i

/-- `prover_sample_rand_powers` (src/zksql_poly_iop/index_transform/utils.rs L84-99). -/
def proverPowers (E : Env F C) (n : Nat) : Act (PTracker F C) (List F) := do
  let r ← PTracker.challenge E.H "r"
  pure (powers r n)

/-- `verifier_sample_rand_powers` (src/zksql_poly_iop/index_transform/utils.rs L101-116). -/
def verifierPowers (E : Env F C) (n : Nat) : Act (VSt F C B) (List F) := do
  let r ← VSt.challenge E.H "r"
  pure (powers r n)

/-- `prover_sample_rands` (src/zksql_poly_iop/index_transform/utils.rs L54-67): one challenge for each number. -/
def proverRands (E : Env F C) : Nat → Act (PTracker F C) (List F)
  | 0 => pure []
  | n + 1 => do
    let r ← PTracker.challenge E.H "r"
    let rs ← proverRands E n
    pure (r :: rs)

/-- `verifier_sample_rands` (src/zksql_poly_iop/index_transform/utils.rs L69-82). -/
def verifierRands (E : Env F C) : Nat → Act (VSt F C B) (List F)
  | 0 => pure []
  | n + 1 => do
    let r ← VSt.challenge E.H "r"
    let rs ← verifierRands E n
    pure (r :: rs)

/-- The loop of `table_row_prover_agg` (src/zksql_poly_iop/index_transform/utils.rs L19-21): `res = res * (coeff * col)`.  The comment above the Rust
function announces a random linear combination; the code multiplies.  A missing coefficient panics. -/
def proverAggLoop : TPoly → List TPoly → List F → Act (PTracker F C) TPoly
  | acc, [], _ => pure acc
  | _, _ :: _, [] => Act.lift (.error .panic)
  | acc, c :: cs, r :: rs => do
    let x ← c.mulScalar r
    let acc' ← acc.mul x
    proverAggLoop acc' cs rs

/-- `table_row_prover_agg` (src/zksql_poly_iop/index_transform/utils.rs L10-25). -/
def proverAgg (E : Env F C) (tb : Table) (coeffs : List F) : Act (PTracker F C) Bag := do
  let p ← proverAggLoop tb.selector tb.colVals coeffs
  Bag.new E.debug p tb.selector

/-- The loop of `table_row_verifier_agg` (src/zksql_poly_iop/index_transform/utils.rs L39-41). -/
def verifierAggLoop : Nat → List Nat → List F → Act (VSt F C B) Nat
  | acc, [], _ => pure acc
  | _, _ :: _, [] => Act.lift (.error .panic)
  | acc, c :: cs, r :: rs => do
    let x ← VSt.mulScalar c r
    let acc' ← VSt.mulComms acc x
    verifierAggLoop acc' cs rs

/-- `table_row_verifier_agg` (src/zksql_poly_iop/index_transform/utils.rs L30-45). -/
def verifierAgg (tb : TableComm) (coeffs : List F) : Act (VSt F C B) BagComm := do
  let p ← verifierAggLoop tb.selector tb.colVals coeffs
  pure ⟨p, tb.selector, tb.numVars⟩

/-- `IndexTransformIOP::prove` (src/zksql_poly_iop/index_transform/index_transform.rs L21-36). -/
def prove (E : Env F C) (tin tout : Table) : Act (PTracker F C) Unit := do
  let coeffs ← proverPowers E tin.colVals.length
  let inAgg ← proverAgg E tin coeffs
  let outAgg ← proverAgg E tout coeffs
  Inclusion.prove E outAgg inAgg

/-- `IndexTransformIOP::verify` (src/zksql_poly_iop/index_transform/index_transform.rs L38-54). -/
def verify (E : Env F C) (tin tout : TableComm) : Act (VSt F C B) Unit := do
  let coeffs ← verifierPowers E tin.colVals.length
  let inAgg ← verifierAgg tin coeffs
  let outAgg ← verifierAgg tout coeffs
  Inclusion.verify E outAgg inAgg

end IndexTransform

/-! ### One-to-many join -/
namespace FinalJoin

/-- The loop filling the map from keys to rows (src/zksql_poly_iop/final_join_one_to_many/utils.rs L27-32): `i` counts the rows, a later row
replaces an earlier one with the same key; a selector out of range panics. -/
def keyMap : List F → List F → Nat → List (F × Nat) → Res (List (F × Nat))
  | [], _, _, m => .ok m
  | _ :: _, [], _, _ => .error .panic
  | v :: vs, s :: ss, i, m => keyMap vs ss (i + 1) (if s = 1 then amInsert v i m else m)

/-- The loop looking up the rows of the second table (src/zksql_poly_iop/final_join_one_to_many/utils.rs L39-50). -/
def lookups (m : List (F × Nat)) : List F → List F → Res (List Nat)
  | [], _ => .ok []
  | _ :: _, [] => .error .panic
  | v :: vs, s :: ss =>
    if s = 1 then
      match m.lookup v with
      | none => .error (.err .invalidParameters)
      | some k => do
        let r ← lookups m vs ss
        .ok (k :: r)
    else do
      let r ← lookups m vs ss
      .ok (0 :: r)

/-- `calc_final_join_one_to_many_index_transform` (src/zksql_poly_iop/final_join_one_to_many/utils.rs L13-53). -/
def transform (a b : Table) (ai bi : Nat) : Act (PTracker F C) (List Nat) := do
  let ca ← Act.lift (idx a.colVals ai)
  let ka ← ca.evaluations
  let sa ← a.selector.evaluations
  let m ← Act.lift (keyMap ka sa 0 [])
  let cb ← Act.lift (idx b.colVals bi)
  let kb ← cb.evaluations
  let sb ← b.selector.evaluations
  Act.lift (lookups m kb sb)

/-- The loop of `calc_index_transformed_bag` (src/zksql_poly_iop/final_join_one_to_many/utils.rs L74-80). -/
def applyLoop (old : List F) : List Nat → List F → Res (List F)
  | [], _ => .ok []
  | _ :: _, [] => .error .panic
  | k :: ks, s :: ss =>
    if s = 1 then do
      let v ← idx old k
      let r ← applyLoop old ks ss
      .ok (v :: r)
    else do
      let r ← applyLoop old ks ss
      .ok (0 :: r)

/-- `calc_index_transformed_bag` (src/zksql_poly_iop/final_join_one_to_many/utils.rs L55-85). -/
def applyTransform (E : Env F C) (ks : List Nat) (old act : TPoly) : Act (PTracker F C) (Mle F) := do
  let o ← old.evaluations
  let s ← act.evaluations
  Act.assert (E.debug = true → s.length = ks.length)
  let l ← Act.lift (applyLoop o ks s)
  Act.lift (Mle.fromEvals act.numVars l)

/-- The loop computing the columns (src/zksql_poly_iop/final_join_one_to_many/final_join_one_to_many.rs L32-34). -/
def applyAll (E : Env F C) (ks : List Nat) (act : TPoly) : List TPoly → Act (PTracker F C) (List (Mle F))
  | [] => pure []
  | c :: cs => do
    let m ← applyTransform E ks c act
    let ms ← applyAll E ks act cs
    pure (m :: ms)

/-- The loop committing the columns (src/zksql_poly_iop/final_join_one_to_many/final_join_one_to_many.rs L38-40). -/
def commitAll (E : Env F C) : List (Mle F) → Act (PTracker F C) (List TPoly)
  | [] => pure []
  | m :: ms => do
    let c ← TPoly.trackAndCommit E.commit m
    let cs ← commitAll E ms
    pure (c :: cs)

/-- `v[..n]` (src/zksql_poly_iop/final_join_one_to_many/final_join_one_to_many.rs L86, L144): panics if the list is shorter. -/
def prefixOf {α : Type} (n : Nat) (l : List α) : Res (List α) := if l.length < n then .error .panic else .ok (l.take n)

/-- The debug check of `prove_with_advice` (src/zksql_poly_iop/final_join_one_to_many/final_join_one_to_many.rs L64-78): no value occurs twice in
the key column, active or not. -/
def debugKeys (E : Env F C) (a : Table) (ai : Nat) : Act (PTracker F C) Unit :=
  if E.debug then do
    let ca ← Act.lift (idx a.colVals ai)
    let ka ← ca.evaluations
    if ka.Nodup then pure () else Act.lift (.error (.err .invalidParameters))
  else pure ()

/-- `FinalJoinOneToManyIOP::prove_with_advice` (src/zksql_poly_iop/final_join_one_to_many/final_join_one_to_many.rs L55-101). -/
def proveWithAdvice (E : Env F C) (a b : Table) (ai bi : Nat) (ta : List TPoly) : Act (PTracker F C) Table := do
  debugKeys E a ai
  let res ← Table.new E.debug (ta ++ b.colVals) b.selector
  let cols ← Act.lift (prefixOf a.colVals.length res.colVals)
  let tr ← Table.new E.debug cols res.selector
  IndexTransform.prove E a tr
  let ja ← Act.lift (idx res.colVals ai)
  let jb ← Act.lift (idx res.colVals (a.colVals.length + bi))
  let d ← ja.sub jb
  let check ← d.mul res.selector
  PTracker.addZeroClaim check.id
  pure res

/-- `FinalJoinOneToManyIOP::prove` (src/zksql_poly_iop/final_join_one_to_many/final_join_one_to_many.rs L20-53). -/
def prove (E : Env F C) (a b : Table) (ai bi : Nat) : Act (PTracker F C) Table := do
  let ks ← transform a b ai bi
  let mles ← applyAll E ks b.selector a.colVals
  let ta ← commitAll E mles
  proveWithAdvice E a b ai bi ta

/-- The loop transferring the columns (src/zksql_poly_iop/final_join_one_to_many/final_join_one_to_many.rs L112-115). -/
def transferAll (E : Env F C) : Nat → Act (VSt F C B) (List Nat)
  | 0 => pure []
  | n + 1 => do
    let i ← VSt.getNextId
    let c ← VSt.transferComm E.debug i
    let cs ← transferAll E n
    pure (c :: cs)

/-- `FinalJoinOneToManyIOP::verify_with_advice` (src/zksql_poly_iop/final_join_one_to_many/final_join_one_to_many.rs L130-159). -/
def verifyWithAdvice (E : Env F C) (a b : TableComm) (ai bi : Nat) (ta : List Nat) : Act (VSt F C B) TableComm := do
  let res : TableComm := ⟨ta ++ b.colVals, b.selector, b.numVars⟩
  let cols ← Act.lift (prefixOf a.colVals.length res.colVals)
  IndexTransform.verify E a ⟨cols, res.selector, res.numVars⟩
  let ja ← Act.lift (idx res.colVals ai)
  let jb ← Act.lift (idx res.colVals (a.colVals.length + bi))
  let d ← VSt.subComms ja jb
  let check ← VSt.mulComms d res.selector
  VSt.addZeroClaim check
  pure res

/-- `FinalJoinOneToManyIOP::verify` (src/zksql_poly_iop/final_join_one_to_many/final_join_one_to_many.rs L103-128). -/
def verify (E : Env F C) (a b : TableComm) (ai bi : Nat) : Act (VSt F C B) TableComm := do
  let ta ← transferAll E a.colVals.length
  verifyWithAdvice E a b ai bi ta

end FinalJoin

/-! ### Group by -/

/-- `AggregationType` (src/zksql_poly_iop/group_by/group_by.rs L18-31). -/
inductive AggType
  | count | sum | avg | min | max
  deriving DecidableEq, Repr

/-- `GroupByInstructionWithProvingAdvice` and `GroupByInstructionWithVerifyingAdvice` (src/zksql_poly_iop/group_by/group_by.rs L39-46, L48-55): the
handles are polynomials for the prover and commitments for the verifier. -/
structure GroupInstr (H : Type) where
  groupingCols : List Nat
  supportCols : List H
  supportSel : H
  supportMult : H
  aggs : List (Nat × AggType × H)

namespace GroupBy

/-- The checks of the request (src/zksql_poly_iop/group_by/group_by.rs L107-119, L194-206): the index of the grouping column and the support column.
An empty list of grouping columns or of support columns panics. -/
def validate {H : Type} (ncols : Nat) (i : GroupInstr H) : Res (Nat × H) :=
  if 1 < i.groupingCols.length then .error (.err .invalidParameters)
  else do
    let g ← idx i.groupingCols 0
    if ncols ≤ g then .error (.err .invalidParameters)
    else if i.aggs.any fun e => decide (ncols ≤ e.1) then .error (.err .invalidParameters)
    else do
      let s ← idx i.supportCols 0
      .ok (g, s)

/-- The loop over the aggregates (src/zksql_poly_iop/group_by/group_by.rs L140-171): `cols` are the columns of the result so far.  A sum is proved
but its column is not added; averages, minima and maxima are `todo!()`. -/
def proveAggs (E : Env F C) (inp : Table) (pre grp : Bag) (mult : TPoly) : List (Nat × AggType × TPoly) → List TPoly →
    Act (PTracker F C) (List TPoly)
  | [], cols => pure cols
  | (_, .count, _) :: r, cols => proveAggs E inp pre grp mult r (cols ++ [mult])
  | (c, .sum, p) :: r, cols => do
    let x ← Act.lift (idx inp.colVals c)
    Multitool.prove E [pre] [grp] [x] [p]
    proveAggs E inp pre grp mult r cols
  | (_, .avg, _) :: _, _ => Act.lift (.error .panic)
  | (_, .min, _) :: _, _ => Act.lift (.error .panic)
  | (_, .max, _) :: _, _ => Act.lift (.error .panic)

/-- `GroupByIOP::prove_with_advice` (src/zksql_poly_iop/group_by/group_by.rs L100-175). -/
def proveWithAdvice (E : Env F C) (inp : Table) (i : GroupInstr TPoly) (range : Bag) : Act (PTracker F C) Table := do
  let (g, supp) ← Act.lift (validate inp.colVals.length i)
  let c ← Act.lift (idx inp.colVals g)
  let pre ← Bag.new E.debug c inp.selector
  let grp ← Bag.new E.debug supp i.supportSel
  Supp.proveWithAdvice E pre grp i.supportMult range
  let res ← Table.new E.debug [supp] i.supportSel
  let cols ← proveAggs E inp pre grp i.supportMult i.aggs res.colVals
  pure { res with colVals := cols }

/-- `GroupByIOP::verify` (src/zksql_poly_iop/group_by/group_by.rs L177-180): `todo!()`. -/
def verify : Act (VSt F C B) Unit := Act.lift (.error .panic)

/-- The loop over the aggregates, verifier (src/zksql_poly_iop/group_by/group_by.rs L228-259). -/
def verifyAggs (E : Env F C) (inp : TableComm) (pre grp : BagComm) (mult : Nat) : List (Nat × AggType × Nat) → List Nat →
    Act (VSt F C B) (List Nat)
  | [], cols => pure cols
  | (_, .count, _) :: r, cols => verifyAggs E inp pre grp mult r (cols ++ [mult])
  | (c, .sum, p) :: r, cols => do
    let x ← Act.lift (idx inp.colVals c)
    Multitool.verify E [pre] [grp] [x] [p]
    verifyAggs E inp pre grp mult r cols
  | (_, .avg, _) :: _, _ => Act.lift (.error .panic)
  | (_, .min, _) :: _, _ => Act.lift (.error .panic)
  | (_, .max, _) :: _, _ => Act.lift (.error .panic)

/-- `GroupByIOP::verify_with_advice` (src/zksql_poly_iop/group_by/group_by.rs L182-263): the grouped bag gets the size of the input table. -/
def verifyWithAdvice (E : Env F C) (inp : TableComm) (i : GroupInstr Nat) (range : BagComm) : Act (VSt F C B) TableComm := do
  let (g, supp) ← Act.lift (validate inp.colVals.length i)
  let c ← Act.lift (idx inp.colVals g)
  let pre : BagComm := ⟨c, inp.selector, inp.numVars⟩
  let grp : BagComm := ⟨supp, i.supportSel, inp.numVars⟩
  Supp.verifyWithAdvice E pre grp i.supportMult range
  let cols ← verifyAggs E inp pre grp i.supportMult i.aggs [supp]
  pure ⟨cols, i.supportSel, inp.numVars⟩

end GroupBy

/-! ### Split of two bags -/
namespace LmrSplit

/-- The values of the active rows (src/zksql_poly_iop/util/intermed_bag_calc.rs L44-48, L53-57): of the sorted copies `sorted_a_evals` and
`sorted_b_evals` the code only uses the lengths. -/
def actives (vals sels : List F) : List F := ((vals.zip sels).filter fun e => decide (e.2 ≠ 0)).map (·.1)

/-- What the merging loop has produced and what it has not read. -/
structure Acc (F : Type) where
  l : List F
  ma : List F
  mb : List F
  r : List F
  restA : List F
  restB : List F

/-- The merging loop (src/zksql_poly_iop/util/intermed_bag_calc.rs L64-82).  The counters are replaced by the values not yet read; the values are
read in the order of the table, not in sorted order.  Every round reads at least one value, so the fuel (the number of values) suffices. -/
def merge (E : Env F C) : Nat → List F → List F → Acc F
  | 0, as, bs => ⟨[], [], [], [], as, bs⟩
  | _ + 1, [], bs => ⟨[], [], [], [], [], bs⟩
  | _ + 1, a :: as, [] => ⟨[], [], [], [], a :: as, []⟩
  | n + 1, a :: as, b :: bs =>
    if E.rep a < E.rep b then
      let q := merge E n as (b :: bs)
      { q with l := a :: q.l }
    else if E.rep b < E.rep a then
      let q := merge E n (a :: as) bs
      { q with r := b :: q.r }
    else
      let ra := (a :: as).takeWhile (· == a)
      let rb := (b :: bs).takeWhile (· == a)
      let q := merge E n ((a :: as).dropWhile (· == a)) ((b :: bs).dropWhile (· == a))
      { q with ma := ra ++ q.ma, mb := rb ++ q.mb }

/-- The four lists of values (src/zksql_poly_iop/util/intermed_bag_calc.rs L40-92).  The merging loop reads as many values as there are active rows,
from the front of the table; afterwards the active rows from the counter on are appended. -/
def vecs (E : Env F C) (av as bv bs : List F) : List F × List F × List F × List F :=
  let na := (actives av as).length
  let nb := (actives bv bs).length
  let q := merge E (na + nb) (av.take na) (bv.take nb)
  let ca := na - q.restA.length
  let cb := nb - q.restB.length
  (q.l ++ actives (av.drop ca) (as.drop ca), q.ma, q.mb, q.r ++ actives (bv.drop cb) (bs.drop cb))

/-- One of the four bags: the values and zeros, ones and zeros (src/zksql_poly_iop/util/intermed_bag_calc.rs L95-106, L109-116). -/
def mles (nv : Nat) (l : List F) : Res (Mle F × Mle F) := do
  let v ← padTo (2 ^ nv) l
  let s ← padTo (2 ^ nv) (List.replicate l.length 1)
  let vm ← Mle.fromEvals nv v
  let sm ← Mle.fromEvals nv s
  .ok (vm, sm)

/-- Committing one of the four bags (src/zksql_poly_iop/util/intermed_bag_calc.rs L117-120). -/
def commitBag (E : Env F C) (q : Mle F × Mle F) : Act (PTracker F C) Bag := do
  let p ← TPoly.trackAndCommit E.commit q.1
  let s ← TPoly.trackAndCommit E.commit q.2
  Bag.new E.debug p s

/-- `bag_lmr_split` (src/zksql_poly_iop/util/intermed_bag_calc.rs L13-123).  Simplification: the evaluation vectors have `2^nv` entries, so the
indexing `a_sel_evals[i]` for `i < 2^nv` does not panic when the selector has the size of the polynomial; otherwise the model panics explicitly. -/
def bag (E : Env F C) (a b : Bag) : Act (PTracker F C) (Bag × Bag × Bag × Bag) := do
  let av ← a.poly.evaluations
  let as ← a.selector.evaluations
  Act.assert (2 ^ a.numVars ≤ as.length)
  let bv ← b.poly.evaluations
  let bs ← b.selector.evaluations
  Act.assert (2 ^ b.numVars ≤ bs.length)
  let q := vecs E av as bv bs
  let l ← Act.lift (mles a.numVars q.1)
  let ma ← Act.lift (mles a.numVars q.2.1)
  let mb ← Act.lift (mles b.numVars q.2.2.1)
  let r ← Act.lift (mles b.numVars q.2.2.2)
  let lBag ← commitBag E l
  let maBag ← commitBag E ma
  let mbBag ← commitBag E mb
  let rBag ← commitBag E r
  pure (lBag, maBag, mbBag, rBag)

/-- `set_lmr_split` (src/zksql_poly_iop/util/intermed_bag_calc.rs L125-145). -/
def set (E : Env F C) (a b : Bag) : Act (PTracker F C) (Bag × Bag × Bag) := do
  let q ← bag E a b
  pure (q.1, if a.numVars < b.numVars then q.2.1 else q.2.2.1, q.2.2.2)

/-! #### With multiplicities -/

/-- What the merging loop of the split with multiplicities has produced and the rows it has not read. -/
structure MAcc (F : Type) where
  l : List (F × Nat)
  m : List (F × Nat × Nat)
  r : List (F × Nat)
  restA : List F
  restB : List F

/-- `while a_evals[a_index] == val` and the following `a_evals[a_index]` (src/zksql_poly_iop/util/intermed_bag_calc.rs L202-208 and three copies): the
number of copies, the value after them, which is what the code pushes, and the rows from there on.  Reaching the end of the table panics. -/
def runOf (val : F) (as : List F) : Res (Nat × F × List F) :=
  match as.dropWhile (· == val) with
  | [] => .error .panic
  | x :: xs => .ok ((as.takeWhile (· == val)).length, x, x :: xs)

/-- The merging loop (src/zksql_poly_iop/util/intermed_bag_calc.rs L198-235): `as` are the rows from `a_index` on, `ka` is the number of active rows
minus `a_index`.  Every round reads at least one row, so the fuel (the number of active rows) suffices. -/
def multMerge (E : Env F C) : Nat → List F → Nat → List F → Nat → Res (MAcc F)
  | 0, as, _, bs, _ => .ok ⟨[], [], [], as, bs⟩
  | n + 1, as, ka, bs, kb =>
    if ka = 0 ∨ kb = 0 then .ok ⟨[], [], [], as, bs⟩
    else
      match as, bs with
      | a :: _, b :: _ =>
        if E.rep a < E.rep b then do
          let x ← runOf a as
          let q ← multMerge E n x.2.2 (ka - x.1) bs kb
          .ok { q with l := (x.2.1, x.1) :: q.l }
        else if E.rep b < E.rep a then do
          let x ← runOf b bs
          let q ← multMerge E n as ka x.2.2 (kb - x.1)
          .ok { q with r := (x.2.1, x.1) :: q.r }
        else do
          let ca := ((as.take ka).takeWhile (· == a)).length
          let cb := ((bs.take kb).takeWhile (· == a)).length
          let q ← multMerge E n (as.drop ca) (ka - ca) (bs.drop cb) (kb - cb)
          .ok { q with m := (a, ca, cb) :: q.m }
      | _, _ => .error .panic

/-- The loops over the remaining rows (src/zksql_poly_iop/util/intermed_bag_calc.rs L236-259): `ss` are the selectors of the rows the loop variable
visits, `as` the rows from `a_index` on. -/
def multTail : List F → List F → Res (List (F × Nat))
  | [], _ => .ok []
  | s :: ss, as =>
    if s = 0 then multTail ss as
    else
      match as with
      | [] => .error .panic
      | a :: _ => do
        let x ← runOf a as
        let q ← multTail ss x.2.2
        .ok ((x.2.1, x.1) :: q)

/-- The lists of values and multiplicities (src/zksql_poly_iop/util/intermed_bag_calc.rs L176-259). -/
def multVecs (E : Env F C) (av as bv bs : List F) : Res (List (F × Nat) × List (F × Nat × Nat) × List (F × Nat)) := do
  let na := (actives av as).length
  let nb := (actives bv bs).length
  let q ← multMerge E (na + nb) av na bv nb
  let l ← multTail (as.drop (av.length - q.restA.length)) q.restA
  let r ← multTail (bs.drop (bv.length - q.restB.length)) q.restB
  .ok (q.l ++ l, q.m, q.r ++ r)

/-- A column of multiplicities (src/zksql_poly_iop/util/intermed_bag_calc.rs L265, L269-270, L274 and L279, L282-283, L286). -/
def multMle (nv : Nat) (l : List Nat) : Res (Mle F) := do
  let v ← padTo (2 ^ nv) (l.map fun k : Nat => (k : F))
  Mle.fromEvals nv v

/-- `bag_lmr_multiplicity_split` (src/zksql_poly_iop/util/intermed_bag_calc.rs L148-297).  The same simplification as for `bag`. -/
def multBag (E : Env F C) (a b : Bag) : Act (PTracker F C) (Bag × Bag × Bag × TPoly × TPoly × TPoly × TPoly) := do
  let av ← a.poly.evaluations
  let as ← a.selector.evaluations
  Act.assert (2 ^ a.numVars ≤ as.length)
  let bv ← b.poly.evaluations
  let bs ← b.selector.evaluations
  Act.assert (2 ^ b.numVars ≤ bs.length)
  let q ← Act.lift (multVecs E av as bv bs)
  let mid := max a.numVars b.numVars
  let l ← Act.lift (mles a.numVars (q.1.map (·.1)))
  let m ← Act.lift (mles mid (q.2.1.map (·.1)))
  let r ← Act.lift (mles b.numVars (q.2.2.map (·.1)))
  let lm ← Act.lift (multMle a.numVars (q.1.map (·.2)))
  let am ← Act.lift (multMle mid (q.2.1.map (·.2.1)))
  let bm ← Act.lift (multMle mid (q.2.1.map (·.2.2)))
  let rm ← Act.lift (multMle b.numVars (q.2.2.map (·.2)))
  let lBag ← commitBag E l
  let mBag ← commitBag E m
  let rBag ← commitBag E r
  let lMul ← TPoly.trackAndCommit E.commit lm
  let aMul ← TPoly.trackAndCommit E.commit am
  let bMul ← TPoly.trackAndCommit E.commit bm
  let rMul ← TPoly.trackAndCommit E.commit rm
  pure (lBag, mBag, rBag, lMul, aMul, bMul, rMul)

end LmrSplit
end Zksql
