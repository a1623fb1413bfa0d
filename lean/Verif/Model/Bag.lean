import Verif.Model.VerifierTracker
/-!
Bags and tables: src/tracker/bag.rs.  The multiset check every bag protocol is built on: src/zksql_poly_iop/bag_multitool/bag_multitool.rs.
The checks made of one multiset check or of pointwise claims: bag_eq, bag_sum, bag_no_zeros, selector_valid, bag_inclusion.
-/
namespace Zksql
variable {F C B : Type} [Field F] [DecidableEq F]

/-- What the protocols are compiled with: the commitment function of the PCS, the challenge function behind the transcript, `cfg(debug_assertions)`,
and the integer behind a field element (arkworks orders field elements by it). -/
structure Env (F C : Type) where
  commit : Mle F → Res C
  H : Oracle F C
  debug : Bool
  rep : F → Nat

/-- The same run with another oracle. -/
def Env.withH {F C : Type} (E : Env F C) (H : Oracle F C) : Env F C := { E with H := H }

/-- `Bag` (src/tracker/bag.rs L11-14). -/
structure Bag where
  poly : TPoly
  selector : TPoly
  deriving DecidableEq, Repr

/-- `BagComm` (src/tracker/bag.rs L43-47). -/
structure BagComm where
  poly : Nat
  selector : Nat
  numVars : Nat
  deriving DecidableEq, Repr

/-- `Table` (src/tracker/bag.rs L66-69). -/
structure Table where
  colVals : List TPoly
  selector : TPoly
  deriving DecidableEq, Repr

/-- `TableComm` (src/tracker/bag.rs L100-104). -/
structure TableComm where
  colVals : List Nat
  selector : Nat
  numVars : Nat
  deriving DecidableEq, Repr

namespace Bag

/-- `Bag::num_vars` (src/tracker/bag.rs L29-31): the size of the polynomial, not of the selector. -/
def numVars (b : Bag) : Nat := b.poly.numVars

/-- `Bag::new` (src/tracker/bag.rs L17-27).  Simplification: there is one tracker, so `same_tracker` holds. -/
def new {S : Type} (debug : Bool) (poly selector : TPoly) : Act S Bag := do
  Act.assert (debug = true → poly.numVars = selector.numVars)
  pure ⟨poly, selector⟩

end Bag

namespace Table

/-- `Table::num_vars` (src/tracker/bag.rs L86-88). -/
def numVars (t : Table) : Nat := t.selector.numVars

/-- `Table::new` (src/tracker/bag.rs L72-84). -/
def new {S : Type} (debug : Bool) (colVals : List TPoly) (selector : TPoly) : Act S Table := do
  Act.assert (debug = true → ∀ p ∈ colVals, p.numVars = selector.numVars)
  pure ⟨colVals, selector⟩

end Table

/-- `DenseMultilinearExtension::from_evaluations_vec(nv, vec![one; 2^nv])` (e.g. src/zksql_poly_iop/bag_eq/bag_eq.rs L31); the length is right by
construction. -/
def onesMle (F : Type) [Field F] (nv : Nat) : Mle F := ⟨nv, List.replicate (2 ^ nv) 1⟩

/-- The closure returning one (e.g. src/zksql_poly_iop/bag_eq/bag_eq.rs L47). -/
def oneFn (F : Type) [Field F] : VComm F := .fn fun _ => .ok 1

/-! ### The multiset check -/
namespace Multitool

/-- The loop computing the sum to be claimed (src/zksql_poly_iop/bag_multitool/bag_multitool.rs L91-94): reads out of range panic. -/
def sumLoop (phat m sel : List F) : List Nat → F → Res F
  | [], v => .ok v
  | i :: is, v => do
    let a ← idx phat i
    let b ← idx m i
    let c ← idx sel i
    sumLoop phat m sel is (v + a * b * c)

/-- `prove_generate_subclaims` (src/zksql_poly_iop/bag_multitool/bag_multitool.rs L72-109).  `batch_inversion` leaves zeros alone, as `⁻¹` does. -/
def proveSub (E : Env F C) (bag : Bag) (m : TPoly) (γ : F) : Act (PTracker F C) Unit := do
  let pEvals ← bag.poly.evaluations
  let phatEvals := pEvals.map fun x => (x - γ)⁻¹
  let phatMle ← Act.lift (Mle.fromEvals bag.numVars phatEvals)
  let mEvals ← m.evaluations
  let selEvals ← bag.selector.evaluations
  let v ← Act.lift (sumLoop phatEvals mEvals selEvals (List.range (2 ^ bag.numVars)) 0)
  let phat ← TPoly.trackAndCommit E.commit phatMle
  let pm ← phat.mul m
  let sumPoly ← pm.mul bag.selector
  let pp ← bag.poly.mul phat
  let gp ← phat.mulScalar γ
  let d ← pp.sub gp
  let check ← d.addScalar (-1)
  PTracker.addSumClaim sumPoly.id v
  PTracker.addZeroClaim check.id

/-- The loops over the bags (src/zksql_poly_iop/bag_multitool/bag_multitool.rs L61-67). -/
def proveSubs (E : Env F C) (γ : F) : List (Bag × TPoly) → Act (PTracker F C) Unit
  | [] => pure ()
  | (b, m) :: r => do
    proveSub E b m γ
    proveSubs E γ r

/-- The shape checks of `BagMultitoolIOP::prove` on one side (src/zksql_poly_iop/bag_multitool/bag_multitool.rs L22-37, L39-54). -/
def shapeOk (xs : List Bag) (ms : List TPoly) : Bool :=
  !xs.isEmpty && xs.length == ms.length && (xs.zip ms).all fun q => q.1.numVars == q.2.numVars

/-- `BagMultitoolIOP::prove` (src/zksql_poly_iop/bag_multitool/bag_multitool.rs L14-70). -/
def prove (E : Env F C) (fxs gxs : List Bag) (mfxs mgxs : List TPoly) : Act (PTracker F C) Unit :=
  if !shapeOk fxs mfxs then Act.lift (.error (.err .invalidParameters))
  else if !shapeOk gxs mgxs then Act.lift (.error (.err .invalidParameters))
  else do
    let γ ← PTracker.challenge E.H "gamma"
    proveSubs E γ (fxs.zip mfxs)
    proveSubs E γ (gxs.zip mgxs)

/-- `verify_generate_subclaims` (src/zksql_poly_iop/bag_multitool/bag_multitool.rs L173-195). -/
def verifySub (E : Env F C) (bag : BagComm) (m : Nat) (γ : F) : Act (VSt F C B) F := do
  let phatId ← VSt.getNextId
  let phat ← VSt.transferComm E.debug phatId
  let pm ← VSt.mulComms phat m
  let sumComm ← VSt.mulComms pm bag.selector
  let pp ← VSt.mulComms bag.poly phat
  let gp ← VSt.mulScalar phat γ
  let d ← VSt.subComms pp gp
  let check ← VSt.addScalar d (-1)
  let v ← VSt.claimedSum sumComm
  VSt.addSumClaim sumComm v
  VSt.addZeroClaim check
  pure v

/-- `sum_claim_v / E::ScalarField::from(2_usize.pow(k) as u64)` (src/zksql_poly_iop/bag_multitool/bag_multitool.rs L149-150): division by zero
panics.  Simplification: `usize` does not overflow. -/
def divPow2 (v : F) (k : Nat) : Res F := if (2 : F) ^ k = 0 then .error .panic else .ok (v / 2 ^ k)

/-- The loops of `verify` (src/zksql_poly_iop/bag_multitool/bag_multitool.rs L145-159). -/
def verifySubs (E : Env F C) (γ : F) (maxNv : Nat) : List (BagComm × Nat) → F → Act (VSt F C B) F
  | [], acc => pure acc
  | (b, m) :: r, acc => do
    let v ← verifySub E b m γ
    let adj ← Act.lift (divPow2 v (maxNv - b.numVars))
    verifySubs E γ maxNv r (acc + adj)

/-- `iter().map(num_vars).max().unwrap()` on a non-empty list (src/zksql_poly_iop/bag_multitool/bag_multitool.rs L142-144). -/
def maxNv (xs : List BagComm) : Nat := (xs.map (·.numVars)).foldl max 0

/-- `BagMultitoolIOP::verify` (src/zksql_poly_iop/bag_multitool/bag_multitool.rs L111-171). -/
def verify (E : Env F C) (fxs gxs : List BagComm) (mfxs mgxs : List Nat) : Act (VSt F C B) Unit :=
  if fxs.isEmpty || fxs.length != mfxs.length then Act.lift (.error (.err .invalidParameters))
  else if gxs.isEmpty || gxs.length != mgxs.length then Act.lift (.error (.err .invalidParameters))
  else do
    let γ ← VSt.challenge E.H "gamma"
    let top := max (maxNv fxs) (maxNv gxs)
    let lhs ← verifySubs E γ top (fxs.zip mfxs) 0
    let rhs ← verifySubs E γ top (gxs.zip mgxs) 0
    if lhs = rhs then pure () else Act.lift (.error (.err .invalidVerifier))

end Multitool

/-! ### Equality and sum -/

/-- `BagEqIOP::prove` (src/zksql_poly_iop/bag_eq/bag_eq.rs L16-40). -/
def BagEq.prove (E : Env F C) (fx gx : Bag) : Act (PTracker F C) Unit :=
  if fx.numVars ≠ gx.numVars then Act.lift (.error (.err .invalidParameters))
  else do
    let mx ← TPoly.trackMat (onesMle F fx.numVars)
    Multitool.prove E [fx] [gx] [mx] [mx]

/-- `BagEqIOP::verify` (src/zksql_poly_iop/bag_eq/bag_eq.rs L42-51). -/
def BagEq.verify (E : Env F C) (fx gx : BagComm) : Act (VSt F C B) Unit := do
  let one ← VSt.trackVirtual (oneFn F)
  Multitool.verify E [fx] [gx] [one] [one]

/-- `BagSumIOP::prove` (src/zksql_poly_iop/bag_sum/bag_sum.rs L15-35). -/
def BagSum.prove (E : Env F C) (fx0 fx1 gx : Bag) : Act (PTracker F C) Unit := do
  let m0 ← TPoly.trackMat (onesMle F fx0.numVars)
  let m1 ← TPoly.trackMat (onesMle F fx1.numVars)
  let mg ← TPoly.trackMat (onesMle F gx.numVars)
  Multitool.prove E [fx0, fx1] [gx] [m0, m1] [mg]

/-- `BagSumIOP::verify` (src/zksql_poly_iop/bag_sum/bag_sum.rs L37-52): the first of the three closures is used everywhere. -/
def BagSum.verify (E : Env F C) (fx0 fx1 gx : BagComm) : Act (VSt F C B) Unit := do
  let one ← VSt.trackVirtual (oneFn F)
  let _ ← VSt.trackVirtual (oneFn F)
  let _ ← VSt.trackVirtual (oneFn F)
  Multitool.verify E [fx0, fx1] [gx] [one, one] [one]

/-! ### Pointwise checks -/

/-- `BagNoZerosIOP::prove` (src/zksql_poly_iop/bag_no_zeros/mod.rs L15-35). -/
def NoZeros.prove (E : Env F C) (bag : Bag) : Act (PTracker F C) Unit := do
  let evals ← bag.poly.evaluations
  let invMle ← Act.lift (Mle.fromEvals bag.numVars (evals.map fun x => x⁻¹))
  let inv ← TPoly.trackAndCommit E.commit invMle
  let ps ← bag.poly.mul bag.selector
  let psi ← ps.mul inv
  let check ← psi.sub bag.selector
  PTracker.addZeroClaim check.id

/-- `BagNoZerosIOP::verify` (src/zksql_poly_iop/bag_no_zeros/mod.rs L37-49). -/
def NoZeros.verify (E : Env F C) (bag : BagComm) : Act (VSt F C B) Unit := do
  let invId ← VSt.getNextId
  let inv ← VSt.transferComm E.debug invId
  let ps ← VSt.mulComms bag.poly bag.selector
  let psi ← VSt.mulComms ps inv
  let check ← VSt.subComms psi bag.selector
  VSt.addZeroClaim check

/-- `SelectorValidIOP::prove` (src/zksql_poly_iop/selector_valid/selector_valid.rs L15-27). -/
def SelectorValid.prove (sel : TPoly) : Act (PTracker F C) Unit := do
  let n ← sel.mulScalar (-1)
  let oneMinus ← n.addScalar 1
  let check ← sel.mul oneMinus
  PTracker.addZeroClaim check.id

/-- `SelectorValidIOP::verify` (src/zksql_poly_iop/selector_valid/selector_valid.rs L29-38). -/
def SelectorValid.verify (sel : Nat) : Act (VSt F C B) Unit := do
  let n ← VSt.mulScalar sel (-1)
  let oneMinus ← VSt.addScalar n 1
  let check ← VSt.mulComms sel oneMinus
  VSt.addZeroClaim check

end Zksql
