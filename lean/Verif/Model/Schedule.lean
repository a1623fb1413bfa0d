import Verif.Model.SumCheck
import Verif.Model.VerifierTracker
/-!
The parallel loops of the crate with every division of the work among threads and every order of the pieces: a computation is the set
of its possible outcomes.  The other files have one outcome, the one of a single thread; C97 says when that is enough.  What rayon does
is modelled from its documentation: a parallel iterator is split into consecutive pieces, pieces run in any order and at the same time,
items of one piece run in order, a panic in any piece is passed on once the other pieces have stopped.
-/
namespace Zksql
variable {F C B : Type}

/-- The possible outcomes of a computation that several threads share. -/
def Outcomes (α : Type) : Type := Res α → Prop

namespace Outcomes

/-- The one outcome of code that runs on one thread. -/
def of {α : Type} (r : Res α) : Outcomes α := fun x => x = r

/-- One computation after another; a failure of the first is the outcome of both. -/
def bind {α β : Type} (m : Outcomes α) (f : α → Outcomes β) : Outcomes β := fun x =>
  (∃ a, m (.ok a) ∧ f a x) ∨ ∃ e, m (.error e) ∧ x = .error e

instance : Monad Outcomes where
  pure a := of (.ok a)
  bind := bind

end Outcomes

namespace Par

/-- `for_each` over `par_iter_mut().enumerate()` when the cells are visited in the order `order`: cell `i` becomes `g i` of what it
holds.  A panic ends the loop. -/
def runWrites {β : Type} (g : Nat → β → Res β) : List Nat → List β → Res (List β)
  | [], cells => .ok cells
  | i :: is, cells => do
    let c ← idx cells i
    let c' ← g i c
    runWrites g is (cells.set i c')

/-- `par_iter_mut().enumerate().for_each(..)` (rayon): every cell is visited once, in any order. -/
def updateAll {β : Type} (g : Nat → β → Res β) (cells : List β) : Outcomes (List β) := fun x =>
  ∃ order : List Nat, order.Perm (List.range cells.length) ∧ x = runWrites g order cells

/-- `.map(f).collect::<Vec<_>>()` on a parallel iterator of known length (rayon): every item is written to its own place, in any order. -/
def collectAll {β : Type} (n : Nat) (f : Nat → Res β) : Outcomes (List β) := do
  let cells ← updateAll (fun i _ => (f i).map some) (List.replicate n (none : Option β))
  Outcomes.of (cells.mapM unwrap)

/-- How rayon divides a range of items: a piece for one thread, or a split after the first `k` items. -/
inductive Split where
  | leaf
  | node (k : Nat) (l r : Split)

/-- `.fold(z, step).map(fin).reduce(z', op)` (rayon) for a given division: a piece is folded from a new `z` and then combined with a new
`z'`; two pieces are combined from left to right.  A panic in a piece is the outcome of the whole. -/
def foldReduce {α β γ : Type} (z : β) (step : β → α → Res β) (fin : β → γ) (z' : γ) (op : γ → γ → γ) : Split → List α → Res γ
  | .leaf, xs => do
    let b ← xs.foldlM step z
    .ok (op z' (fin b))
  | .node k l r, xs =>
    match foldReduce z step fin z' op l (xs.take k), foldReduce z step fin z' op r (xs.drop k) with
    | .ok a, .ok b => .ok (op a b)
    | _, _ => .error .panic

/-- The first returned error among the items that were worked on, in the order in which they were. -/
def firstErr {α : Type} (items : List (Res α)) : List Nat → Option ErrKind
  | [] => none
  | i :: is =>
    match items[i]? with
    | some (.error (.err e)) => some e
    | _ => firstErr items is

/-- `.collect::<Result<Vec<_>, _>>()` on a parallel iterator (rayon).  `done` lists the items that some thread has worked on, in the order in which
the results came in.  All items are, unless an error has come in: then work that has not been started is dropped.  A panic goes to the
caller; otherwise the error that came in first is returned. -/
def collectResult {α : Type} (items : List (Res α)) : Outcomes (List α) := fun x =>
  ∃ done : List Nat, done.Nodup ∧ (∀ i ∈ done, i < items.length) ∧
    ((∀ i < items.length, i ∈ done) ∨ (firstErr items done).isSome) ∧
    x = if done.any (fun i => match items[i]? with | some (.error .panic) => true | _ => false) then .error .panic
        else match firstErr items done with
          | some e => .error (.err e)
          | none => items.mapM id

variable [Field F]

/-- `fix_one_variable_helper` (src/arithmetic/multilinear_polynomial.rs L159-174): the cells of the new table are written by several
threads.  Reads as in `fixOnePar`. -/
def fixOne (data : List F) (nv : Nat) (r : F) : Outcomes (List F) :=
  updateAll (fun i _ => .ok (data.getD (2 * i) 0 + (data.getD (2 * i + 1) 0 - data.getD (2 * i) 0) * r))
    (List.replicate (2 ^ (nv - 1)) 0)

/-- Loop of `fix_variables` (src/arithmetic/multilinear_polynomial.rs L152-154). -/
def fixLoop : List F → Nat → List F → Outcomes (List F)
  | data, _, [] => pure data
  | data, nv, r :: rs => do
    let d ← fixOne data nv r
    fixLoop d (nv - 1) rs

/-- `fix_variables` (src/arithmetic/multilinear_polynomial.rs L140-157). -/
def fixVariables (p : Mle F) (pt : List F) : Outcomes (Mle F) :=
  if pt.length ≤ p.numVars then do
    let d ← fixLoop p.evals p.numVars pt
    Outcomes.of (Mle.fromEvals (p.numVars - pt.length) (d.take (2 ^ (p.numVars - pt.length))))
  else Outcomes.of (.error .panic)

/-- `evaluate_opt` (src/arithmetic/multilinear_polynomial.rs L135-138). -/
def evaluateOpt (p : Mle F) (pt : List F) : Outcomes F :=
  if p.numVars = pt.length then do
    let q ← fixVariables p pt
    Outcomes.of (match q.evals[0]? with
      | some v => .ok v
      | none => .error .panic)
  else Outcomes.of (.error .panic)

/-- `fix_last_variable_helper` (src/arithmetic/multilinear_polynomial.rs L270-286). -/
def fixLastOne (data : List F) (nv : Nat) (r : F) : Outcomes (List F) :=
  updateAll (fun i _ => .ok (data.getD i 0 + (data.getD (i + 2 ^ (nv - 1)) 0 - data.getD i 0) * r))
    (List.replicate (2 ^ (nv - 1)) 0)

/-- Loop of `fix_last_variables` (src/arithmetic/multilinear_polynomial.rs L263-265), over the already reversed point. -/
def fixLastLoop : List F → Nat → List F → Outcomes (List F)
  | data, _, [] => pure data
  | data, nv, r :: rs => do
    let d ← fixLastOne data nv r
    fixLastLoop d (nv - 1) rs

/-- `fix_last_variables` (src/arithmetic/multilinear_polynomial.rs L251-268). -/
def fixLastVariables (p : Mle F) (pt : List F) : Outcomes (Mle F) :=
  if pt.length ≤ p.numVars then do
    let d ← fixLastLoop p.evals p.numVars pt.reverse
    Outcomes.of (Mle.fromEvals (p.numVars - pt.length) (d.take (2 ^ (p.numVars - pt.length))))
  else Outcomes.of (.error .panic)

/-- `build_eq_x_r_helper` (src/arithmetic/virtual_polynomial.rs L410-446). -/
def buildEqHelper : List F → Outcomes (List F)
  | [] => Outcomes.of (.error (.err .invalidParameters))
  | [r] => pure [1 - r, r]
  | r :: r' :: rs => do
    let buf ← buildEqHelper (r' :: rs)
    updateAll (fun i _ => do
      let b ← idx buf (i / 2)
      let tmp := r * b
      .ok (if i % 2 = 0 then b - tmp else tmp)) (List.replicate (2 * buf.length) 0)

/-- `build_eq_x_r` (src/arithmetic/virtual_polynomial.rs L374-381). -/
def buildEq (r : List F) : Outcomes (Mle F) := do
  let evals ← buildEqHelper r
  Outcomes.of (Mle.fromEvals r.length evals)

/-- Filling the buffer that a thread carries from item to item (src/subroutines/poly_iop/sum_check/prover.rs L122-128): each place is
overwritten, as far as there are multiplicands. -/
def fillBuf (tables : List (Mle F)) (b : Nat) : List (F × F) → List Nat → Res (List (F × F))
  | _ :: buf, f :: p => do
    let t ← idx tables f
    let e0 ← idx t.evals (2 * b)
    let e1 ← idx t.evals (2 * b + 1)
    let rest ← fillBuf tables b buf p
    .ok ((e0, e1 - e0) :: rest)
  | buf, _ => .ok buf

/-- The buffer after the running products have been formed (src/subroutines/poly_iop/sum_check/prover.rs L130-131). -/
def stepBuf : Nat → List (F × F) → List (F × F)
  | 0, buf => buf
  | k + 1, buf => stepBuf k (buf.map fun es => (es.1 + es.2, es.2))

/-- One item of the fold (src/subroutines/poly_iop/sum_check/prover.rs L121-135): buffer and accumulator. -/
def sumStep (tables : List (Mle F)) (p : List Nat) (s : List (F × F) × List F) (b : Nat) : Res (List (F × F) × List F) := do
  let buf ← fillBuf tables b s.1 p
  .ok (stepBuf p.length buf, List.zipWith (· + ·) s.2 (stepEvals p.length buf))

/-- Sum over the remaining hypercube of one product (src/subroutines/poly_iop/sum_check/prover.rs L112-147), for any division of the range. -/
def productSum (tables : List (Mle F)) (p : List Nat) (nb : Nat) : Outcomes (List F) := fun x =>
  ∃ s : Split, x = foldReduce (List.replicate p.length ((0 : F), (0 : F)), List.replicate (p.length + 1) (0 : F)) (sumStep tables p)
    (·.2) (List.replicate (p.length + 1) (0 : F)) (List.zipWith (· + ·)) s (List.range nb)

/-- One product's contribution to the message (src/subroutines/poly_iop/sum_check/prover.rs L148-161). -/
def productMsg (aux : List (List F × List F)) (maxDegree : Nat) (tables : List (Mle F)) (nb : Nat) (cp : F × List Nat) :
    Outcomes (List F) := do
  let sum0 ← productSum tables cp.2 nb
  let sum := sum0.map (· * cp.1)
  if maxDegree < cp.2.length then Outcomes.of (.error .panic)
  else do
    let ext ← collectAll (maxDegree - cp.2.length) fun i =>
      if cp.2.length = 0 then .error .panic
      else do
        let pw ← idx aux (cp.2.length - 1)
        .ok (extrapolate pw.1 pw.2 sum ((cp.2.length + 1 + i : Nat) : F))
    pure (sum ++ ext)

/-- The tables of the round (src/subroutines/poly_iop/sum_check/prover.rs L82-103): copied by several threads, then the next variable is fixed in
each, by several threads.  Each call of `fix_variables` shares its own loop in turn. -/
def takeChallenge (st : ProverState F) (challenge : Option F) : Outcomes (List F × List (Mle F)) := do
  let copies ← collectAll st.poly.flat.length fun i => (idx st.poly.flat i).map (·.mle)
  match challenge with
  | some c =>
    if st.round = 0 then Outcomes.of (.error (.err .invalidProver))
    else do
      let chals := st.challenges ++ [c]
      let r ← Outcomes.of (idx chals (st.round - 1))
      fun x => ∃ fixed : Nat → Mle F → Res (Mle F), (∀ i m, fixVariables m [r] (fixed i m)) ∧
        (do let ts ← updateAll fixed copies
            pure (chals, ts) : Outcomes _) x
  | none =>
    if 0 < st.round then Outcomes.of (.error (.err .invalidProver))
    else pure (st.challenges, copies)

/-- Loop over the products (src/subroutines/poly_iop/sum_check/prover.rs L112-166), on one thread. -/
def sumProducts (aux : List (List F × List F)) (maxDegree : Nat) (tables : List (Mle F)) (nb : Nat) :
    List (F × List Nat) → List F → Outcomes (List F)
  | [], acc => pure acc
  | cp :: cps, acc => do
    let m ← productMsg aux maxDegree tables nb cp
    sumProducts aux maxDegree tables nb cps ((List.range acc.length).map fun i => acc.getD i 0 + m.getD i 0)

/-- `prove_round_and_update_state` (src/subroutines/poly_iop/sum_check/prover.rs L57-181). -/
def proveRound (st : ProverState F) (challenge : Option F) : Outcomes (List F × ProverState F) :=
  if st.poly.numVariables ≤ st.round then Outcomes.of (.error (.err .invalidProver))
  else do
    let (chals, tables) ← takeChallenge st challenge
    let round := st.round + 1
    let msg ← sumProducts st.extrapolationAux st.poly.maxDegree tables (2 ^ (st.poly.numVariables - round)) st.poly.products
      (List.replicate (st.poly.maxDegree + 1) (0 : F))
    let kept ← collectAll tables.length fun i => idx tables i
    pure (msg, { st with challenges := chals, round := round, poly := setTables st.poly kept })

/-- Round loop of `SumCheck::prove` (src/subroutines/poly_iop/sum_check/mod.rs L165-171). -/
def proveLoop (H : Oracle F C) : Nat → ProverState F → Option F → Transcript F C →
    Outcomes (List (List F) × ProverState F × Option F × Transcript F C)
  | 0, st, ch, tr => pure ([], st, ch, tr)
  | n + 1, st, ch, tr => do
    let (msg, st) ← proveRound st ch
    let tr := tr.append "prover msg" (.elems msg)
    let (c, tr) ← Outcomes.of (tr.challenge H "Internal round")
    let (msgs, st, ch, tr) ← proveLoop H n st (some c) tr
    pure (msg :: msgs, st, ch, tr)

/-- `SumCheck::prove` (src/subroutines/poly_iop/sum_check/mod.rs L154-182). -/
def sumcheckProve (H : Oracle F C) (vp : VirtPoly F) (tr : Transcript F C) : Outcomes (IOPProof F × Transcript F C) := do
  let tr := tr.append "aux info" (.aux vp.maxDegree vp.numVariables)
  let st ← Outcomes.of (proverInit vp)
  let (msgs, st, ch, tr) ← proveLoop H vp.numVariables st none tr
  let point := match ch with
    | some p => st.challenges ++ [p]
    | none => st.challenges
  pure (⟨point, msgs⟩, tr)

/-- `ZeroCheck::prove` (src/subroutines/poly_iop/zero_check/mod.rs L69-82). -/
def zerocheckProve (H : Oracle F C) (vp : VirtPoly F) (fresh : Nat) (tr : Transcript F C) :
    Outcomes (IOPProof F × Transcript F C) := do
  let (r, tr) ← Outcomes.of (tr.challenges H "0check r" vp.numVariables)
  let fhat ← (if vp.numVariables ≠ r.length then Outcomes.of (.error (.err .invalidParameters)) else do
    let e ← buildEq r
    Outcomes.of (tryState (vp.mulByMle ⟨fresh, e⟩ 1)))
  sumcheckProve H fhat tr

variable [DecidableEq F]

/-- `check_and_generate_subclaim` (src/subroutines/poly_iop/sum_check/verifier.rs L97-176). -/
def checkAndGenerateSubclaim (st : VerifierState F) (assertedSum : F) : Outcomes (SubClaim F) :=
  if ¬ st.finished then Outcomes.of (.error (.err .invalidVerifier))
  else if st.polynomialsReceived.length ≠ st.numVars then Outcomes.of (.error (.err .invalidVerifier))
  else do
    let expected ← collectResult ((st.polynomialsReceived.zip st.challenges).map fun pc =>
      if pc.1.length ≠ st.maxDegree + 1 then .error (.err .invalidVerifier)
      else interpolateUniPoly pc.1 pc.2)
    let expectedVec := assertedSum :: expected
    Outcomes.of (deferredChecks (st.polynomialsReceived.take st.numVars) expectedVec)
    let last ← Outcomes.of (idx expectedVec st.numVars)
    pure ⟨st.challenges, last⟩

/-- `SumCheck::verify` (src/subroutines/poly_iop/sum_check/mod.rs L184-208). -/
def sumcheckVerify (H : Oracle F C) (claimedSum : F) (pf : IOPProof F) (maxDegree numVars : Nat) (tr : Transcript F C) :
    Outcomes (SubClaim F × Transcript F C) := do
  let tr := tr.append "aux info" (.aux maxDegree numVars)
  let (st, tr) ← Outcomes.of (verifyLoop H pf numVars 0 (verifierInit maxDegree numVars) tr)
  let sub ← checkAndGenerateSubclaim st claimedSum
  pure (sub, tr)

/-- `ZeroCheck::verify` (src/subroutines/poly_iop/zero_check/mod.rs L84-120). -/
def zerocheckVerify (H : Oracle F C) (pf : IOPProof F) (maxDegree numVars : Nat) (tr : Transcript F C) :
    Outcomes (ZeroSubClaim F × Transcript F C) := do
  let m ← Outcomes.of (idx pf.proofs 0)
  let a ← Outcomes.of (idx m 0)
  let b ← Outcomes.of (idx m 1)
  if a + b ≠ 0 then Outcomes.of (.error (.err .invalidProof))
  else do
    let (r, tr) ← Outcomes.of (tr.challenges H "0check r" numVars)
    let (sub, tr) ← sumcheckVerify H 0 pf (maxDegree + 1) numVars tr
    let e ← Outcomes.of (eqEval sub.point r)
    let ex ← Outcomes.of (fdiv sub.expectedEvaluation e)
    pure (⟨sub.point, ex, r⟩, tr)

/-- `SumCheck::verify` on the tracker's transcript (src/tracker/verifier_tracker.rs L385-389), given what the call comes to. -/
def checkSumcheck (H : Oracle F C) (ran : Res (SubClaim F × Transcript F C)) : Act (VSt F C B) (SubClaim F) := fun st =>
  match ran with
  | .ok (sub, tr) => (.ok sub, { st with own := { st.own with transcript := tr } })
  | .error .panic => (.error .panic, { st with own := { st.own with transcript := sumcheckVerifyTrail H st.own.proof.scProof st.own.proof.scMaxDegree st.own.proof.scNumVars st.own.transcript } })
  | .error (.err _) => (.error (.err .invalidVerifier), { st with own := { st.own with transcript := sumcheckVerifyTrail H st.own.proof.scProof st.own.proof.scMaxDegree st.own.proof.scNumVars st.own.transcript } })

/-- `verify_claims` (src/tracker/verifier_tracker.rs L367-402): what it may return and leave behind.  `ran` is an outcome of the shared loop in
`SumCheck::verify`, for whatever call is made. -/
def verifyClaims (pcs : Pcs F C B) (H : Oracle F C) (st : VSt F C B) (out : Res Unit × VSt F C B) : Prop :=
  ∃ ran : F → VSt F C B → Res (SubClaim F × Transcript F C),
    (∀ s t, sumcheckVerify H s t.own.proof.scProof t.own.proof.scMaxDegree t.own.proof.scNumVars t.own.transcript (ran s t)) ∧
    out = (do
      let agg ← VSt.aggregate H
      let sub ← (fun t => checkSumcheck H (ran agg.2 t) t : Act (VSt F C B) (SubClaim F))
      let ids ← Act.reads fun s => .ok (PTracker.sortedIds s.own.proof.comms)
      let comms ← Act.reads fun s => ids.mapM fun id => unwrap (s.own.matComms.lookup id)
      let bp ← Act.reads fun s => idx s.own.proof.pcsProof 0
      let _ ← VSt.checkBatch pcs comms (ids.map fun _ => sub.point) bp
      pure () : Act (VSt F C B) Unit) st

end Par
end Zksql
