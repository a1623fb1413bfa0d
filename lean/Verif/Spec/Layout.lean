import Verif.Spec.Joint
/-!
What a user may see of the layout of memory: a hash map visits its entries in an order that changes from one run of the program to the
next, and the addresses of the tables do too.  Here the list that models a map is the order in which a loop visits it.
-/
namespace Zksql.Spec
variable {F C B : Type} [Field F]

/-- Two lists are the same map: no key occurs twice, and every key has the same value. -/
structure SameMap {κ α : Type} [BEq κ] (m m' : List (κ × α)) : Prop where
  once : (m.map (·.1)).Nodup
  once' : (m'.map (·.1)).Nodup
  lookup : ∀ k, m.lookup k = m'.lookup k

/-- Two prover trackers hold the same things: the maps may be visited in another order, and the tables may be at other addresses as long
as the same identifiers share a table.  New addresses are unused. -/
structure SameContents (t t' : PTracker F C) : Prop where
  transcript : t.transcript = t'.transcript
  counter : t.idCounter = t'.idCounter
  sums : t.sumClaims = t'.sumClaims
  zeros : t.zeroClaims = t'.zeroClaims
  virts : SameMap t.virts t'.virts
  comms : SameMap t.comms t'.comms
  mats : SameMap (t.mats.map fun e => (e.1, e.2.mle)) (t'.mats.map fun e => (e.1, e.2.mle))
  shared : ∀ i j a b a' b', t.mats.lookup i = some a → t.mats.lookup j = some b → t'.mats.lookup i = some a' → t'.mats.lookup j = some b' →
    (a.ptr = b.ptr ↔ a'.ptr = b'.ptr)
  unused : ∀ i a, t.mats.lookup i = some a → a.ptr < t.heap
  unused' : ∀ i a, t'.mats.lookup i = some a → a.ptr < t'.heap

/-- A rearrangement of a prover's memory for every moment: other orders of the maps, other addresses of the tables. -/
def Rearranges (d : Nat → PTracker F C → PTracker F C) : Prop := ∀ k t, SameContents t t → SameContents t (d k t)

/-- A history in which memory is rearranged before every call. -/
def runRearranged (d : Nat → PTracker F C → PTracker F C) (commit : Mle F → Res C) (H : Oracle F C) :
    Nat → PState F C → List (POp F C) → Res (PState F C)
  | _, st, [] => .ok st
  | k, st, op :: ops => do
    let st' ← op.run commit H ⟨d k st.tracker, st.handles⟩
    runRearranged d commit H (k + 1) st' ops

/-- `equalize_materialized_poly_nv` (src/tracker/prover_tracker.rs L491-515) with memory rearranged before each of its loops. -/
def equalizeRearranged (d : Nat → PTracker F C → PTracker F C) : Act (PTracker F C) Nat := do
  Act.modify (d 0)
  let nv ← Act.reads PTracker.maxMatNv
  Act.modify (d 1)
  let r ← Act.reads fun t => PTracker.extendMats nv t.mats t.heap
  Act.modify fun t => { t with mats := r.1, heap := r.2 }
  Act.modify (d 2)
  let claims ← Act.reads fun t => .ok t.sumClaims
  let sums ← PTracker.trueSums claims
  Act.modify fun t => { t with sumClaims := List.zipWith (fun c s => (c.1, s)) t.sumClaims sums }
  pure nv

/-- `compile_proof` (src/tracker/prover_tracker.rs L540-624) with memory rearranged between its statements. -/
def compileRearranged [DecidableEq F] (d : Nat → PTracker F C → PTracker F C) (debug : Bool) (pcs : Pcs F C B) (H : Oracle F C) :
    Act (PTracker F C) (CompiledProof F C B) := do
  let nv ← equalizeRearranged d
  Act.modify (d 3)
  PTracker.convertZero H nv
  Act.modify (d 4)
  let z ← Act.lift (PTracker.zeroMle nv)
  let agg0 ← PTracker.trackMat z
  let claims ← Act.reads fun t => .ok t.sumClaims
  let agg ← PTracker.foldSumClaims H claims agg0 0
  Act.modify (d 5)
  PTracker.debugCheck debug agg
  Act.modify (d 6)
  let vp ← Act.reads fun t => t.toArith agg.1
  let pf ← PTracker.proveSumcheck H vp
  Act.modify (d 7)
  let ids ← Act.reads fun t => .ok (PTracker.sortedIds t.comms)
  Act.modify (d 8)
  let polys ← Act.reads fun t => ids.mapM fun id => do
    let a ← unwrap (t.mats.lookup id)
    .ok a.mle
  let evals ← Act.lift (polys.mapM fun p => unwrap (p.evaluate pf.point))
  let bp ← PTracker.openBatch pcs polys (ids.map fun _ => pf.point) evals
  Act.modify (d 9)
  Act.reads fun t => .ok
    { comms := t.comms
      sumcheckClaims := PTracker.claimMap t.sumClaims
      scProof := pf
      scMaxDegree := vp.maxDegree
      scNumVars := vp.numVariables
      queryMap := ids.map fun id => ((id, pf.point), 0)
      pcsProof := [bp] }

/-- Two proofs say the same: their maps may be visited in another order. -/
structure SameProof [DecidableEq F] (p p' : CompiledProof F C B) : Prop where
  comms : SameMap p.comms p'.comms
  claims : SameMap p.sumcheckClaims p'.sumcheckClaims
  answers : SameMap p.queryMap p'.queryMap
  sumcheck : p.scProof = p'.scProof
  degree : p.scMaxDegree = p'.scMaxDegree
  size : p.scNumVars = p'.scNumVars
  openings : p.pcsProof = p'.pcsProof

/-- Two verifier trackers hold the same things. -/
structure SameVerifier [DecidableEq F] (s s' : VSt F C B) : Prop where
  transcript : s.own.transcript = s'.own.transcript
  counter : s.own.idCounter = s'.own.idCounter
  sums : s.own.sumClaims = s'.own.sumClaims
  zeros : s.own.zeroClaims = s'.own.zeroClaims
  comms : SameMap s.own.matComms s'.own.matComms
  proof : SameProof s.own.proof s'.own.proof
  closures : SameMap s.sh.comms s'.sh.comms
  answers : SameMap s.sh.queries s'.sh.queries

/-- A rearrangement of a verifier's memory for every moment. -/
def VRearranges [DecidableEq F] (d : Nat → VSt F C B → VSt F C B) : Prop := ∀ k s, SameVerifier s s → SameVerifier s (d k s)

/-- Two calls of the verifier are the same: a proof handed over may have its maps in another order. -/
def SameCall [DecidableEq F] : VOp F C B → VOp F C B → Prop
  | .setProof p, .setProof p' => SameProof p p'
  | a, b => a = b

/-- A verifier's history in which memory is rearranged before every call. -/
def runVRearranged [DecidableEq F] (d : Nat → VSt F C B → VSt F C B) (debug : Bool) (H : Oracle F C) :
    Nat → VState F C B → List (VOp F C B) → Res (VState F C B)
  | _, vs, [] => .ok vs
  | k, vs, op :: ops => do
    let vs' ← op.run debug H ⟨d k vs.st, vs.handles⟩
    runVRearranged d debug H (k + 1) vs' ops

/-- `verify_claims` (src/tracker/verifier_tracker.rs L367-402) with memory rearranged between its statements. -/
def verifyRearranged [DecidableEq F] (d : Nat → VSt F C B → VSt F C B) (pcs : Pcs F C B) (H : Oracle F C) : Act (VSt F C B) Unit := do
  Act.modify (d 0)
  let agg ← VSt.aggregate H
  Act.modify (d 1)
  let sub ← VSt.checkSumcheck H agg.2
  Act.modify (d 2)
  let ids ← Act.reads fun s => .ok (PTracker.sortedIds s.own.proof.comms)
  Act.modify (d 3)
  let comms ← Act.reads fun s => ids.mapM fun id => unwrap (s.own.matComms.lookup id)
  let bp ← Act.reads fun s => idx s.own.proof.pcsProof 0
  let _ ← VSt.checkBatch pcs comms (ids.map fun _ => sub.point) bp
  pure ()

/-- Two outcomes agree: both succeed with values related by `R`, or both fail in the same way. -/
def AgreeBy {α β : Type} (R : α → β → Prop) : Res α → Res β → Prop
  | .ok a, .ok b => R a b
  | .error e, .error e' => e = e'
  | _, _ => False

end Zksql.Spec
