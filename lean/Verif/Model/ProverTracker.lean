import Verif.Model.Act
import Verif.Model.VirtualPoly
import Verif.Model.Transcript
/-!
The prover's tracker: src/tracker/prover_tracker.rs, and the handle operations of src/tracker/prover_wrapper.rs.

The tracker behind `Rc<RefCell<..>>` is the state of the calls.  `C` is the type of commitments and `commit` the commitment function with
its parameters.
-/
namespace Zksql
variable {F C : Type} [Field F]

/-- A virtual polynomial: the sum of the coefficient times the product of the named polynomials
(`Vec<(E::ScalarField, Vec<TrackerID>)>`, src/tracker/prover_tracker.rs L57). -/
abbrev VRep (F : Type) := List (F × List Nat)

/-- `ProverTracker` (src/tracker/prover_tracker.rs L52-61).  `TrackerID`s are natural numbers; maps are association lists; `pcs_param` is
the parameter `commit` of the calls that need it; `heap` counts allocated `Arc`s, whose addresses matter to `VirtualPolynomial`. -/
structure PTracker (F C : Type) where
  transcript : Transcript F C
  idCounter : Nat
  heap : Nat
  mats : List (Nat × ArcMle F)
  virts : List (Nat × VRep F)
  comms : List (Nat × C)
  sumClaims : List (Nat × F)
  zeroClaims : List Nat
  deriving DecidableEq, Repr

namespace PTracker

/-- `ProverTracker::new` (src/tracker/prover_tracker.rs L64-75). -/
def new : PTracker F C := ⟨Transcript.new "Initializing Tracnscript", 0, 0, [], [], [], [], []⟩

/-- `gen_id` (src/tracker/prover_tracker.rs L82-86). -/
def genId : Act (PTracker F C) Nat := fun t => (.ok t.idCounter, { t with idCounter := t.idCounter + 1 })

/-- `get_next_id` (src/tracker/prover_tracker.rs L88-90). -/
def getNextId : Act (PTracker F C) Nat := fun t => (.ok t.idCounter, t)

/-- `Arc::new`. -/
def allocArc (p : Mle F) : Act (PTracker F C) (ArcMle F) := fun t => (.ok ⟨t.heap, p⟩, { t with heap := t.heap + 1 })

/-- `track_mat_arc_poly` (src/tracker/prover_tracker.rs L100-112). -/
def trackMatArc (a : ArcMle F) : Act (PTracker F C) Nat := do
  let id ← genId
  Act.modify fun t => { t with mats := amInsert id a t.mats }
  pure id

/-- `track_mat_poly` (src/tracker/prover_tracker.rs L92-98). -/
def trackMat (p : Mle F) : Act (PTracker F C) Nat := do
  let a ← allocArc p
  trackMatArc a

/-- `track_and_commit_mat_poly` (src/tracker/prover_tracker.rs L114-130). -/
def trackAndCommit (commit : Mle F → Res C) (p : Mle F) : Act (PTracker F C) Nat := do
  let c ← Act.lift (commit p)
  let id ← trackMat p
  Act.modify fun t => { t with comms := amInsert id c t.comms }
  Act.modify fun t => { t with transcript := t.transcript.append "comm" (.comm c) }
  pure id

/-- `track_virt_poly` (src/tracker/prover_tracker.rs L132-140). -/
def trackVirt (v : VRep F) : Act (PTracker F C) Nat := do
  let id ← genId
  Act.modify fun t => { t with virts := amInsert id v t.virts }
  pure id

/-- The number of variables of a virtual polynomial: that of the first polynomial of its first product
(src/tracker/prover_tracker.rs L163-165, L376-378, L478-479). -/
def repNv (t : PTracker F C) (v : VRep F) : Res Nat := do
  let term ← idx v 0
  let first ← idx term.2 0
  let a ← unwrap (t.mats.lookup first)
  .ok a.mle.numVars

/-- `get_poly_nv` (src/tracker/prover_tracker.rs L150-167). -/
def getPolyNv (t : PTracker F C) (id : Nat) : Res Nat :=
  match t.mats.lookup id with
  | some a => .ok a.mle.numVars
  | none => match t.virts.lookup id with
    | none => .error .panic
    | some v => t.repNv v

/-- The representation computed by `add_sub_polys` (src/tracker/prover_tracker.rs L169-231). -/
def addSubRep (t : PTracker F C) (p1 p2 : Nat) (doSub : Bool) : Res (VRep F) :=
  let s : F := if doSub then -1 else 1
  match t.mats.lookup p1, t.virts.lookup p1, t.mats.lookup p2, t.virts.lookup p2 with
  | none, none, _, _ => .error .panic
  | _, _, none, none => .error .panic
  | some _, none, some _, none => .ok [(1, [p1]), (s, [p2])]
  | some _, none, none, some v2 => .ok ((1, [p1]) :: v2.map fun q => (s * q.1, q.2))
  | none, some v1, some _, none => .ok (v1 ++ [(s, [p2])])
  | none, some v1, none, some v2 => .ok (v1 ++ v2.map fun q => (s * q.1, q.2))
  | _, _, _, _ => .error .panic

/-- `add_polys` and `sub_polys` (src/tracker/prover_tracker.rs L234-248), through `add_sub_polys`. -/
def addSubPolys (p1 p2 : Nat) (doSub : Bool) : Act (PTracker F C) Nat := do
  let v ← Act.reads fun t => t.addSubRep p1 p2 doSub
  trackVirt v

/-- The representation computed by `mul_polys` (src/tracker/prover_tracker.rs L250-310). -/
def mulRep (t : PTracker F C) (p1 p2 : Nat) : Res (VRep F) :=
  match t.mats.lookup p1, t.virts.lookup p1, t.mats.lookup p2, t.virts.lookup p2 with
  | none, none, _, _ => .error .panic
  | _, _, none, none => .error .panic
  | some _, none, some _, none => .ok [(1, [p1, p2])]
  | some _, none, none, some v2 => .ok (v2.map fun q => (q.1, q.2 ++ [p1]))
  | none, some v1, some _, none => .ok (v1.map fun q => (q.1, q.2 ++ [p2]))
  | none, some v1, none, some v2 => .ok (v1.flatMap fun q1 => v2.map fun q2 => (q1.1 * q2.1, q1.2 ++ q2.2))
  | _, _, _, _ => .error .panic

/-- `mul_polys` (src/tracker/prover_tracker.rs L250-311). -/
def mulPolys (p1 p2 : Nat) : Act (PTracker F C) Nat := do
  let v ← Act.reads fun t => t.mulRep p1 p2
  trackVirt v

/-- `add_scalar` (src/tracker/prover_tracker.rs L313-323): a constant polynomial is tracked and added. -/
def addScalar (p : Nat) (c : F) : Act (PTracker F C) Nat := do
  let nv ← Act.reads fun t => t.getPolyNv p
  let m ← Act.lift (Mle.fromEvals nv (List.replicate (2 ^ nv) c))
  let sid ← trackMat m
  addSubPolys p sid false

/-- The representation computed by `mul_scalar` (src/tracker/prover_tracker.rs L325-342). -/
def mulScalarRep (t : PTracker F C) (p : Nat) (c : F) : Res (VRep F) :=
  match t.mats.lookup p with
  | some _ => .ok [(c, [p])]
  | none => do
    let v ← unwrap (t.virts.lookup p)
    .ok (v.map fun q => (q.1 * c, q.2))

/-- `mul_scalar` (src/tracker/prover_tracker.rs L325-343). -/
def mulScalar (p : Nat) (c : F) : Act (PTracker F C) Nat := do
  let v ← Act.reads fun t => t.mulScalarRep p c
  trackVirt v

/-- One product of `materialize_poly` (src/tracker/prover_tracker.rs L381-391): the coefficient times the tables, entry by entry (`zip` stops at
the shorter).  Simplification: a member that is itself virtual would be materialised by the recursive call; members are always
material (C34), so that case is a panic here. -/
def prodEvals (t : PTracker F C) (nv : Nat) (q : F × List Nat) : Res (List F) := do
  let tabs ← q.2.mapM fun id => do
    let a ← unwrap (t.mats.lookup id)
    .ok a.mle.evals
  .ok (tabs.foldl (fun res e => List.zipWith (· * ·) res e) (List.replicate (2 ^ nv) q.1))

/-- The polynomial computed by `materialize_poly` (src/tracker/prover_tracker.rs L376-402). -/
def materializeRep (t : PTracker F C) (v : VRep F) : Res (Mle F) := do
  let nv ← t.repNv v
  let prods ← v.mapM (t.prodEvals nv)
  Mle.fromEvals nv (prods.foldl (fun res e => List.zipWith (· + ·) res e) (List.replicate (2 ^ nv) 0))

/-- `materialize_poly` (src/tracker/prover_tracker.rs L363-405). -/
def materialize (id : Nat) : Act (PTracker F C) Unit := fun t =>
  match t.mats.lookup id with
  | some _ => (.ok (), t)
  | none => match t.virts.lookup id with
    | none => (.error .panic, t)
    | some v => (do
        let m ← Act.lift (t.materializeRep v)
        let a ← allocArc m
        Act.modify fun t => { t with mats := amInsert id a t.mats, virts := amErase id t.virts } : Act (PTracker F C) Unit) t

/-- `evaluations` (src/tracker/prover_tracker.rs L440-444). -/
def evaluations (id : Nat) : Act (PTracker F C) (List F) := do
  materialize id
  let a ← Act.reads fun t => unwrap (t.mats.lookup id)
  pure a.mle.evals

/-- `dmle_increase_nv_front/back` on an `Arc` (src/tracker/dmle_utils.rs L28-69): the same `Arc` when nothing is added, a new one otherwise. -/
def incArc (inc : Mle F → Nat → Res (Mle F)) (a : ArcMle F) (newNv : Nat) : Act (PTracker F C) (ArcMle F) :=
  if a.mle.numVars = newNv then pure a
  else do
    let m ← Act.lift (inc a.mle newNv)
    allocArc m

/-- `increase_nv_front` and `increase_nv_back` (src/tracker/prover_tracker.rs L345-361), for the respective table function. -/
def increaseNv (inc : Mle F → Nat → Res (Mle F)) (id addedNv : Nat) : Act (PTracker F C) Nat := do
  materialize id
  let a ← Act.reads fun t => unwrap (t.mats.lookup id)
  let b ← incArc inc a (a.mle.numVars + addedNv)
  trackMatArc b

/-- `evaluate` (src/tracker/prover_tracker.rs L407-438): a point of the wrong length is `None` for a material polynomial and a panic
(`unwrap`) inside a virtual one.  Same simplification for virtual members as in `prodEvals`. -/
def evaluate (t : PTracker F C) (id : Nat) (pt : List F) : Res (Option F) :=
  match t.mats.lookup id with
  | some a => .ok (a.mle.evaluate pt)
  | none => match t.virts.lookup id with
    | none => .error .panic
    | some v => do
      let terms ← v.mapM fun q => do
        let vs ← q.2.mapM fun m => do
          let a ← unwrap (t.mats.lookup m)
          unwrap (a.mle.evaluate pt)
        .ok (vs.foldl (· * ·) q.1)
      .ok (some (terms.foldl (· + ·) 0))

/-- `get_and_append_challenge` (src/tracker/prover_tracker.rs L446-448). -/
def challenge (H : Oracle F C) (label : String) : Act (PTracker F C) F := fun t =>
  match t.transcript.challenge H label with
  | .ok (c, tr) => (.ok c, { t with transcript := tr })
  | .error e => (.error e, t)

/-- `append_serializable_element` (src/tracker/prover_tracker.rs L450-456). -/
def append (label : String) (d : TItem F C) : Act (PTracker F C) Unit :=
  Act.modify fun t => { t with transcript := t.transcript.append label d }

/-- `add_sumcheck_claim` (src/tracker/prover_tracker.rs L458-460). -/
def addSumClaim (id : Nat) (s : F) : Act (PTracker F C) Unit :=
  Act.modify fun t => { t with sumClaims := t.sumClaims ++ [(id, s)] }

/-- `add_zerocheck_claim` (src/tracker/prover_tracker.rs L461-463). -/
def addZeroClaim (id : Nat) : Act (PTracker F C) Unit :=
  Act.modify fun t => { t with zeroClaims := t.zeroClaims ++ [id] }

/-- `to_arithmatic_virtual_poly` (src/tracker/prover_tracker.rs L465-486). -/
def toArith (t : PTracker F C) (id : Nat) : Res (VirtPoly F) :=
  match t.mats.lookup id with
  | some a => .ok (VirtPoly.newFromMle a 1)
  | none => match t.virts.lookup id with
    | none => .error .panic
    | some v => do
      let nv ← t.repNv v
      v.foldlM (init := VirtPoly.new nv) fun vp q => do
        let l ← q.2.mapM fun m => unwrap (t.mats.lookup m)
        expectState (vp.addMleList l q.1)

end PTracker

/-- `TrackedPoly` (src/tracker/prover_wrapper.rs L136-144).  Simplification: one tracker at a time, so the `Rc` to it is left out here
(`PHandle` has it) and `assert_same_tracker` holds. -/
structure TPoly where
  id : Nat
  numVars : Nat
  deriving DecidableEq, Repr

namespace TPoly

/-- `ProverTrackerRef::track_mat_poly` (src/tracker/prover_wrapper.rs L50-58). -/
def trackMat (p : Mle F) : Act (PTracker F C) TPoly := do
  let id ← PTracker.trackMat p
  pure ⟨id, p.numVars⟩

/-- `ProverTrackerRef::track_and_commit_poly` (src/tracker/prover_wrapper.rs L60-68). -/
def trackAndCommit (commit : Mle F → Res C) (p : Mle F) : Act (PTracker F C) TPoly := do
  let id ← PTracker.trackAndCommit commit p
  pure ⟨id, p.numVars⟩

/-- `add_poly` (src/tracker/prover_wrapper.rs L167-173). -/
def add (a b : TPoly) : Act (PTracker F C) TPoly := do
  Act.assert (a.numVars = b.numVars)
  let id ← PTracker.addSubPolys a.id b.id false
  pure ⟨id, a.numVars⟩

/-- `sub_poly` (src/tracker/prover_wrapper.rs L175-181). -/
def sub (a b : TPoly) : Act (PTracker F C) TPoly := do
  Act.assert (a.numVars = b.numVars)
  let id ← PTracker.addSubPolys a.id b.id true
  pure ⟨id, a.numVars⟩

/-- `mul_poly` (src/tracker/prover_wrapper.rs L183-189). -/
def mul (a b : TPoly) : Act (PTracker F C) TPoly := do
  Act.assert (a.numVars = b.numVars)
  let id ← PTracker.mulPolys a.id b.id
  pure ⟨id, a.numVars⟩

/-- `add_scalar` (src/tracker/prover_wrapper.rs L191-195). -/
def addScalar (a : TPoly) (c : F) : Act (PTracker F C) TPoly := do
  let id ← PTracker.addScalar a.id c
  pure ⟨id, a.numVars⟩

/-- `mul_scalar` (src/tracker/prover_wrapper.rs L197-201). -/
def mulScalar (a : TPoly) (c : F) : Act (PTracker F C) TPoly := do
  let id ← PTracker.mulScalar a.id c
  pure ⟨id, a.numVars⟩

/-- `increase_nv_front` (src/tracker/prover_wrapper.rs L203-207). -/
def incFront (a : TPoly) (k : Nat) : Act (PTracker F C) TPoly := do
  let id ← PTracker.increaseNv increaseNvFront a.id k
  pure ⟨id, a.numVars + k⟩

/-- `increase_nv_back` (src/tracker/prover_wrapper.rs L209-213). -/
def incBack (a : TPoly) (k : Nat) : Act (PTracker F C) TPoly := do
  let id ← PTracker.increaseNv increaseNvBack a.id k
  pure ⟨id, a.numVars + k⟩

/-- `evaluations` (src/tracker/prover_wrapper.rs L220-224). -/
def evaluations (a : TPoly) : Act (PTracker F C) (List F) := PTracker.evaluations a.id

/-- `evaluate` (src/tracker/prover_wrapper.rs L215-218). -/
def evaluate (t : PTracker F C) (a : TPoly) (pt : List F) : Res (Option F) := t.evaluate a.id pt

/-- `to_arithmatic_virtual_poly` (src/tracker/prover_wrapper.rs L226-229). -/
def toArith (t : PTracker F C) (a : TPoly) : Res (VirtPoly F) := t.toArith a.id

end TPoly
end Zksql
