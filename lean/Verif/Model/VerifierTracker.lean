import Verif.Model.Compile
/-!
The verifier's tracker: src/tracker/verifier_tracker.rs, and the handle operations of src/tracker/verifier_wrapper.rs.
-/
namespace Zksql
variable {F C B : Type} [Field F]

/-- The closures stored in `virtual_comms`, by what they capture (src/tracker/verifier_tracker.rs L83-88, L99-110, L134-145, L161-171, L186-197,
L214-223, L238-247, L258-268, L279-289). -/
inductive VComm (F : Type) where
  | query (id : Nat)
  | fn (f : List F → Res F)
  | add (i j : Nat)
  | sub (i j : Nat)
  | mul (i j : Nat)
  | addScalar (i : Nat) (c : F)
  | mulScalar (i : Nat) (c : F)
  | incFront (i k : Nat)
  | incBack (i k : Nat)

/-- The two maps behind `Rc<RefCell<..>>` (src/tracker/verifier_tracker.rs L42-43): shared by all clones of a tracker. -/
structure VShared (F : Type) where
  comms : List (Nat × VComm F)
  queries : List ((Nat × List F) × F)

/-- The fields of `VerifierTracker` that a clone copies (src/tracker/verifier_tracker.rs L37-47).  `pcs_params` is a parameter of the calls. -/
structure VTracker (F C B : Type) where
  transcript : Transcript F C
  idCounter : Nat
  matComms : List (Nat × C)
  sumClaims : List (Nat × F)
  zeroClaims : List Nat
  proof : CompiledProof F C B

/-- A tracker together with the shared maps. -/
structure VSt (F C B : Type) where
  own : VTracker F C B
  sh : VShared F

namespace VSt

/-- `VerifierTracker::new` (src/tracker/verifier_tracker.rs L50-62). -/
def new : VSt F C B := ⟨⟨Transcript.new "Initializing Tracnscript", 0, [], [], [], CompiledProof.default⟩, ⟨[], []⟩⟩

/-- `gen_id` (src/tracker/verifier_tracker.rs L64-68). -/
def genId : Act (VSt F C B) Nat := fun s => (.ok s.own.idCounter, { s with own := { s.own with idCounter := s.own.idCounter + 1 } })

/-- `get_next_id` (src/tracker/verifier_tracker.rs L70-72). -/
def getNextId : Act (VSt F C B) Nat := fun s => (.ok s.own.idCounter, s)

/-- Inserting a closure. -/
def insertComm (id : Nat) (c : VComm F) : Act (VSt F C B) Unit :=
  Act.modify fun s => { s with sh := { s.sh with comms := amInsert id c s.sh.comms } }

/-- `track_mat_comm` (src/tracker/verifier_tracker.rs L74-97). -/
def trackMatComm (c : C) : Act (VSt F C B) Nat := do
  let id ← genId
  insertComm id (.query id)
  Act.modify fun s => { s with own := { s.own with transcript := s.own.transcript.append "comm" (.comm c) } }
  Act.modify fun s => { s with own := { s.own with matComms := amInsert id c s.own.matComms } }
  pure id

/-- `track_virtual_comm` (src/tracker/verifier_tracker.rs L99-110), and the same steps in `add_comms`, `sub_comms`, `mul_comms`, `mul_scalar`
(L120-201, L228-251). -/
def trackVirtual (c : VComm F) : Act (VSt F C B) Nat := do
  let id ← genId
  insertComm id c
  pure id

/-- `add_comms` (src/tracker/verifier_tracker.rs L120-149). -/
def addComms (i j : Nat) : Act (VSt F C B) Nat := trackVirtual (.add i j)

/-- `sub_comms` (src/tracker/verifier_tracker.rs L151-174). -/
def subComms (i j : Nat) : Act (VSt F C B) Nat := trackVirtual (.sub i j)

/-- `mul_comms` (src/tracker/verifier_tracker.rs L176-201). -/
def mulComms (i j : Nat) : Act (VSt F C B) Nat := trackVirtual (.mul i j)

/-- `add_scalar` (src/tracker/verifier_tracker.rs L203-226): one identifier is skipped. -/
def addScalar (i : Nat) (c : F) : Act (VSt F C B) Nat := do
  let _ ← genId
  trackVirtual (.addScalar i c)

/-- `mul_scalar` (src/tracker/verifier_tracker.rs L228-251). -/
def mulScalar (i : Nat) (c : F) : Act (VSt F C B) Nat := trackVirtual (.mulScalar i c)

/-- `increase_nv_front` (src/tracker/verifier_tracker.rs L256-272). -/
def incFront (i k : Nat) : Act (VSt F C B) Nat := trackVirtual (.incFront i k)

/-- `increase_nv_back` (src/tracker/verifier_tracker.rs L277-293). -/
def incBack (i k : Nat) : Act (VSt F C B) Nat := trackVirtual (.incBack i k)

/-- Evaluating a stored closure (src/tracker/verifier_tracker.rs L295-305 and the closure bodies).  `ans` answers queries to committed polynomials.
The fuel bounds the recursion; it is never exhausted because a closure only refers to smaller identifiers (`VWf` in the proofs).  Slices out of
range panic; note the slice `pt[..added_nv]` of `increase_nv_back`. -/
def evalC (comms : List (Nat × VComm F)) (ans : Nat → List F → Res F) : Nat → Nat → List F → Res F
  | 0, _, _ => .error .panic
  | n + 1, id, pt => do
    let c ← unwrap (comms.lookup id)
    match c with
    | .query i => ans i pt
    | .fn f => f pt
    | .add i j => do
      let x ← evalC comms ans n i pt
      let y ← evalC comms ans n j pt
      .ok (x + y)
    | .sub i j => do
      let x ← evalC comms ans n i pt
      let y ← evalC comms ans n j pt
      .ok (x - y)
    | .mul i j => do
      let x ← evalC comms ans n i pt
      let y ← evalC comms ans n j pt
      .ok (x * y)
    | .addScalar i c => do
      let x ← evalC comms ans n i pt
      .ok (x + c)
    | .mulScalar i c => do
      let x ← evalC comms ans n i pt
      .ok (c * x)
    | .incFront i k => if pt.length < k then .error .panic else evalC comms ans n i (pt.drop k)
    | .incBack i k => if pt.length < k then .error .panic else evalC comms ans n i (pt.take k)

/-- The answer of a query closure: `query_map.get(&(id, point)).unwrap()` (src/tracker/verifier_tracker.rs L83-88). -/
def queryAns [DecidableEq F] (sh : VShared F) (id : Nat) (pt : List F) : Res F := unwrap (sh.queries.lookup (id, pt))

/-- `eval_virtual_comm` (src/tracker/verifier_tracker.rs L295-305). -/
def evalVirtual [DecidableEq F] (sh : VShared F) (id : Nat) (pt : List F) : Res F := evalC sh.comms (queryAns sh) (id + 1) id pt

/-- `set_compiled_proof` (src/tracker/verifier_tracker.rs L112-114). -/
def setProof (p : CompiledProof F C B) : Act (VSt F C B) Unit := Act.modify fun s => { s with own := { s.own with proof := p } }

/-- `get_and_append_challenge` (src/tracker/verifier_tracker.rs L307-309). -/
def challenge (H : Oracle F C) (label : String) : Act (VSt F C B) F := fun s =>
  match s.own.transcript.challenge H label with
  | .ok (c, tr) => (.ok c, { s with own := { s.own with transcript := tr } })
  | .error e => (.error e, s)

/-- `append_serializable_element` (src/tracker/verifier_tracker.rs L311-317). -/
def append (label : String) (d : TItem F C) : Act (VSt F C B) Unit :=
  Act.modify fun s => { s with own := { s.own with transcript := s.own.transcript.append label d } }

/-- `add_sumcheck_claim` (src/tracker/verifier_tracker.rs L319-321). -/
def addSumClaim (id : Nat) (v : F) : Act (VSt F C B) Unit :=
  Act.modify fun s => { s with own := { s.own with sumClaims := s.own.sumClaims ++ [(id, v)] } }

/-- `add_zerocheck_claim` (src/tracker/verifier_tracker.rs L322-324). -/
def addZeroClaim (id : Nat) : Act (VSt F C B) Unit :=
  Act.modify fun s => { s with own := { s.own with zeroClaims := s.own.zeroClaims ++ [id] } }

/-- `VerifierTrackerRef::get_prover_claimed_sum` (src/tracker/verifier_wrapper.rs L105-110): a panic when there is none. -/
def claimedSum (id : Nat) : Act (VSt F C B) F := Act.reads fun s => unwrap (s.own.proof.sumcheckClaims.lookup id)

/-- `transfer_proof_poly_evals` (src/tracker/verifier_tracker.rs L334-340). -/
def transferEvals [DecidableEq F] : Act (VSt F C B) Unit :=
  Act.modify fun s => { s with sh := { s.sh with queries := s.own.proof.queryMap.foldl (fun m e => amInsert e.1 e.2 m) s.sh.queries } }

/-- `VerifierTrackerRef::transfer_prover_comm` (src/tracker/verifier_wrapper.rs L118-144); `debug` is `cfg(debug_assertions)`. -/
def transferComm (debug : Bool) (id : Nat) : Act (VSt F C B) Nat := do
  let c ← Act.reads fun s => unwrap (s.own.proof.comms.lookup id)
  let newId ← Act.expect (trackMatComm c)
  Act.assert (debug = true → id = newId)
  pure newId

/-- A challenge whose failure is a panic. -/
def challengeU (H : Oracle F C) (label : String) : Act (VSt F C B) F := Act.expect (challenge H label)

/-- Loop of `convert_zerocheck_claims_to_sumcheck_claim` (src/tracker/verifier_tracker.rs L346-351). -/
def foldZeroClaims (H : Oracle F C) : List Nat → Nat → Act (VSt F C B) Nat
  | [], agg => pure agg
  | c :: cs, agg => do
    let ch ← challengeU H "zerocheck challenge"
    let p ← mulScalar c ch
    let agg ← addComms agg p
    foldZeroClaims H cs agg

/-- `get_and_append_challenge_vectors(..).unwrap()` (src/tracker/verifier_tracker.rs L354). -/
def challengesU (H : Oracle F C) (label : String) (n : Nat) : Act (VSt F C B) (List F) := fun s =>
  match s.own.transcript.challenges H label n with
  | .ok (cs, tr) => (.ok cs, { s with own := { s.own with transcript := tr } })
  | .error _ => (.error .panic, s)

/-- `convert_zerocheck_claims_to_sumcheck_claim` (src/tracker/verifier_tracker.rs L342-365). -/
def convertZero (H : Oracle F C) (nv : Nat) : Act (VSt F C B) Unit := do
  let agg0 ← trackVirtual (.fn fun _ => .ok 0)
  let claims ← Act.reads fun s => .ok s.own.zeroClaims
  let agg ← foldZeroClaims H claims agg0
  let r ← challengesU H "0check r" nv
  let eqId ← trackVirtual (.fn fun pt => eqEval pt r)
  let p ← mulComms agg eqId
  addSumClaim p 0

/-- Loop aggregating the sum claims (src/tracker/verifier_tracker.rs L377-382). -/
def foldSumClaims (H : Oracle F C) : List (Nat × F) → Nat → F → Act (VSt F C B) (Nat × F)
  | [], agg, s => pure (agg, s)
  | c :: cs, agg, s => do
    let ch ← challengeU H "sumcheck challenge"
    let p ← mulScalar c.1 ch
    let agg ← addComms agg p
    foldSumClaims H cs agg (s + c.2 * ch)

/-- Aggregating all claims (src/tracker/verifier_tracker.rs L368-382). -/
def aggregate (H : Oracle F C) : Act (VSt F C B) (Nat × F) := do
  let nv ← Act.reads fun s => .ok s.own.proof.scNumVars
  convertZero H nv
  let agg0 ← trackVirtual (.fn fun _ => .ok 0)
  let claims ← Act.reads fun s => .ok s.own.sumClaims
  foldSumClaims H claims agg0 0

/-- `SumCheck::verify` on the tracker's transcript; a returned error becomes `InvalidVerifier` (src/tracker/verifier_tracker.rs L385-389). -/
def checkSumcheck [DecidableEq F] (H : Oracle F C) (s : F) : Act (VSt F C B) (SubClaim F) := fun st =>
  match sumcheckVerify H s st.own.proof.scProof st.own.proof.scMaxDegree st.own.proof.scNumVars st.own.transcript with
  | .ok (sub, tr) => (.ok sub, { st with own := { st.own with transcript := tr } })
  | .error .panic => (.error .panic, { st with own := { st.own with transcript := sumcheckVerifyTrail H st.own.proof.scProof st.own.proof.scMaxDegree st.own.proof.scNumVars st.own.transcript } })
  | .error (.err _) => (.error (.err .invalidVerifier), { st with own := { st.own with transcript := sumcheckVerifyTrail H st.own.proof.scProof st.own.proof.scMaxDegree st.own.proof.scNumVars st.own.transcript } })

/-- `PCS::batch_verify` on the tracker's transcript and `?` on its `Result` (src/tracker/verifier_tracker.rs L398-399). -/
def checkBatch (pcs : Pcs F C B) (comms : List C) (points : List (List F)) (bp : B) : Act (VSt F C B) Bool := fun st =>
  match pcs.batchVerify comms points bp st.own.transcript with
  | .ok (b, tr) => (.ok b, { st with own := { st.own with transcript := tr } })
  | .error e => (.error e, { st with own := { st.own with transcript := pcs.checkTrail comms points bp st.own.transcript } })

/-- `verify_claims` (src/tracker/verifier_tracker.rs L367-402).  The Boolean returned by `batch_verify` and the value of the sumcheck subclaim are
dropped, as in the code. -/
def verifyClaims [DecidableEq F] (pcs : Pcs F C B) (H : Oracle F C) : Act (VSt F C B) Unit := do
  let agg ← aggregate H
  let sub ← checkSumcheck H agg.2
  let ids ← Act.reads fun s => .ok (PTracker.sortedIds s.own.proof.comms)
  let comms ← Act.reads fun s => ids.mapM fun id => unwrap (s.own.matComms.lookup id)
  let bp ← Act.reads fun s => idx s.own.proof.pcsProof 0
  let _ ← checkBatch pcs comms (ids.map fun _ => sub.point) bp
  pure ()

end VSt
end Zksql
