import Verif.Model.Memory
/-!
The `RefCell`s of the verifier: src/tracker/verifier_wrapper.rs and src/tracker/verifier_tracker.rs with the borrows that each call opens.  A borrow
that conflicts with an open one is a panic.  `Props/Guards.lean` shows when there are none, so that the rest of the model, which has no borrows, is
enough.
-/
namespace Zksql
variable {F C B : Type} [Field F]

/-- The cells of verifier memory: the tracker behind a `TrackedComm` or `VerifierTrackerRef` (src/tracker/verifier_wrapper.rs L24-26, L170-173), and
the two maps of a tracker (src/tracker/verifier_tracker.rs L42-43), which copies share. -/
inductive Cell where
  | tracker (k : Nat)
  | comms (a : Nat)
  | queries (a : Nat)
deriving DecidableEq

/-- The borrows open at a moment, innermost first; `true` marks a `RefMut`.  All of them are local variables or temporaries, so they end with the
block that opens them, also when it returns early or unwinds. -/
abbrev Guards := List (Cell × Bool)

/-- Whether `RefCell::borrow` (`mt = false`) or `RefCell::borrow_mut` (`mt = true`) succeeds. -/
def Guards.allows (g : Guards) (c : Cell) (mt : Bool) : Bool := g.all fun x => x.1 != c || (!mt && !x.2)

/-- `borrow` or `borrow_mut`, and what is done until the guard is dropped. -/
def Guards.borrow {S α : Type} (g : Guards) (c : Cell) (mt : Bool) (body : Guards → Act S α) : Act S α :=
  if g.allows c mt then body ((c, mt) :: g) else Act.lift (.error .panic)

/-! ### Methods of the tracker, whose maps are at address `a` -/
namespace GTracker

/-- The insertion into `virtual_comms` (src/tracker/verifier_tracker.rs L80-90, L104-108, L131-146, L158-171, L183-198, L211-224, L235-248). -/
def insertComm (a : Nat) (g : Guards) (id : Nat) (c : VComm F) : Act (VSt F C B) Unit := g.borrow (.comms a) true fun _ => VSt.insertComm id c

/-- `track_mat_comm` (src/tracker/verifier_tracker.rs L74-97). -/
def trackMatComm (a : Nat) (g : Guards) (c : C) : Act (VSt F C B) Nat := do
  let id ← VSt.genId
  insertComm a g id (.query id)
  VSt.append "comm" (.comm c)
  Act.modify fun s => { s with own := { s.own with matComms := amInsert id c s.own.matComms } }
  pure id

/-- `track_virtual_comm` (src/tracker/verifier_tracker.rs L99-110), and the same steps in the operations on commitments (L120-251). -/
def trackVirtual (a : Nat) (g : Guards) (c : VComm F) : Act (VSt F C B) Nat := do
  let id ← VSt.genId
  insertComm a g id c
  pure id

/-- `add_scalar` (src/tracker/verifier_tracker.rs L203-226). -/
def addScalar (a : Nat) (g : Guards) (i : Nat) (c : F) : Act (VSt F C B) Nat := do
  let _ ← VSt.genId
  trackVirtual a g (.addScalar i c)

/-- `transfer_proof_poly_evals` (src/tracker/verifier_tracker.rs L334-340). -/
def transferEvals [DecidableEq F] (a : Nat) (g : Guards) : Act (VSt F C B) Unit := g.borrow (.queries a) true fun _ => VSt.transferEvals

/-- Calling a closure of `virtual_comms` (src/tracker/verifier_tracker.rs L83-88, L134-145, L161-170, L186-197, L214-223, L238-247, L258-268,
L279-289): it borrows the map, or the queries, until it returns.  The fuel is that of `VSt.evalC`.  `user g f pt` is the call of a function `f` given to
`track_virtual_comm` (L99-110), with the borrows `g` that are open then. -/
def callC [DecidableEq F] (user : Guards → (List F → Res F) → List F → Act (VSt F C B) F) (a : Nat) :
    Guards → Nat → VComm F → List F → Act (VSt F C B) F
  | _, 0, _, _ => Act.lift (.error .panic)
  | g, n + 1, c, pt =>
    let call (g : Guards) (i : Nat) (pt : List F) : Act (VSt F C B) F := do
      let c ← Act.reads fun s => unwrap (s.sh.comms.lookup i)
      callC user a g n c pt
    match c with
    | .query i => g.borrow (.queries a) false fun _ => Act.reads fun s => unwrap (s.sh.queries.lookup (i, pt))
    | .fn f => user g f pt
    | .add i j => g.borrow (.comms a) false fun g => do
      let x ← call g i pt
      let y ← call g j pt
      pure (x + y)
    | .sub i j => g.borrow (.comms a) false fun g => do
      let x ← call g i pt
      let y ← call g j pt
      pure (x - y)
    | .mul i j => g.borrow (.comms a) false fun g => do
      let x ← call g i pt
      let y ← call g j pt
      pure (x * y)
    | .addScalar i c => g.borrow (.comms a) false fun g => do
      let x ← call g i pt
      pure (x + c)
    | .mulScalar i c => g.borrow (.comms a) false fun g => do
      let x ← call g i pt
      pure (c * x)
    | .incFront i k => g.borrow (.comms a) false fun g => do
      let _ ← Act.reads fun s => unwrap (s.sh.comms.lookup i)
      if pt.length < k then Act.lift (.error .panic) else call g i (pt.drop k)
    | .incBack i k => g.borrow (.comms a) false fun g => do
      let _ ← Act.reads fun s => unwrap (s.sh.comms.lookup i)
      if pt.length < k then Act.lift (.error .panic) else call g i (pt.take k)

/-- `eval_virtual_comm` (src/tracker/verifier_tracker.rs L295-305). -/
def evalWith [DecidableEq F] (user : Guards → (List F → Res F) → List F → Act (VSt F C B) F) (a : Nat) (g : Guards) (id : Nat) (pt : List F) :
    Act (VSt F C B) F := g.borrow (.comms a) false fun g => do
  let c ← Act.reads fun s => unwrap (s.sh.comms.lookup id)
  callC user a g (id + 1) c pt

/-- `eval_virtual_comm` (src/tracker/verifier_tracker.rs L295-305) where the functions given to `track_virtual_comm` use no tracker. -/
def evalVirtual [DecidableEq F] (a : Nat) (g : Guards) (id : Nat) (pt : List F) : Act (VSt F C B) F :=
  evalWith (fun _ f pt => Act.lift (f pt)) a g id pt

/-- Loop of `convert_zerocheck_claims_to_sumcheck_claim` (src/tracker/verifier_tracker.rs L346-351). -/
def foldZeroClaims (H : Oracle F C) (a : Nat) (g : Guards) : List Nat → Nat → Act (VSt F C B) Nat
  | [], agg => pure agg
  | c :: cs, agg => do
    let ch ← VSt.challengeU H "zerocheck challenge"
    let p ← trackVirtual a g (.mulScalar c ch)
    let agg ← trackVirtual a g (.add agg p)
    foldZeroClaims H a g cs agg

/-- `convert_zerocheck_claims_to_sumcheck_claim` (src/tracker/verifier_tracker.rs L342-365). -/
def convertZero (H : Oracle F C) (a : Nat) (g : Guards) (nv : Nat) : Act (VSt F C B) Unit := do
  let agg0 ← trackVirtual a g (.fn fun _ => .ok 0)
  let claims ← Act.reads fun s => .ok s.own.zeroClaims
  let agg ← foldZeroClaims H a g claims agg0
  let r ← VSt.challengesU H "0check r" nv
  let eqId ← trackVirtual a g (.fn fun pt => eqEval pt r)
  let p ← trackVirtual a g (.mul agg eqId)
  VSt.addSumClaim p 0

/-- Loop aggregating the sum claims (src/tracker/verifier_tracker.rs L377-382). -/
def foldSumClaims (H : Oracle F C) (a : Nat) (g : Guards) : List (Nat × F) → Nat → F → Act (VSt F C B) (Nat × F)
  | [], agg, s => pure (agg, s)
  | c :: cs, agg, s => do
    let ch ← VSt.challengeU H "sumcheck challenge"
    let p ← trackVirtual a g (.mulScalar c.1 ch)
    let agg ← trackVirtual a g (.add agg p)
    foldSumClaims H a g cs agg (s + c.2 * ch)

/-- `verify_claims` (src/tracker/verifier_tracker.rs L367-402). -/
def verifyClaims [DecidableEq F] (pcs : Pcs F C B) (H : Oracle F C) (a : Nat) (g : Guards) : Act (VSt F C B) Unit := do
  let nv ← Act.reads fun s => .ok s.own.proof.scNumVars
  convertZero H a g nv
  let agg0 ← trackVirtual a g (.fn fun _ => .ok 0)
  let claims ← Act.reads fun s => .ok s.own.sumClaims
  let agg ← foldSumClaims H a g claims agg0 0
  let sub ← VSt.checkSumcheck H agg.2
  let ids ← Act.reads fun s => .ok (PTracker.sortedIds s.own.proof.comms)
  let comms ← Act.reads fun s => ids.mapM fun id => unwrap (s.own.matComms.lookup id)
  let bp ← Act.reads fun s => idx s.own.proof.pcsProof 0
  let _ ← VSt.checkBatch pcs comms (ids.map fun _ => sub.point) bp
  pure ()

end GTracker

/-! ### Methods of the wrappers -/
namespace GMem

/-- A borrow of the tracker at address `k` and a call of one of its methods (e.g. src/tracker/verifier_wrapper.rs L51-54); the method gets the address
of the maps. -/
def on {α : Type} (k : Nat) (mt : Bool) (g : Guards) (m : Nat → Guards → Act (VSt F C B) α) : Act (VMem F C B) α :=
  g.borrow (.tracker k) mt fun g mem =>
    match mem.trackers[k]? with
    | none => (.error .panic, mem)
    | some (_, a) => VMem.on k (m a g) mem

/-- The calls on a `VerifierTrackerRef` or a `TrackedComm` that use its tracker (src/tracker/verifier_wrapper.rs L47-150, L193-246); handles are given by
their identifiers.  `add_comms` and its like are called on handles of one tracker. -/
inductive Call (F C B : Type) where
  | trackMatComm (c : C)
  | trackVirtual (f : List F → Res F)
  | getNextId
  | setProof (p : CompiledProof F C B)
  | getMatComm (id : Nat)
  | challenge (label : String)
  | append (label : String) (d : TItem F C)
  | addSumClaim (id : Nat) (v : F)
  | addZeroClaim (id : Nat)
  | claimedSum (id : Nat)
  | transferEvals
  | transferComm (id : Nat)
  | verifyClaims
  | addComms (i j : Nat)
  | subComms (i j : Nat)
  | mulComms (i j : Nat)
  | addScalar (i : Nat) (c : F)
  | mulScalar (i : Nat) (c : F)
  | incFront (i n : Nat)
  | incBack (i n : Nat)
  | eval (i : Nat) (pt : List F)

/-- What a call returns. -/
inductive Out (F C : Type) where
  | none
  | id (i : Nat)
  | elem (x : F)
  | comm (c : C)

/-- `get_mat_comm(..).unwrap()` (src/tracker/verifier_wrapper.rs L76-79). -/
def matComm (id : Nat) : Act (VSt F C B) C := Act.reads fun s => unwrap (s.own.matComms.lookup id)

/-- `transfer_prover_comm` (src/tracker/verifier_wrapper.rs L118-144): one borrow to read, which ends before the other begins. -/
def transferComm (debug : Bool) (k : Nat) (g : Guards) (id : Nat) : Act (VMem F C B) Nat := do
  let c ← on k false g fun _ _ => Act.reads fun s => unwrap (s.own.proof.comms.lookup id)
  on k true g fun a g => do
    let newId ← Act.expect (GTracker.trackMatComm a g c)
    Act.assert (debug = true → id = newId)
    pure newId

/-- The calls with their borrows, made while the guards `g` are open (src/tracker/verifier_wrapper.rs L47-150, L193-246). -/
def run [DecidableEq F] (debug : Bool) (pcs : Pcs F C B) (H : Oracle F C) (g : Guards) (k : Nat) : Call F C B → Act (VMem F C B) (Out F C)
  | .trackMatComm c => .id <$> on k true g fun a g => GTracker.trackMatComm a g c
  | .trackVirtual f => .id <$> on k true g fun a g => GTracker.trackVirtual a g (.fn f)
  | .getNextId => .id <$> on k true g fun _ _ => VSt.getNextId
  | .setProof p => (fun _ => .none) <$> on k true g fun _ _ => VSt.setProof p
  | .getMatComm id => .comm <$> on k false g fun _ _ => matComm id
  | .challenge l => .elem <$> on k true g fun _ _ => VSt.challenge H l
  | .append l d => (fun _ => .none) <$> on k true g fun _ _ => VSt.append l d
  | .addSumClaim id v => (fun _ => .none) <$> on k true g fun _ _ => VSt.addSumClaim id v
  | .addZeroClaim id => (fun _ => .none) <$> on k true g fun _ _ => VSt.addZeroClaim id
  | .claimedSum id => .elem <$> on k false g fun _ _ => VSt.claimedSum id
  | .transferEvals => (fun _ => .none) <$> on k true g fun a g => GTracker.transferEvals a g
  | .transferComm id => .id <$> transferComm debug k g id
  | .verifyClaims => (fun _ => .none) <$> on k true g fun a g => GTracker.verifyClaims pcs H a g
  | .addComms i j => .id <$> on k true g fun a g => GTracker.trackVirtual a g (.add i j)
  | .subComms i j => .id <$> on k true g fun a g => GTracker.trackVirtual a g (.sub i j)
  | .mulComms i j => .id <$> on k true g fun a g => GTracker.trackVirtual a g (.mul i j)
  | .addScalar i c => .id <$> on k true g fun a g => GTracker.addScalar a g i c
  | .mulScalar i c => .id <$> on k true g fun a g => GTracker.trackVirtual a g (.mulScalar i c)
  | .incFront i n => .id <$> on k true g fun a g => GTracker.trackVirtual a g (.incFront i n)
  | .incBack i n => .id <$> on k true g fun a g => GTracker.trackVirtual a g (.incBack i n)
  | .eval i pt => .elem <$> on k false g fun a g => GTracker.evalVirtual a g i pt

/-- `deep_copy` (src/tracker/verifier_wrapper.rs L159-163) while the guards `g` are open. -/
def copy (g : Guards) (k : Nat) : Act (VMem F C B) Unit := g.borrow (.tracker k) false fun _ mem =>
  match VMem.copy k mem with
  | .ok mem' => (.ok (), mem')
  | .error e => (.error e, mem)

end GMem
end Zksql
