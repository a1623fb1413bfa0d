import Verif.Model.Guards
/-!
What the calls on a verifier do when cells and borrows are left out, and which of them read, or write, what.
-/
namespace Zksql.Spec
open GMem
variable {F C B : Type} [Field F]

/-- The call on a tracker that is in no cell. -/
def plain [DecidableEq F] (debug : Bool) (pcs : Pcs F C B) (H : Oracle F C) : Call F C B → Act (VSt F C B) (Out F C)
  | .trackMatComm c => .id <$> VSt.trackMatComm c
  | .trackVirtual f => .id <$> VSt.trackVirtual (.fn f)
  | .getNextId => .id <$> VSt.getNextId
  | .setProof p => (fun _ => .none) <$> VSt.setProof p
  | .getMatComm id => .comm <$> matComm id
  | .challenge l => .elem <$> VSt.challenge H l
  | .append l d => (fun _ => .none) <$> VSt.append l d
  | .addSumClaim id v => (fun _ => .none) <$> VSt.addSumClaim id v
  | .addZeroClaim id => (fun _ => .none) <$> VSt.addZeroClaim id
  | .claimedSum id => .elem <$> VSt.claimedSum id
  | .transferEvals => (fun _ => .none) <$> VSt.transferEvals
  | .transferComm id => .id <$> VSt.transferComm debug id
  | .verifyClaims => (fun _ => .none) <$> VSt.verifyClaims pcs H
  | .addComms i j => .id <$> VSt.addComms i j
  | .subComms i j => .id <$> VSt.subComms i j
  | .mulComms i j => .id <$> VSt.mulComms i j
  | .addScalar i c => .id <$> VSt.addScalar i c
  | .mulScalar i c => .id <$> VSt.mulScalar i c
  | .incFront i n => .id <$> VSt.incFront i n
  | .incBack i n => .id <$> VSt.incBack i n
  | .eval i pt => .elem <$> Act.reads fun s => VSt.evalVirtual s.sh i pt

/-- The calls that only read: evaluating a handle, and looking up a commitment or a claimed sum. -/
def readsOnly : Call F C B → Bool
  | .getMatComm _ | .claimedSum _ | .eval _ _ => true
  | _ => false

/-- The calls that make new handles. -/
def makesHandles : Call F C B → Bool
  | .trackMatComm _ | .trackVirtual _ | .transferComm _ | .verifyClaims | .addComms _ _ | .subComms _ _ | .mulComms _ _ | .addScalar _ _
  | .mulScalar _ _ | .incFront _ _ | .incBack _ _ => true
  | _ => false

/-- The call that stores answers of the prover. -/
def storesAnswers : Call F C B → Bool
  | .transferEvals => true
  | _ => false

/-- No open borrow is a mutable one. -/
def OnlyShared (g : Guards) : Prop := ∀ x ∈ g, x.2 = false

/-- No borrow of a cell is open. -/
def Closed (g : Guards) (c : Cell) : Prop := ∀ x ∈ g, x.1 ≠ c

/-- A step of a program with several verifiers: a new one, a deep copy, or a call on the one at address `k`. -/
inductive GOp (F C B : Type) where
  | new
  | copy (k : Nat)
  | call (k : Nat) (c : Call F C B)

/-- One step, with cells; what it returns, and the memory after it. -/
def GOp.step [DecidableEq F] (debug : Bool) (pcs : Pcs F C B) (H : Oracle F C) (mem : VMem F C B) : GOp F C B → Res (Out F C) × VMem F C B
  | .new => (.ok .none, mem.alloc)
  | .copy k => (GMem.copy [] k >>= fun _ => pure .none : Act _ _) mem
  | .call k c => GMem.run debug pcs H [] k c mem

/-- One step, without cells. -/
def GOp.plainStep [DecidableEq F] (debug : Bool) (pcs : Pcs F C B) (H : Oracle F C) (mem : VMem F C B) : GOp F C B → Res (Out F C) × VMem F C B
  | .new => (.ok .none, mem.alloc)
  | .copy k => match mem.copy k with
    | .ok mem' => (.ok .none, mem')
    | .error e => (.error e, mem)
  | .call k c => VMem.on k (plain debug pcs H c) mem

/-- What the steps of a history return, up to the first panic. -/
def history (step : VMem F C B → GOp F C B → Res (Out F C) × VMem F C B) : VMem F C B → List (GOp F C B) → List (Res (Out F C)) × VMem F C B
  | mem, [] => ([], mem)
  | mem, o :: os =>
    match step mem o with
    | (.error .panic, mem) => ([.error .panic], mem)
    | (r, mem) => let rest := history step mem os; (r :: rest.1, rest.2)

end Zksql.Spec
