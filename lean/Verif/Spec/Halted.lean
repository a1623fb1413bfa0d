import Verif.Spec.Program
/-!
Histories in which calls may fail, and what stays as it was.
-/
namespace Zksql.Spec
variable {F C B : Type} [Field F] [DecidableEq F]

/-! ### The prover -/

/-- One call of the prover's API that returns a handle, with any handles as arguments. -/
inductive HandleOp (F : Type)
  | track (p : Mle F)
  | commit (p : Mle F)
  | add (a b : TPoly)
  | sub (a b : TPoly)
  | mul (a b : TPoly)
  | addScalar (a : TPoly) (c : F)
  | mulScalar (a : TPoly) (c : F)
  | incFront (a : TPoly) (k : Nat)
  | incBack (a : TPoly) (k : Nat)

/-- The call. -/
def HandleOp.run (E : Env F C) : HandleOp F → Act (PTracker F C) TPoly
  | track p => TPoly.trackMat p
  | commit p => TPoly.trackAndCommit E.commit p
  | add a b => a.add b
  | sub a b => a.sub b
  | mul a b => a.mul b
  | addScalar a c => a.addScalar c
  | mulScalar a c => a.mulScalar c
  | incFront a k => a.incFront k
  | incBack a k => a.incBack k

/-- One call of the prover's API, with any handles as arguments: handle operations, claims and messages, the checks, and the functions that make tables
and advice. -/
inductive ProverCall (F C : Type)
  | op (o : HandleOp F)
  | read (a : TPoly)
  | challenge (label : String)
  | append (label : String) (d : TItem F C)
  | sumClaim (id : Nat) (v : F)
  | zeroClaim (id : Nat)
  | bag (poly selector : TPoly)
  | table (cols : List TPoly) (selector : TPoly)
  | check (c : Check TPoly)
  | join (a b : Table) (ai bi : Nat)
  | cross (a b : Table)
  | split (a b : Bag)
  | setSplit (a b : Bag)
  | multSplit (a b : Bag)
  | inclusionAdvice (a b : Bag)
  | supportAdvice (a : Bag)
  | disjointAdvice (a b : Bag)

/-- Forget what a call returns. -/
def forget {S α : Type} (m : Act S α) : Act S Unit := m >>= fun _ => pure ()

/-- The call. -/
def ProverCall.run (E : Env F C) : ProverCall F C → Act (PTracker F C) Unit
  | op o => forget (o.run E)
  | read a => forget (a.evaluations (F := F) (C := C))
  | challenge l => forget (PTracker.challenge E.H l)
  | append l d => PTracker.append l d
  | sumClaim i v => PTracker.addSumClaim i v
  | zeroClaim i => PTracker.addZeroClaim i
  | bag p s => forget (Bag.new E.debug p s)
  | table cs s => forget (Table.new E.debug cs s)
  | check c => c.prove E
  | join a b ai bi => forget (FinalJoin.prove E a b ai bi)
  | cross a b => forget (CrossProduct.prover E a b)
  | split a b => forget (LmrSplit.bag E a b)
  | setSplit a b => forget (LmrSplit.set E a b)
  | multSplit a b => forget (LmrSplit.multBag E a b)
  | inclusionAdvice a b => forget (Inclusion.advice a b)
  | supportAdvice a => forget (Supp.advice E a)
  | disjointAdvice a b => forget (Disjoint.advice E a b)

/-- The prover's tracker after calls that may fail: the caller ignores returned errors and panics and goes on with the next call. -/
def callsOn (E : Env F C) (cs : List (ProverCall F C)) (t : PTracker F C) : PTracker F C := cs.foldl (fun t c => (c.run E t).2) t

/-- Whatever could be read from the first tracker can be read from the second, with the same result; claims and messages are still there, in the same
order, and what is new comes after them. -/
structure Keeps (t t' : PTracker F C) : Prop where
  sizes : ∀ id n, t.getPolyNv id = .ok n → t'.getPolyNv id = .ok n
  tables : ∀ id l, (PTracker.evaluations id t).1 = .ok l → (PTracker.evaluations id t').1 = .ok l
  comms : ∀ id c, t.comms.lookup id = some c → t'.comms.lookup id = some c
  sums : t.sumClaims <+: t'.sumClaims
  zeros : t.zeroClaims <+: t'.zeroClaims
  messages : t.transcript.events <+: t'.transcript.events
  label : t'.transcript.label = t.transcript.label
  counter : t.idCounter ≤ t'.idCounter

/-! ### The verifier -/

/-- One call of the verifier's API that returns a handle, with any identifiers as arguments. -/
inductive VHandleOp (F C : Type)
  | trackComm (c : C)
  | transfer (id : Nat)
  | closure (f : List F → Res F)
  | add (i j : Nat)
  | sub (i j : Nat)
  | mul (i j : Nat)
  | addScalar (i : Nat) (c : F)
  | mulScalar (i : Nat) (c : F)
  | incFront (i k : Nat)
  | incBack (i k : Nat)

/-- The call. -/
def VHandleOp.run (E : Env F C) : VHandleOp F C → Act (VSt F C B) Nat
  | trackComm c => VSt.trackMatComm c
  | transfer id => VSt.transferComm E.debug id
  | closure f => VSt.trackVirtual (.fn f)
  | add i j => VSt.addComms i j
  | sub i j => VSt.subComms i j
  | mul i j => VSt.mulComms i j
  | addScalar i c => VSt.addScalar i c
  | mulScalar i c => VSt.mulScalar i c
  | incFront i k => VSt.incFront i k
  | incBack i k => VSt.incBack i k

/-- One call of the verifier's API, with any identifiers as arguments. -/
inductive VerifierCall (F C : Type)
  | op (o : VHandleOp F C)
  | challenge (label : String)
  | append (label : String) (d : TItem F C)
  | claimedSum (id : Nat)
  | sumClaim (id : Nat) (v : F)
  | zeroClaim (id : Nat)
  | check (c : Check TPoly)
  | join (a b : TableComm) (ai bi : Nat)
  | cross (a b : TableComm)

/-- The call. -/
def VerifierCall.run (E : Env F C) : VerifierCall F C → Act (VSt F C B) Unit
  | op o => forget (o.run E)
  | challenge l => forget (VSt.challenge E.H l)
  | append l d => VSt.append l d
  | claimedSum i => forget (VSt.claimedSum i)
  | sumClaim i v => VSt.addSumClaim i v
  | zeroClaim i => VSt.addZeroClaim i
  | check c => c.verify E
  | join a b ai bi => forget (FinalJoin.verify E a b ai bi)
  | cross a b => forget (CrossProduct.verifier a b)

/-- The verifier after calls that may fail. -/
def vcallsOn (E : Env F C) (cs : List (VerifierCall F C)) (s : VSt F C B) : VSt F C B := cs.foldl (fun s c => (c.run E s).2) s

/-- Loading a proof. -/
def loadProof (p : CompiledProof F C B) (s : VSt F C B) : VSt F C B := (VSt.transferEvals (VSt.setProof p s).2).2

/-- Whatever could be read from the first verifier can be read from the second, with the same result; claims and messages are still there, in the same
order, and the proof is the one that was loaded. -/
structure VKeeps (s s' : VSt F C B) : Prop where
  values : ∀ id pt v, VSt.evalVirtual s.sh id pt = .ok v → VSt.evalVirtual s'.sh id pt = .ok v
  comms : ∀ id c, s.own.matComms.lookup id = some c → s'.own.matComms.lookup id = some c
  sums : s.own.sumClaims <+: s'.own.sumClaims
  zeros : s.own.zeroClaims <+: s'.own.zeroClaims
  messages : s.own.transcript.events <+: s'.own.transcript.events
  label : s'.own.transcript.label = s.own.transcript.label
  counter : s.own.idCounter ≤ s'.own.idCounter
  proof : s'.own.proof = s.own.proof

/-! ### Checks that are refused -/

/-- A side of a multiset check that is refused: no bags, or multiplicities with a size that differs from that of their bag. -/
def RefusedSide (es : List ((TPoly × TPoly) × TPoly)) : Prop := es = [] ∨ ∃ e ∈ es, e.1.1.numVars ≠ e.2.numVars

/-- The check is refused because of the sizes or the numbers of its arguments, before anything is done. -/
def Refused : Check TPoly → Prop
  | .multiset fs gs => RefusedSide fs ∨ RefusedSide gs
  | .bagEq f g => f.1.numVars ≠ g.1.numVars
  | .permutation f g p => f.1.numVars ≠ g.1.numVars ∨ f.1.numVars ≠ p.numVars
  | .groupBy inp key _ _ aggs _ => inp.1.length ≤ key ∨ ∃ e ∈ aggs, inp.1.length ≤ e.1
  | _ => False

end Zksql.Spec
