import Verif.Model.Basic
/-!
Fiat-Shamir transcript: src/transcript/mod.rs.
-/
namespace Zksql

/-- Data absorbed by the transcript anywhere in the code base.  Simplification: values are kept instead of their compressed
serialization, i.e. serialization is taken to be injective and infallible.  `C` is the type of commitments. -/
inductive TItem (F C : Type) where
  | aux (maxDegree numVars : Nat)
  | elem (x : F)
  | elems (xs : List F)
  | comm (c : C)
  | bytes (bs : List Nat)
  deriving DecidableEq, Repr

/-- One operation on the merlin transcript: `append_message` or `challenge_bytes` (which also advances the merlin state). -/
inductive TEvent (F C : Type) where
  | absorb (label : String) (d : TItem F C)
  | squeeze (label : String)
  deriving DecidableEq, Repr

/-- `IOPTranscript` (src/transcript/mod.rs L29-35).  The merlin state is the initial label and the list of operations so far. -/
structure Transcript (F C : Type) where
  label : String
  events : List (TEvent F C)
  isEmpty : Bool
  deriving DecidableEq, Repr

/-- merlin `challenge_bytes` followed by reduction into the field: an arbitrary function of the history. -/
abbrev Oracle (F C : Type) := String → List (TEvent F C) → F

namespace Transcript
variable {F C : Type}

/-- `IOPTranscript::new` (src/transcript/mod.rs L40-46). -/
def new (label : String) : Transcript F C := ⟨label, [], true⟩

/-- `append_message`, `append_field_element`, `append_serializable_element` (src/transcript/mod.rs L49-75). -/
def append (t : Transcript F C) (label : String) (d : TItem F C) : Transcript F C :=
  { t with events := t.events ++ [.absorb label d], isEmpty := false }

/-- `get_and_append_challenge` (src/transcript/mod.rs L82-95). -/
def challenge (H : Oracle F C) (t : Transcript F C) (label : String) : Res (F × Transcript F C) :=
  if t.isEmpty then .error (.err .invalidTranscript)
  else
    let t' := { t with events := t.events ++ [TEvent.squeeze label] }
    let c := H t'.label t'.events
    .ok (c, t'.append label (.elem c))

/-- Loop of `get_and_append_challenge_vectors` (src/transcript/mod.rs L114-117). -/
def challengeLoop (H : Oracle F C) (t : Transcript F C) (label : String) : Nat → Res (List F × Transcript F C)
  | 0 => .ok ([], t)
  | n + 1 => do
    let (c, t) ← challenge H t label
    let (cs, t) ← challengeLoop H t label n
    .ok (c :: cs, t)

/-- `get_and_append_challenge_vectors` (src/transcript/mod.rs L102-119). -/
def challenges (H : Oracle F C) (t : Transcript F C) (label : String) (len : Nat) :
    Res (List F × Transcript F C) :=
  if t.isEmpty then .error (.err .invalidTranscript) else challengeLoop H t label len

end Transcript
end Zksql
