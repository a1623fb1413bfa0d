import Verif.Model.Basic
/-!
Bit utilities of src/arithmetic/util.rs.
-/
namespace Zksql

/-- `bit_decompose` (src/arithmetic/util.rs L11-19; identical copies in
src/arithmetic/virtual_polynomial.rs L449-457 and src/tracker/dmle_utils.rs L11-19).
The loop pushes `i & 1 == 1` and shifts right, `num_var` times. -/
def bitDecompose (input : Nat) : (numVar : Nat) → List Bool
  | 0 => []
  | n + 1 => (input % 2 == 1) :: bitDecompose (input / 2) n

/-- `project` (src/arithmetic/util.rs L58-65): fold over the reversed vector, `res = 2*res + e`.
Simplification: `u64` is unbounded here. -/
def project (bits : List Bool) : Nat :=
  bits.reverse.foldl (fun res e => 2 * res + e.toNat) 0

/-- `get_index` (src/arithmetic/util.rs L46-54).  `num_vars - 1` underflows for `num_vars = 0`: panic. -/
def getIndex (i numVars : Nat) : Res (Nat × Nat × Bool) :=
  if numVars = 0 then .error .panic
  else
    let bits := bitDecompose i numVars
    let front := bits.take (numVars - 1)
    match bits[numVars - 1]? with
    | none => .error .panic
    | some sign => .ok (project ([false] ++ front), project ([true] ++ front), sign)

/-- `ark_std::log2` (external; used at src/arithmetic/util.rs L35 and
src/subroutines/pcs/multilinear_kzg/batching.rs L69): 0 for 0, otherwise the ceiling of the binary logarithm. -/
def log2Ceil (x : Nat) : Nat :=
  if x = 0 then 0
  else if 2 ^ Nat.log2 x = x then Nat.log2 x
  else Nat.log2 x + 1

/-- `get_batched_nv` (src/arithmetic/util.rs L34-36). -/
def getBatchedNv (numVar polynomialsLen : Nat) : Nat :=
  numVar + log2Ceil polynomialsLen

end Zksql
