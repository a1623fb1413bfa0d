import Verif.Spec.Mle
import Verif.Spec.Tracker
/-!
Folding sum claims and zero claims into one sum claim with challenges.
-/
namespace Zksql.Spec
variable {F : Type} [Field F]

/-- `Σ cᵢ vᵢ`. -/
def dot (cs vs : List F) : F := (List.zipWith (· * ·) cs vs).sum

/-- The folded polynomial at one point: `Σ_j d_j V_j + d_m · (Σ_i c_i Z_i) · e`, where `v` and `z` are the values of the sum-claimed and the
zero-claimed polynomials there, `e` is `eq(point, r)`, and `d_m` is the last of the challenges `ds`. -/
def foldedValue (cs ds z v : List F) (e : F) : F := dot ds (v ++ [dot cs z * e])

/-- The folded sum: `Σ_j d_j s_j + d_m · 0`. -/
def foldedSum (ds s : List F) : F := dot ds (s ++ [0])

/-- The folded claim over the cube of dimension `N`: `zs` are the zero-claimed tables, `vs` the sum-claimed tables with their claimed sums. -/
def FoldedClaim (N : Nat) (zs : List (Nat → F)) (vs : List ((Nat → F) × F)) (cs r ds : List F) : Prop :=
  cubeSum N (fun b => foldedValue cs ds (zs.map (· b)) (vs.map fun v => v.1 b) (eqPoly (boolPt N b) r)) = foldedSum ds (vs.map (·.2))

/-- All claims hold. -/
def AllClaims (N : Nat) (zs : List (Nat → F)) (vs : List ((Nat → F) × F)) : Prop :=
  (∀ z ∈ zs, ∀ b < 2 ^ N, z b = 0) ∧ ∀ v ∈ vs, cubeSum N v.1 = v.2

/-- What equalising to `N` variables should do to the handles and claims of a tracker: `t` is the tracker after it. -/
structure Equalised {C : Type} (st : PState F C) (N : Nat) (t : PTracker F C) : Prop where
  tables : ∀ h ∈ st.handles, ∀ l, evalsOf st h = .ok l → h.numVars ≤ N ∧
    evalsOf ⟨t, st.handles⟩ ⟨h.id, N⟩ = .ok ((List.range (2 ^ N)).map fun b => l.getD (b % 2 ^ h.numVars) 0)
  sumIds : t.sumClaims.map (·.1) = st.tracker.sumClaims.map (·.1)
  sums : ∀ (k id : Nat) (v : F), st.tracker.sumClaims[k]? = some (id, v) → ∀ h ∈ st.handles, h.id = id → ∀ l, evalsOf st h = .ok l →
    t.sumClaims[k]? = some (id, 2 ^ (N - h.numVars) * l.sum)
  zeros : t.zeroClaims = st.tracker.zeroClaims
  zerosTrue : ∀ h ∈ st.handles, h.id ∈ st.tracker.zeroClaims →
    ((∀ l, evalsOf st h = .ok l → ∀ y ∈ l, y = 0) ↔ ∀ l, evalsOf ⟨t, st.handles⟩ ⟨h.id, N⟩ = .ok l → ∀ y ∈ l, y = 0)

/-- Evaluation at the leading coordinates is unchanged for a handle. -/
def SameLeading {C : Type} (st : PState F C) (N : Nat) (t : PTracker F C) (h : TPoly) : Prop :=
  ∀ x : List F, x.length = N → TPoly.evaluate t ⟨h.id, N⟩ x = h.evaluate st.tracker (x.take h.numVars)

end Zksql.Spec
