import Verif.Model.VirtualPoly
import Verif.Spec.Mle
/-!
Specification of virtual polynomials: what a history of API calls denotes, as a function of the evaluation point, without
any index or pointer table.
-/
namespace Zksql.Spec
variable {F : Type} [Field F]

/-- A history of API calls that ends in one virtual polynomial.  Calls that return an error are part of the history: the
caller keeps the polynomial. -/
inductive VpHist (F : Type) where
  | empty (nv : Nat)
  | ofMle (a : ArcMle F) (c : F)
  | addList (h : VpHist F) (l : List (ArcMle F)) (c : F)
  | mul (h : VpHist F) (a : ArcMle F) (c : F)
  | add (h₁ h₂ : VpHist F)

namespace VpHist

/-- Number of variables. -/
def nv : VpHist F → Nat
  | empty n => n
  | ofMle a _ => a.mle.numVars
  | addList h _ _ => h.nv
  | mul h _ _ => h.nv
  | add h _ => h.nv

/-- The polynomial denoted, at a point: rejected calls contribute nothing. -/
def value : VpHist F → List F → F
  | empty _, _ => 0
  | ofMle a c, pt => c * mle a.mle.tbl pt
  | addList h l c, pt =>
    if l ≠ [] ∧ ∀ a ∈ l, a.mle.numVars = h.nv then h.value pt + c * (l.map fun a => mle a.mle.tbl pt).prod
    else h.value pt
  | mul h a c, pt => if a.mle.numVars = h.nv then h.value pt * (c * mle a.mle.tbl pt) else h.value pt
  | add h₁ h₂, pt => h₁.value pt + h₂.value pt

/-- All tables are well formed and equal addresses hold equal tables. -/
def Consistent (heap : Nat → Mle F) : VpHist F → Prop
  | empty _ => True
  | ofMle a _ => a.mle = heap a.ptr ∧ a.mle.WF
  | addList h l _ => h.Consistent heap ∧ ∀ a ∈ l, a.mle = heap a.ptr ∧ a.mle.WF
  | mul h a _ => h.Consistent heap ∧ a.mle = heap a.ptr ∧ a.mle.WF
  | add h₁ h₂ => h₁.Consistent heap ∧ h₂.Consistent heap

/-- Running the history on the model of the code. -/
def run : VpHist F → Res (VirtPoly F)
  | empty n => .ok (VirtPoly.new n)
  | ofMle a c => .ok (VirtPoly.newFromMle a c)
  | addList h l c => do
    let vp ← h.run
    .ok (vp.addMleList l c).2
  | mul h a c => do
    let vp ← h.run
    .ok (vp.mulByMle a c).2
  | add h₁ h₂ => do
    let v₁ ← h₁.run
    let v₂ ← h₂.run
    v₁.add v₂

end VpHist
end Zksql.Spec
