import Verif.Spec.Mle
import Verif.Model.Kzg
/-!
What the parameters of the commitment scheme are, as a function of the trapdoor.
-/
namespace Zksql.Spec
variable {F : Type} [Field F] {E : Curve F}

/-- The table of `eq(., t)` in the exponent of `g`. -/
def eqPowers (g : E.G1) (t : List F) : List E.G1 :=
  (List.range (2 ^ t.length)).map fun i => eqWeight t i • g

/-- Prover parameters for the trapdoor `t`: level `i` is the table of `eq(., t_i, t_{i+1}, ..)` in the exponent, for `i = 0, .., n`. -/
def proverParamOf (g : E.G1) (h : E.G2) (t : List F) : ProverParam E :=
  ⟨t.length, (List.range (t.length + 1)).map fun i => eqPowers g (t.drop i), g, h⟩

/-- Verifier parameters for the trapdoor `t`. -/
def verifierParamOf (g : E.G1) (h : E.G2) (t : List F) : VerifierParam E :=
  ⟨t.length, g, h, t.map fun x => x • h⟩

/-- Universal parameters for the trapdoor `t`. -/
def universalParamOf (g : E.G1) (h : E.G2) (t : List F) : UniversalParams E :=
  ⟨proverParamOf g h t, t.map fun x => x • h⟩

/-- The group element with the given coefficients on the levels of the parameters. -/
def algElem (pp : ProverParam E) (a : List (List F)) : E.G1 := (List.zipWith msm pp.powersOfG a).sum

/-- The exponent of `algElem` as a function of the trapdoor: the polynomial the element stands for. -/
def algExp (a : List (List F)) (t : List F) : F :=
  ((List.range (min (t.length + 1) a.length)).map fun l =>
    ((List.range (min (2 ^ (t.length - l)) (a.getD l []).length)).map fun x => (a.getD l []).getD x 0 * eqWeight (t.drop l) x).sum).sum

end Zksql.Spec
