import Verif.Fem.Poisson
import Verif.Fem.Discretizer
import Verif.Spec.Elements
import Verif.Spec.Poisson

/-! # Specification vocabulary for the patch test (C82) -/

namespace Mito.Fem

open Mito.Functions Mito.Discretizer Mito.DiscreteSystem

variable {d n : Nat}

/-- `u` has the values of `g` at the nodes of the space, which have the parametric coordinates `ref` -/
def Interpolates (ref : Fin n → Val (.vec d)) (space : Space Nat d n) (g : Val (.vec d) → ℝ) (u : Nat → ℝ) : Prop :=
  ∀ ec ∈ space, ∀ a, u (ec.2 a) = g (ec.1.parametrization.eval (ref a))

/-- the discretizer succeeds, and the residual of interpolated affine functions is zero for all admissible test functions -/
def PassesPatchTest (rule : Rule d) (ref : Fin n → Val (.vec d)) (o : Outcome (Space Nat d n × List Nat)) : Prop :=
  ∃ space l, o = .ok (space, l) ∧ ∀ (f : Val (.vec d) → ℝ) (c : ℝ) (g : Fin d → ℝ) (u w : Nat → ℝ),
    Interpolates ref space (affine c g) u → Admissible (functionSpace space l) w →
      form (functionSpace space l) (poisson rule f space) w u = 0

/-- the centroid of the rule is the one of the triangle -/
structure Centred (rule : Rule 2) : Prop where
  first : (rule.map fun p => p.2 * p.1 0).sum = (rule.map fun p => p.2).sum / 3
  second : (rule.map fun p => p.2 * p.1 1).sum = (rule.map fun p => p.2).sum / 3

end Mito.Fem
