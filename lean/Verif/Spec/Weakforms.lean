import Verif.Fem.Weakforms
import Verif.Spec.DiscreteSystem

/-! # Specification vocabulary for weak forms (C107) -/

namespace Mito.Fem

open Mito.Functions Mito.DiscreteSystem

variable {d n : Nat}

/-- what a block sees of the function with the given nodal values is zero at a point: the gradient, or the value -/
def LhsBlock.Blind (e : Element d n) (u : Fin n → ℝ) (ξ : Val (.vec d)) : LhsBlock d → Prop
  | .gradGrad _ => ∀ k, ∑ a, u a * e.gradient a ξ k = 0
  | .mass _ => ∑ a, u a * (e.shape a).eval ξ () = 0

/-- on an element, no block sees the function at any of its quadrature points of positive weight -/
def Unseen (lhs : List (LhsBlock d)) (e : Element d n) (u : Fin n → ℝ) : Prop :=
  ∀ b ∈ lhs, ∀ p ∈ b.rule, 0 < p.2 → b.Blind e u p.1

/-- no weight is negative and no element is inverted or flat -/
def Sound (lhs : List (LhsBlock d)) (space : Space Nat d n) : Prop :=
  (∀ b ∈ lhs, ∀ p ∈ b.rule, 0 ≤ p.2) ∧ ∀ ec ∈ space, ∀ ξ, 0 < ec.1.detJ ξ

/-- a function of the element is determined by its values at the quadrature points of positive weight -/
def Unisolvent (rule : Rule d) (e : Element d n) : Prop :=
  ∀ u : Fin n → ℝ, (∀ p ∈ rule, 0 < p.2 → ∑ a, u a * (e.shape a).eval p.1 () = 0) → ∀ a, u a = 0

/-- the linear system of the weak form has exactly one solution -/
def WellPosed (lhs : List (LhsBlock d)) (rhs : List (RhsBlock d)) (space : Space Nat d n) (constrained : List Nat) : Prop :=
  IsUnit (asMatrix (buildEquationMap (functionSpace space constrained)).2
    (K (functionSpace space constrained) (weakform lhs rhs space))).det

/-- the field of `f` is the finite element function with the nodal values `v`, at the quadrature points -/
def Represents (rule : Rule d) (space : Space Nat d n) (f : Expr (.vec d) .scalar) (v : Nat → ℝ) : Prop :=
  ∀ ec ∈ space, ∀ p ∈ rule, f.eval (ec.1.parametrization.eval p.1) () = ∑ a, v (ec.2 a) * (ec.1.shape a).eval p.1 ()

end Mito.Fem
