import Verif.Fem.Blocks
import Verif.Spec.Elements

/-! # Specification of norms (C59, C70) -/

namespace Mito.Fem

open Mito.Functions

variable {d n : Nat}

/-- the physical gradient of a function given by its values in parametric coordinates -/
noncomputable def physicalGradient (e : Element d n) (f : Expr (.vec d) .scalar) (ξ : Val (.vec d)) : Val (.vec d) :=
  mul (.vecMat d d) ((Functions.gradient f).eval ξ) (inverse (e.jacobian ξ))

/-- the square of the H1 norm of a function on an element by the quadrature rule: the values and the physical gradients -/
noncomputable def h1Square (rule : Rule d) (e : Element d n) (f : Expr (.vec d) .scalar) : ℝ :=
  (rule.map fun p => factor e p * (f.eval p.1 () ^ 2 + ∑ i : Fin d, physicalGradient e f p.1 i ^ 2)).sum

/-- the H1 norm of the difference of two fields by the quadrature rule -/
noncomputable def trueH1Norm {κ : Type} (rule : Rule d) (space : Space κ d n) (u v : Localizable κ d) : ℝ :=
  Real.sqrt ((space.map fun ec => h1Square rule ec.1 ((localize ec.1 ec.2 u).sub (localize ec.1 ec.2 v))).sum)

/-- the weights are not negative and the elements are not inverted -/
def Positive {κ : Type} (rule : Rule d) (space : Space κ d n) : Prop :=
  (∀ p ∈ rule, 0 ≤ p.2) ∧ ∀ ec ∈ space, ∀ ξ, 0 ≤ ec.1.detJ ξ

end Mito.Fem
