import Verif.Spec.PoissonConvergence
import Verif.Spec.Quadrature
import Verif.Spec.Functions
import Mathlib.Algebra.MvPolynomial.PDeriv

/-! # Specification vocabulary for the divergence theorem with integrators (C96) -/

namespace Mito.Quadrature

open Mito.Functions Mito.Geometry Mito.Meshes Mito.Topology Mito.Fem Mito.Tensor

/-- the cells of a mesh as an integrator sees them -/
def cellOf {n d : Nat} (p : Id → Val (.vec d)) (c : GCell) : Cell n d := ⟨c.simplex, positions (n + 2) p c⟩

/-- The field `normal` is normal to the cell `c` of the boundary, as far as the integrator looks at it: there is a unit vector `M` orthogonal to the cell, it is
the value of the field at the quadrature points, and at the first node the field has the component one along `M`. -/
def NormalOn {n : Nat} (t : Table (n + 1)) (normal : Vec (n + 2) → Vec (n + 2)) (c : Cell n (n + 2)) : Prop :=
  ∃ M : Vec (n + 2), M ⬝ᵥ M = 1 ∧ (∀ a, M ⬝ᵥ (c.nodes a - c.nodes 0) = 0) ∧ normal (c.nodes 0) ⬝ᵥ M = 1 ∧
    ∀ q ∈ t.rule, normal ((parametrization c.nodes).eval q.1) = M

/-- the field whose components are the polynomials `P` -/
def IsPolynomial {d : Nat} (f : Expr (.vec d) (.vec d)) (P : Fin d → MvPolynomial (Fin d) ℝ) : Prop :=
  f.HasRule ∧ (∀ x, f.Smooth x) ∧ ∀ x k, f.eval x k = MvPolynomial.eval x (P k)

/-- the divergence of a polynomial field -/
noncomputable def divPolynomial {d : Nat} (P : Fin d → MvPolynomial (Fin d) ℝ) : MvPolynomial (Fin d) ℝ := ∑ k, MvPolynomial.pderiv k (P k)

/-- the flux of a polynomial field through an edge -/
noncomputable def fluxPolynomial (P : Fin 2 → MvPolynomial (Fin 2) ℝ) (c : Cell 0 2) : MvPolynomial (Fin 2) ℝ :=
  MvPolynomial.C (c.nodes 1 1 - c.nodes 0 1) * P 0 - MvPolynomial.C (c.nodes 1 0 - c.nodes 0 0) * P 1

end Mito.Quadrature
