import Verif.Quadrature.Tables
import Mathlib.Algebra.MvPolynomial.Degrees
import Mathlib.MeasureTheory.Integral.IntervalIntegral.Basic

/-! # Specification of quadrature rules (C48) -/

namespace Mito.Quadrature

open MeasureTheory

/-- the value of a quadrature rule -/
noncomputable def apply {d : Nat} (t : Table d) (f : (Fin d → ℝ) → ℝ) : ℝ := (t.rule.map fun p => p.2 * f p.1).sum

/-- the mean of a function over the segment from 0 to 1 -/
noncomputable def mean1 (f : (Fin 1 → ℝ) → ℝ) : ℝ := ∫ x in (0 : ℝ)..1, f ![x]

/-- the mean of a function over the triangle `x, y ≥ 0`, `x + y ≤ 1` -/
noncomputable def mean2 (f : (Fin 2 → ℝ) → ℝ) : ℝ := 2 * ∫ x in (0 : ℝ)..1, ∫ y in (0 : ℝ)..1 - x, f ![x, y]

/-- the mean of a function over the tetrahedron `x, y, z ≥ 0`, `x + y + z ≤ 1` -/
noncomputable def mean3 (f : (Fin 3 → ℝ) → ℝ) : ℝ :=
  6 * ∫ x in (0 : ℝ)..1, ∫ y in (0 : ℝ)..1 - x, ∫ z in (0 : ℝ)..1 - x - y, f ![x, y, z]

/-- the sum of the absolute values of the coefficients -/
noncomputable def size {d : Nat} (p : MvPolynomial (Fin d) ℝ) : ℝ := ∑ m ∈ p.support, |p.coeff m|

/-- the rule integrates all polynomials of the degree, up to an error proportional to the size of the coefficients -/
def Accurate {d : Nat} (mean : ((Fin d → ℝ) → ℝ) → ℝ) (t : Table d) (r : Nat) (ε : ℝ) : Prop :=
  ∀ p : MvPolynomial (Fin d) ℝ, p.totalDegree ≤ r →
    |apply t (fun x => MvPolynomial.eval x p) - mean fun x => MvPolynomial.eval x p| ≤ ε * size p

/-- all points lie in the simplex and all weights are positive -/
def Inside {d : Nat} (t : Table d) : Prop := ∀ p ∈ t, 0 < p.2 ∧ (∀ i, 0 < p.1 i) ∧ ∑ i, p.1 i < 1

end Mito.Quadrature
