import Mathlib.Data.Real.Basic
import Mathlib.Data.Set.Basic

/-! # Smooth functions on the line -/

namespace Mito.Quadrature

/-- around every point of `D` the function `f` agrees with a cubic polynomial up to the fourth order, with constant `C`; the coefficients of the
square and of the cube are at most `K` -/
def CubicOn (f : ℝ → ℝ) (D : Set ℝ) (K C : ℝ) : Prop :=
  ∀ x ∈ D, ∃ c1 c2 c3 : ℝ, |c2| ≤ K ∧ |c3| ≤ K ∧
    ∀ y ∈ D, |f y - (f x + c1 * (y - x) + c2 * (y - x) ^ 2 + c3 * (y - x) ^ 3)| ≤ C * |y - x| ^ 4

end Mito.Quadrature
