import Verif.Quadrature.Integrator
import Verif.Mesh.Refine
import Mathlib.Data.Int.Log
import Mathlib.Algebra.Order.Round

/-!
# Specification of rounding errors

Rounding to the nearest `double` is an unspecified function that changes a number by a relative error of at most `u` (`2⁻⁵³`); this is so for
numbers that neither overflow nor underflow.
-/

namespace Mito

/-- `fl` rounds with a relative error of at most `u` -/
def Rounds (u : ℝ) (fl : ℝ → ℝ) : Prop := ∀ x, |fl x - x| ≤ u * |x|

/-- the nearest integer, and the even one of two -/
noncomputable def nearestEven (x : ℝ) : ℤ :=
  if Int.fract x < 1 / 2 then ⌊x⌋ else if 1 / 2 < Int.fract x then ⌊x⌋ + 1 else if Even ⌊x⌋ then ⌊x⌋ else ⌊x⌋ + 1

/-- rounding to the nearest number with 53 binary digits, the even one of two: IEEE 754 without bounds for the exponent -/
noncomputable def nearest (x : ℝ) : ℝ := 2 ^ (Int.log 2 |x| - 52) * nearestEven (x / 2 ^ (Int.log 2 |x| - 52))

/-- the same nodes, with coordinates that differ by at most `ε` -/
def Refine.Close (ε : ℝ) (a a' : Refine.PNode ℝ) : Prop := a'.id = a.id ∧ ∀ i, |a'.pos i - a.pos i| ≤ ε

namespace Quadrature

open Functions Geometry

variable {n d : Nat}

/-- the sum of the magnitudes of the terms of an integral -/
noncomputable def magnitude (t : Table (n + 1)) (volume : Cell n d → ℝ) (cells : List (Cell n d)) (f : Val (.vec d) → ℝ) : ℝ :=
  (cells.map fun c => |volume c| * (t.rule.map fun p => |p.2| * |f ((parametrization c.nodes).eval p.1)|).sum).sum

end Quadrature

end Mito
