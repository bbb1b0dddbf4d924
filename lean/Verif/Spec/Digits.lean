import Mathlib.Algebra.Order.Field.Power
import Mathlib.Algebra.Order.Field.Rat
import Mathlib.Data.Rat.Cast.Order

/-!
# Specification vocabulary for the digits of written numbers (C137)

Numbers with `p` digits to the base `b`, and rounding to a nearest one.  There are no bounds for the exponents.
-/

namespace Mito.Printing

/-- a number with `p` digits to the base `b` -/
def HasDigits (b p : ℕ) (x : ℚ) : Prop := ∃ m e : ℤ, |m| < (b : ℤ) ^ p ∧ x = m * (b : ℚ) ^ e

/-- a rounding to a nearest number with `p` digits to the base `b`, whichever of two -/
def NearestDigits (b p : ℕ) (rd : ℚ → ℚ) : Prop := ∀ y, HasDigits b p (rd y) ∧ ∀ z, HasDigits b p z → |rd y - y| ≤ |z - y|

end Mito.Printing
