import Mathlib.Algebra.Order.Field.Power
import Mathlib.Data.Real.Basic

/-!
# Specification vocabulary for double arithmetic (C136)

Numbers with 53 binary digits and rounding to a nearest one.  There are no bounds for the exponents: over- and underflow are left out.
-/

namespace Mito.Functions

/-- a number with 53 binary digits -/
def IsDouble (x : ℝ) : Prop := ∃ m e : ℤ, |m| < 2 ^ 53 ∧ x = m * (2 : ℝ) ^ e

/-- a rounding to a nearest number with 53 binary digits, whichever of two -/
def Nearest (fl : ℝ → ℝ) : Prop := ∀ y, IsDouble (fl y) ∧ ∀ z, IsDouble z → |fl y - y| ≤ |z - y|

end Mito.Functions
