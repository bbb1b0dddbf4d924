import Verif.Functions.Expr
import Mathlib.Analysis.SpecialFunctions.Sqrt

/-!
# The test of functions made from functors

tests/mito.lib/functions/function_from_functor.cc:15-30.  The lambdas round their results; `std::sqrt` is rounded correctly, as IEEE 754
requires.  Simplification: no over- and underflow, and `std::sqrt` of a negative number is zero instead of a NaN.
-/

namespace Mito.Functions

/-- `sqrt`, tests/mito.lib/functions/function_from_functor.cc:18, with a rounding `fl` -/
noncomputable def sqrtFunctor (fl : ℝ → ℝ) : Expr .scalar .scalar := .functor fun x => sc (fl (√(x ())))

/-- `pow2`, tests/mito.lib/functions/function_from_functor.cc:20, with a rounding `fl` -/
noncomputable def pow2Functor (fl : ℝ → ℝ) : Expr .scalar .scalar := .functor fun x => sc (fl (x () * x ()))

/-- `sqrt(pow2)(x)`, tests/mito.lib/functions/function_from_functor.cc:26; the composition is that of lib/mito/functions/function.h:498-546 -/
noncomputable def sqrtOfPow2 (fl : ℝ → ℝ) (x : ℝ) : ℝ := (Expr.compS (sqrtFunctor fl) (pow2Functor fl)).eval (sc x) ()

/-- `pow2(sqrt)(x)`, tests/mito.lib/functions/function_from_functor.cc:29 -/
noncomputable def pow2OfSqrt (fl : ℝ → ℝ) (x : ℝ) : ℝ := (Expr.compS (pow2Functor fl) (sqrtFunctor fl)).eval (sc x) ()

/-- `x`, tests/mito.lib/functions/function_from_functor.cc:23: the literal is rounded -/
noncomputable def functorPoint (fl : ℝ → ℝ) : ℝ := fl (11 / 10)

end Mito.Functions
