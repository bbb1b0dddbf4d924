import Verif.Functions.Expr
import Mathlib.Analysis.SpecialFunctions.Trigonometric.Basic

/-!
# The functions of benchmarks/mito.lib/pdes/poisson.cc

The number `std::numbers::pi` is taken to be exact.
-/

namespace Mito.Fem

open Mito.Functions

/-- `sin(pi * x)` and `sin(pi * y)`, with `x` and `y` of benchmarks/mito.lib/pdes/poisson.cc:32-35.  Calling a function with a function is
composition, lib/mito/functions/library_functions.h:42-47 -/
noncomputable def sinPi (i : Fin 2) : Expr (.vec 2) .scalar := .compS (.prim .sin) (.smul Real.pi (.component i))

/-- `f`, benchmarks/mito.lib/pdes/poisson.cc:77-79 -/
noncomputable def forcing : Expr (.vec 2) .scalar := (Expr.smul (2.0 * Real.pi * Real.pi) (sinPi 0)).mul (sinPi 1)

/-- `u_ex`, benchmarks/mito.lib/pdes/poisson.cc:110-112 -/
noncomputable def exactSolution : Expr (.vec 2) .scalar := (sinPi 0).mul (sinPi 1)

end Mito.Fem
