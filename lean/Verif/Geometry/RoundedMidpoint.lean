import Mathlib.Algebra.Field.Defs
import Mathlib.Algebra.Order.Field.Rat

/-!
# Differences, sums and midpoints of cartesian coordinates with rounding

The operators of lib/mito/geometry/cartesian/algebra.h:13-66 and `CoordinateSystem::midpoint` with a rounding `rd` after every operation; without
rounding they are those of `Verif/Geometry/Coordinates.lean`.  Simplification: no over- and underflow.
-/

namespace Mito.RoundedMidpoint

variable {K : Type} [Field K] (rd : K → K) {d : Nat}

/-- `A - B`, lib/mito/geometry/cartesian/algebra.h:27, 46, 65 -/
def sub (A B : Fin d → K) : Fin d → K := fun i => rd (A i - B i)

/-- `A + v`, lib/mito/geometry/cartesian/algebra.h:18, 37, 56 -/
def add (A v : Fin d → K) : Fin d → K := fun i => rd (A i + v i)

/-- `CoordinateSystem::midpoint`, lib/mito/geometry/CoordinateSystem.h:95-100 -/
def midpoint (A B : Fin d → K) : Fin d → K := add rd A fun i => rd (1 / 2 * sub rd B A i)

end Mito.RoundedMidpoint
