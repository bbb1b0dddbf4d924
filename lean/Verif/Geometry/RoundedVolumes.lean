import Verif.Quadrature.Doubles
import Mathlib.Algebra.Field.Defs
import Mathlib.Data.Fin.VecNotation

/-!
# Volumes of cells in double arithmetic

Cartesian coordinates.  `fl` is the rounding after each operation.  Simplifications: no over- and underflow, no fused operations; the one-forms
`dx<I>` of lib/mito/geometry/metric_space.h:42-44 return the component `I` of a vector, and the factor `sqrt(det g)` of
lib/mito/geometry/metric_space.h:58-60 is left out: the products with zeros and ones in them are exact.
-/

namespace Mito.RoundedVolumes

variable {α : Type} [Field α] {d : Nat}

/-- a director: the difference of the coordinates of a node and of the first one, lib/mito/geometry/utilities.h:64-69 -/
def director (fl : α → α) (p q : Fin d → α) : Fin d → α := fun i => fl (q i - p i)

/-- `wedge(dx<i>, dx<j>)(y, z)`, lib/mito/tensor/wedge.h:35-39 with lib/mito/tensor/forms_algebra.h:42-52 -/
def wedge2 (fl : α → α) (i j : Fin d) (y z : Fin d → α) : α := fl (fl (y i * z j) - fl (y j * z i))

/-- `wedge(dx<0>, dx<1>, dx<2>)(x, y, z)`, lib/mito/tensor/wedge.h:42-56 -/
def wedge3 (fl : α → α) (x y z : Fin 3 → α) : α :=
  fl (fl (fl (x 0 * wedge2 fl 1 2 y z) + fl (x 1 * wedge2 fl 2 0 y z)) + fl (x 2 * wedge2 fl 0 1 y z))

/-- `volume` of a triangle in the plane, lib/mito/manifolds/Manifold.h:118-139 -/
def triangle (fl : α → α) (p q r : Fin 2 → α) : α :=
  fl (fl (1 / 2) * wedge2 fl 0 1 (director fl p q) (director fl p r))

/-- `volume` of a tetrahedron in space, lib/mito/manifolds/Manifold.h:118-139 -/
def tetrahedron (fl : α → α) (p q r s : Fin 3 → α) : α :=
  fl (fl (1 / 6) * wedge3 fl (director fl p q) (director fl p r) (director fl p s))

/-- a triangle with decimal coordinates, almost flat -/
def flat : Fin 3 → Fin 2 → ℚ :=
  ![![Quadrature.rnd 0.2, Quadrature.rnd 2.9], ![Quadrature.rnd 0.7, Quadrature.rnd 1.8], ![Quadrature.rnd 1.7, Quadrature.rnd (-0.4)]]

/-- a triangle with decimal coordinates that is not flat -/
def ordinary : Fin 3 → Fin 2 → ℚ :=
  ![![Quadrature.rnd 2.6, Quadrature.rnd (-0.4)], ![Quadrature.rnd 0.3, Quadrature.rnd (-0.3)], ![Quadrature.rnd 0.2, Quadrature.rnd 0.8]]

end Mito.RoundedVolumes
