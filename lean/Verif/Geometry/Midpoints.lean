import Verif.Quadrature.Doubles

/-!
# Barycenters and midpoints in double arithmetic

One coordinate in a Cartesian coordinate system.  `fl` is the rounding after each operation.  Simplification: no over- and underflow.
-/

namespace Mito.Midpoints

/-- how `result /= n` is computed: by division or with the reciprocal (the operators of tensors are those of the library pyre) -/
inductive Division where
  | quotient
  | reciprocal
deriving DecidableEq, Repr

/-- `r / n` -/
def Division.run (fl : ℚ → ℚ) : Division → ℚ → ℕ → ℚ
  | .quotient, r, n => fl (r / n)
  | .reciprocal, r, n => fl (fl (1 / n) * r)

/-- the sum of the loop, lib/mito/geometry/utilities.h:21-27 -/
def offsets (fl : ℚ → ℚ) (x0 : ℚ) (xs : List ℚ) (r : ℚ) : ℚ := xs.foldl (fun r x => fl (r + fl (x - x0))) r

/-- `barycenter`, lib/mito/geometry/utilities.h:13-31: `x0` and `xs` are the coordinates of the nodes -/
def barycenter (fl : ℚ → ℚ) (div : Division) (x0 : ℚ) (xs : List ℚ) : ℚ :=
  fl (x0 + div.run fl (offsets fl x0 (x0 :: xs) (fl (x0 - x0))) (xs.length + 1))

/-- `CoordinateSystem::midpoint`, lib/mito/geometry/CoordinateSystem.h:94-100 -/
def midpoint (fl : ℚ → ℚ) (a b : ℚ) : ℚ := fl (a + fl (1 / 2 * fl (b - a)))

/-- the coordinates of the nodes after any number of refinements, lib/mito/mesh/tetra.h:12-21 (`S`: the coordinates of the first mesh) -/
inductive Refined (fl : ℚ → ℚ) (S : ℚ → Prop) : ℚ → Prop
  | node {a : ℚ} : S a → Refined fl S a
  | mid {a b : ℚ} : Refined fl S a → Refined fl S b → Refined fl S (midpoint fl a b)

/-- the barycenter of a cell: a coordinate for each component of the nodes -/
def barycenters (fl : ℚ → ℚ) (div : Division) : List (List ℚ) → List ℚ
  | [] => []
  | c :: cs => (List.range c.length).map fun i => barycenter fl div (c.getD i 0) (cs.map (·.getD i 0))

/-- what the tests expect: tests/mito.lib/geometry/barycenter_segment_1D.cc:14-34, tests/mito.lib/geometry/barycenter_segment_2D.cc:14-34,
tests/mito.lib/geometry/barycenter_segment_3D.cc:14-34, tests/mito.lib/geometry/barycenter_triangle_2D.cc:14-35,
tests/mito.lib/geometry/barycenter_triangle_3D.cc:14-36 and tests/mito.lib/geometry/barycenter_tetrahedron_3D.cc:14-36 -/
def tests (fl : ℚ → ℚ) (div : Division) : List Bool :=
  [barycenters fl div [[0], [1]] = [fl 0.5],
   barycenters fl div [[0, 0], [1, 0]] = [fl 0.5, 0],
   barycenters fl div [[0, 0, 1], [1, 0, 0]] = [fl 0.5, 0, fl 0.5],
   barycenters fl div [[0, 0], [1, 0], [0.5, 0.5]] = [fl 0.5, fl (1 / 6)],
   barycenters fl div [[0, 0, 0], [1, 0, 0.5], [0.5, 0.5, 0]] = [fl 0.5, fl (1 / 6), fl (1 / 6)],
   barycenters fl div [[0, 0, 0], [1, 0, 0], [0, 1, 0], [0, 0, 1]] = [fl 0.25, fl 0.25, fl 0.25]]

end Mito.Midpoints
