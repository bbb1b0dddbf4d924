import Verif.Geometry.Coordinates
import Verif.Spec.Load

/-!
# Volumes of manifolds on meshes of files

The cells of a mesh are given by the coordinates of their nodes, in the order in which the cell keeps them (the order of the file,
lib/mito/geometry/GeometricSimplex.h:99-103).  Sums of real numbers do not depend on the order of the cells.
-/

namespace Mito.Geometry

open Mito.Tensor

variable {d : Nat}

/-- `Manifold::volume()` of a manifold, lib/mito/manifolds/Manifold.h:108-116 -/
noncomputable def total (S : System d) (cells : List (Fin (d + 1) → Vec d)) : ℝ := cells.foldl (fun result cell => result + S.volume cell) 0

/-- `Manifold::volume()` of a submanifold with normal fields, lib/mito/manifolds/Manifold.h:108-116 -/
noncomputable def subTotal {k n : Nat} (S : System (k + n)) (normals : Fin k → Vec (k + n) → Vec (k + n))
    (cells : List (Fin (n + 1) → Vec (k + n))) : ℝ := cells.foldl (fun result cell => result + S.subVolume normals cell) 0

/-- the same points in the coordinate system made from another one, lib/mito/geometry/CoordinateSystem.h:33-44 -/
def changed {n : Nat} (transform : Vec d → Vec d) (cells : List (Fin (n + 1) → Vec d)) : List (Fin (n + 1) → Vec d) :=
  cells.map fun cell a => transform (cell a)

/-- the coordinates of the nodes of a cell of a file -/
noncomputable def cellNodes {n : Nat} (coords : List (List ℚ)) (cell : List Nat) : Fin (n + 1) → Vec d :=
  fun a k => (Load.coordinate coords (cell.getD a 0) k : ℝ)

/-- the normal field of tests/mito.lib/manifolds/surface_half_sphere_cartesian.cc:24-31 -/
noncomputable def radialNormal (x : Vec 3) : Vec 3 :=
  let phi := atan2 (x 1) (x 0)
  let theta := atan2 (Real.sqrt (x 1 ^ 2 + x 0 ^ 2)) (x 2)
  (Real.sin theta * Real.cos phi) • ![1, 0, 0] + (Real.sin theta * Real.sin phi) • ![0, 1, 0] + Real.cos theta • ![0, 0, 1]

/-- the normal field of tests/mito.lib/manifolds/surface_half_sphere_spherical.cc:20-22 -/
def sphericalNormal (_ : Vec 3) : Vec 3 := ![1, 0, 0]

/-- the volume of a tetrahedron by the determinant of its vertices, tests/mito.lib/geometry/cube_volume.cc:37-73 -/
noncomputable def determinantVolume (cell : Fin 4 → Vec 3) : ℝ :=
  |Matrix.det (Matrix.of fun v : Fin 4 => (Fin.snoc (cell v) 1 : Fin 4 → ℝ))| / (Nat.factorial 3 : ℝ)

/-- `tensor::cross` of two vectors in space, used in tests/mito.lib/manifolds/triangle_3D.cc:27-30 -/
def cross (u v : Vec 3) : Vec 3 := ![u 1 * v 2 - u 2 * v 1, u 2 * v 0 - u 0 * v 2, u 0 * v 1 - u 1 * v 0]

/-- the constant normal field of tests/mito.lib/manifolds/triangle_3D.cc:27-30 for the triangle with the given nodes -/
noncomputable def triangleNormal (cell : Fin 3 → Vec 3) (_ : Vec 3) : Vec 3 :=
  let c := cross ((cartesian 3).sub (cell 1) (cell 0)) ((cartesian 3).sub (cell 2) (cell 0))
  (norm c)⁻¹ • c

end Mito.Geometry
