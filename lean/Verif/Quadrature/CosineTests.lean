import Verif.Quadrature.Integrator
import Verif.Quadrature.Tables
import Verif.Spec.RefineIntegral
import Verif.Spec.Parallel
import Mathlib.Data.List.Rotate

/-!
# Model of the tests and the benchmark that integrate `cos (x y)` over the unit square

The numbers are reals.  The cells of a manifold are given by the coordinates of their nodes; the ids of their simplices are their
positions in the mesh.  The cells of a mesh that was read from a file are those of C98 and C103; the ones of a mesh that was inserted are
in the order in which they are inserted, as those of a file.
-/

namespace Mito.CosineTests

open Mito.Functions Mito.Quadrature Mito.Load Mito.Parallel Mito.Refine

/-- `x_0 * x_1`, tests/mito.lib/quadrature/quadrature_triangle_2D.cc:104 -/
def product : Expr (.vec 2) .scalar := .mul (.component 0) (.component 1)

/-- `mito::functions::cos(x_0 * x_1)`, tests/mito.lib/integration/quadrature_load_mesh_2D.cc:33, quadrature_load_mesh_2D_mpi.cc:52 in the
same directory, tests/mito.lib/quadrature/quadrature_triangle_2D.cc:71 and benchmarks/mito.lib/integration/integration.cc:73 -/
def cosine : Expr (.vec 2) .scalar := .compS (.prim .cos) product

/-- the function in tests/mito.ext/integrate_2D.py:11-12; the field of the extension calls it -/
noncomputable def pythonCosine (x : Val (.vec 2)) : ℝ := Real.cos (x 0 * x 1)

/-- `exact`, tests/mito.lib/integration/quadrature_load_mesh_2D.cc:39, quadrature_load_mesh_2D_mpi.cc:63 in the same directory,
tests/mito.lib/quadrature/quadrature_triangle_2D.cc:75 and benchmarks/mito.lib/integration/integration.cc:79 -/
def exact : ℚ := 9460830607878437 / 10 ^ 16

/-- the cells of a manifold on a mesh of triangles -/
noncomputable def fileCells (coords : List (List ℚ)) (cells : List (List Nat)) : List (Cell 1 2) :=
  cells.zipIdx.map fun c => ⟨c.2, corners coords c.1⟩

/-- `integrator<GAUSS, 2>(manifold(mesh, coord_system)).integrate(f)`,
tests/mito.lib/integration/quadrature_load_mesh_2D.cc:30-38 -/
noncomputable def result (debug : Bool) (coords : List (List ℚ)) (cells : List (List Nat)) (f : Val (.vec 2) → ℝ) : Outcome :=
  integrate debug triangle2 (fun c => (Geometry.cartesian 2).volume c.nodes) (fileCells coords cells) f

/-- the nodes in tests/mito.lib/quadrature/quadrature_triangle_2D.cc:52-56 -/
def fourCoords : List (List ℚ) := [[0, 0], [1, 0], [1, 1], [1 / 2, 1 / 2], [0, 1]]

/-- the cells in tests/mito.lib/quadrature/quadrature_triangle_2D.cc:59-62 -/
def fourCells : List (List Nat) := [[0, 1, 3], [1, 2, 3], [2, 4, 3], [4, 0, 3]]

/-- the nodes in benchmarks/mito.lib/integration/integration.cc:45-48 -/
def corner (i : Nat) : PNode ℝ := ⟨i, fun k => match i, k with
  | 1, 0 => 1
  | 2, 0 => 1
  | 2, 1 => 1
  | 3, 1 => 1
  | _, _ => 0⟩

/-- the mesh after `flip_diagonal` in benchmarks/mito.lib/integration/integration.cc:51-60: the diagonal from 1 to 3 is replaced by the one
from 0 to 2; the two triangles keep their direction (C32).  Which of the two comes first and with which node each starts depends on the
addresses. -/
def Flipped (mesh : List (List (PNode ℝ))) : Prop :=
  ∃ a b, a ~r [corner 0, corner 1, corner 2] ∧ b ~r [corner 0, corner 2, corner 3] ∧ (mesh = [a, b] ∨ mesh = [b, a])

/-- the `result` of benchmarks/mito.lib/integration/integration.cc:63-78 for any number of subdivisions -/
noncomputable def benchmark (debug : Bool) (mesh : List (List (PNode ℝ))) (subdivisions : Nat) : Outcome :=
  integrate debug triangle2 (fun c => (Geometry.cartesian 2).volume c.nodes) (meshCells 1 2 (tetra subdivisions 4 mesh).2)
    (fun x => cosine.eval x ())

end Mito.CosineTests
