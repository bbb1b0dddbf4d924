import Verif.Mesh.Load
import Verif.Spec.Load
import Verif.Spec.Boundary
import Verif.Spec.Coordinates

/-!
# Specification vocabulary for meshes of simplices read from files (C113)

`cells` are lists of indices of nodes: segments, triangles or tetrahedra.
-/

namespace Mito.Load

open Mito.Topology Mito.Meshes Mito.Combinatorics

/-- the faces of a triangle or a tetrahedron in the directions of the code: those of a tetrahedron of positive volume point inwards
(C77, `boundary_points_inwards`) -/
def faces {α : Type} : List α → List (List α)
  | [a, b, c] => [[a, b], [b, c], [c, a]]
  | [a, b, c, d] => [[a, b, c], [b, d, c], [d, b, a], [d, a, c]]
  | _ => []

/-- the second face is the first with the other orientation -/
def Opposite (f g : List Nat) : Prop := permutationSign g f = some (-1)

instance (f g : List Nat) : Decidable (Opposite f g) := by unfold Opposite; infer_instance

/-- the faces without an opposite face -/
def outerFaces (cells : List (List Nat)) : List (List Nat) :=
  (cells.flatMap faces).filter fun f => ∀ g ∈ cells.flatMap faces, ¬ Opposite f g

/-- six times the signed volume of a tetrahedron -/
def sixVolume (coords : List (List ℚ)) : List Nat → ℚ
  | [i, j, k, l] =>
    let x (a b : Nat) := coordinate coords a b - coordinate coords i b
    x j 0 * (x k 1 * x l 2 - x k 2 * x l 1) - x j 1 * (x k 0 * x l 2 - x k 2 * x l 0) + x j 2 * (x k 0 * x l 1 - x k 1 * x l 0)
  | _ => 0

/-- no two faces of the cells are the same with the same orientation -/
def NoCommonFaces (cells : List (List Nat)) : Prop := (cells.flatMap faces).Pairwise fun f g => permutationSign g f ≠ some 1

/-- every face on the boundary is on one side of the unit cube -/
def OnCube (coords : List (List ℚ)) (cells : List (List Nat)) : Prop :=
  ∀ f ∈ outerFaces cells, ∃ k ∈ [0, 1, 2], ∃ s ∈ ([0, 1] : List ℚ), ∀ i ∈ f, coordinate coords i k = s

/-- the position of a vertex: that of the node on it -/
noncomputable def place3 (coords : List (List ℚ)) (nodes : List Node) (v : Topology.Id) : Fin 3 → ℝ :=
  fun k => (coordinate coords ((nodes.map (·.vertex)).idxOf v) k : ℝ)

end Mito.Load
