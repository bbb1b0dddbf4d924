import Verif.Mesh.Load
import Verif.Spec.PoissonConvergence

/-!
# Specification vocabulary for meshes read from files (C98)

`coords` are the coordinates of the nodes and `cells` the triangles, as lists of indices of nodes.  All conditions can be decided.
-/

namespace Mito.Load

open Mito.Topology Mito.Meshes Mito.Functions Mito.Fem

/-- a coordinate of a node -/
def coordinate (coords : List (List ℚ)) (i k : Nat) : ℚ := (coords.getD i []).getD k 0

/-- the edges of a triangle with their directions -/
def edges : List Nat → List (Nat × Nat)
  | [i, j, k] => [(i, j), (j, k), (k, i)]
  | _ => []

/-- twice the signed area of a triangle -/
def doubleArea (coords : List (List ℚ)) : List Nat → ℚ
  | [i, j, k] => (coordinate coords j 0 - coordinate coords i 0) * (coordinate coords k 1 - coordinate coords i 1) -
      (coordinate coords k 0 - coordinate coords i 0) * (coordinate coords j 1 - coordinate coords i 1)
  | _ => 0

/-- the triangles are in counterclockwise order and no two have an edge in the same direction -/
def Conforming (coords : List (List ℚ)) (cells : List (List Nat)) : Prop :=
  (∀ c ∈ cells, 0 < doubleArea coords c) ∧ (cells.flatMap edges).Nodup

/-- the edges that are not also those of another triangle -/
def outer (cells : List (List Nat)) : List (Nat × Nat) := (cells.flatMap edges).filter fun e => (e.2, e.1) ∉ cells.flatMap edges

/-- the size of a triangle is `h` at most, and the quotient of the square of its size and its area is `κ` at most; the coordinates are
bounded by `R` -/
def FineCells (coords : List (List ℚ)) (cells : List (List Nat)) (h κ R : ℚ) : Prop :=
  ∀ c ∈ cells, (∀ i ∈ c, ∀ j ∈ c, ∀ k < 2, |coordinate coords i k - coordinate coords j k| ≤ h ∧
      2 * (coordinate coords i k - coordinate coords j k) ^ 2 ≤ κ * doubleArea coords c) ∧
    ∀ i ∈ c, ∀ k < 2, |coordinate coords i k| ≤ R

/-- every edge on the boundary is on one side of the unit square -/
def OnSquare (coords : List (List ℚ)) (cells : List (List Nat)) : Prop :=
  ∀ e ∈ outer cells, ∃ k ∈ [0, 1], ∃ s ∈ ([0, 1] : List ℚ), coordinate coords e.1 k = s ∧ coordinate coords e.2 k = s

instance (coords : List (List ℚ)) (cells : List (List Nat)) : Decidable (Conforming coords cells) := by unfold Conforming; infer_instance
instance (coords : List (List ℚ)) (cells : List (List Nat)) (h κ R : ℚ) : Decidable (FineCells coords cells h κ R) := by
  unfold FineCells; infer_instance
instance (coords : List (List ℚ)) (cells : List (List Nat)) : Decidable (OnSquare coords cells) := by unfold OnSquare; infer_instance

/-- the position of a vertex: that of the node on it -/
noncomputable def place (coords : List (List ℚ)) (nodes : List Node) (v : Topology.Id) : Val (.vec 2) :=
  fun k => (coordinate coords ((nodes.map (·.vertex)).idxOf v) k : ℝ)

end Mito.Load
