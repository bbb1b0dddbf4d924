import Verif.Spec.Stokes

/-! # Specification vocabulary for functions that are constant on the cells of a mesh (C80) -/

namespace Mito.Meshes

open Mito.Topology

/-- `χ` is constant on every cell (and so on every connected component of the mesh) -/
def ConstantOn (cells : List GCell) (χ : Id → ℝ) : Prop := ∀ c ∈ cells, ∀ v ∈ c.vertices, ∀ w ∈ c.vertices, χ v = χ w

/-- `χ` is zero at the vertices of all the cells -/
def ZeroOn (cells : List GCell) (χ : Id → ℝ) : Prop := ∀ c ∈ cells, ∀ v ∈ c.vertices, χ v = 0

/-- the signed length of the segment between two vertices at the positions `p` -/
def extent (p : Id → ℝ) : List Id → ℝ
  | [a, b] => p b - p a
  | _ => 0

/-- there is one node at each vertex -/
def OneNode (cells : List GCell) : Prop :=
  ∀ c ∈ cells, ∀ c' ∈ cells, ∀ n ∈ c.nodes, ∀ n' ∈ c'.nodes, n.vertex = n'.vertex → n = n'

end Mito.Meshes
