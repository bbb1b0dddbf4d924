import Verif.Mesh.Refine
import Verif.Spec.Boundary
import Verif.Spec.Stokes

/-! # Specification vocabulary for boundaries of refined meshes (C92) -/

namespace Mito.Refine

variable {K : Type*}

/-- the cell has all nodes in `s` -/
def holds (s : List Nat) (e : List (PNode K)) : Bool := s.all fun i => (e.map (·.id)).contains i

/-- every node of the cells, of order `N`, is in a facet (`N` different nodes) of one cell only -/
def AllOnBoundary (N : Nat) (L : List (List (PNode K))) : Prop :=
  ∀ d ∈ L, ∀ p ∈ d, ∃ s : List Nat, p.id ∈ s ∧ s.Nodup ∧ s.length = N ∧ L.countP (holds s) = 1

/-- `coarse` is a mesh of simplices of order `N` with the ids of the nodes below `k` -/
def Coarse (N k : Nat) (coarse : List (List (PNode K))) : Prop :=
  ∀ c ∈ coarse, c.length = N + 1 ∧ (c.map (·.id)).Nodup ∧ ∀ p ∈ c, p.id < k

/-- `cells` are the cells of the mesh that `tetra` returns for `n` refinements: their nodes sit, in order, on the vertices `v` of its nodes,
which are different for different nodes -/
def RefinedFrom [Field K] (n k : Nat) (coarse : List (List (PNode K))) (v : Nat → Topology.Id) (cells : List Meshes.GCell) : Prop :=
  Function.Injective v ∧ cells.map (·.vertices) = (tetra n k coarse).2.map fun d => d.map fun p => v p.id

end Mito.Refine
