import Verif.Mesh.Boundary
import Verif.Spec.Mesh
import Verif.Spec.Topology

/-! # Specification vocabulary for boundaries and filters of meshes (C25, C26, C28, C84) -/

namespace Mito.Meshes

open Mito.Topology

/-- a geometric simplex of order `N` on a simplex alive, with nodes matching the vertices (the
assertion of the constructor) -/
def CellOk (t : Topo) (N : Nat) (c : GCell) : Prop :=
  c.simplex ∈ (t.lvl N).ors ∧ c.sanityCheck t N = true

/-- `d` is the geometric simplex on the simplex `x.1`, with nodes among `x.2` sitting on the vertices
of `x.1` in their order -/
def Places (t : Topo) (N : Nat) (x : Id × List Node) (d : GCell) : Prop :=
  d.simplex = x.1 ∧ (∀ n ∈ d.nodes, n ∈ x.2) ∧
    t.verticesOf N x.1 = some (d.nodes.map (·.vertex))

/-- no cell has the facet `x` with the opposite orientation -/
def Unpaired (t : Topo) (N : Nat) (cells : List GCell) (x : Id) : Prop :=
  ∀ c ∈ cells, (t.fp N x, - t.sg N x) ∉ facets t N c

instance (t : Topo) (N : Nat) (cells : List GCell) (x : Id) : Decidable (Unpaired t N cells x) := by
  unfold Unpaired; infer_instance

/-- The facets (with the nodes of their cell) of all the cells, in order. -/
def occurrences (t : Topo) (N : Nat) (cells : List GCell) : List (Id × List Node) :=
  cells.flatMap fun c => (t.composition (N + 1) c.simplex).map fun x => (x, c.nodes)

/-- the facets, in order, whose opposite does not occur -/
def boundaryFacets (t : Topo) (N : Nat) (cells : List GCell) : List (Id × List Node) :=
  (occurrences t N cells).filter fun x => Unpaired t N cells x.1

/-- all chains of subsimplices leading `d` orders down -/
def subcells (t : Topo) (I : Nat) : (d : Nat) → Id → List Id
  | 0, o => [o]
  | d + 1, o => (t.composition (I + d + 1) o).flatMap (subcells t I d)

end Mito.Meshes
