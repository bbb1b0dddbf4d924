import Verif.Mesh.Boundary
import Mathlib.Data.List.Sort

/-!
# Model of lib/mito/mesh/metis/Partitioner.icc

METIS is a parameter `paint` of the model: from the element connectivity, the number of vertices, the
number of elements and the number of partitions it computes a color for each element.  Meshes are the
lists of cells visited by a loop; inserting them in a new mesh is `Mesh.insertAll`
(`insertAll_cells`).
-/

namespace Mito.Meshes

open Mito.Topology

/-- the keys of the map of `_populate_vertices_map`, in order, lib/mito/mesh/metis/Partitioner.icc:12-39:
the vertex at position `i` gets the id `i`.  The order of vertices is that of their addresses. -/
def verticesMap (t : Topo) (N : Nat) (cells : List GCell) : List Id :=
  ((cells.flatMap fun c => t.vertexSet N (t.fp N c.simplex)).dedup).insertionSort (· ≤ ·)

/-- `vertex_to_id.at(v)`; `none` is the exception -/
def vertexToId (ids : List Id) (v : Id) : Option Nat :=
  if v ∈ ids then some (ids.idxOf v) else none

/-- all the values, or the first exception -/
def collect {β γ : Type} (f : β → Option γ) : List β → Option (List γ)
  | [] => some []
  | x :: xs =>
    match f x, collect f xs with
    | some y, some ys => some (y :: ys)
    | _, _ => none

/-- `_populate_element_connectivity`, lib/mito/mesh/metis/Partitioner.icc:41-74.  Writing the entries
`n_vertices_per_element * e + v` in the order of `e` and `v` is the same as appending them, because
every cell has `n_vertices_per_element` nodes. -/
def elementConnectivity (ids : List Id) (cells : List GCell) : Option (List Nat) :=
  collect (fun n : Node => vertexToId ids n.vertex) (cells.flatMap (·.nodes))

/-- `element_index`, lib/mito/mesh/metis/Partitioner.icc:90-95: where the nodes of each element begin -/
def elementIndex (nVerticesPerElement nElements : Nat) : List Nat :=
  (List.range (nElements + 1)).map (· * nVerticesPerElement)

/-- `_create_partitioned_mesh`, lib/mito/mesh/metis/Partitioner.icc:119-139: the cells inserted, in
order; `none` is reading `painting` out of bounds -/
def createPartitioned {β : Type} (rank : Int) : List Int → List β → Option (List β)
  | _, [] => some []
  | [], _ :: _ => none
  | p :: ps, c :: cs =>
    match createPartitioned rank ps cs with
    | none => none
    | some r => some (if p = rank then c :: r else r)

/-- the copy made for a single partition, lib/mito/mesh/metis/Partitioner.icc:146-158: the cells are made
again from their nodes -/
def copyCells (t : Topo) (cells : List GCell) : Option (Topo × List GCell) :=
  loop (fun t c =>
    match mkCell t c.nodes with
    | none => none
    | some (t1, d) => some (t1, [d])) t cells

/-- `partition`, lib/mito/mesh/metis/Partitioner.icc:141-184, for the cells of a mesh of order `N`: the
cells of the partition of rank `rank` -/
def partition (paint : List Nat → Nat → Nat → Int → List Int) (t : Topo) (N : Nat) (cells : List GCell)
    (nPartitions rank : Int) : Option (Topo × List GCell) :=
  if nPartitions = 1 then copyCells t cells
  else
    let ids := verticesMap t N cells
    match elementConnectivity ids cells with
    | none => none
    | some conn =>
      match createPartitioned rank (paint conn ids.length cells.length nPartitions) cells with
      | none => none
      | some r => some (t, r)

end Mito.Meshes
