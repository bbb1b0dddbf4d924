import Verif.Mesh.Mesh
import Verif.Topology.Model

/-!
# Model of geometric simplices, boundaries and filters of meshes

A node is named by its id (its address) and knows its vertex; its point plays no role here.  The
functions create simplices in the global topology, so they take and return the topology.  The handles
held by geometric simplices are not counted: nothing is erased meanwhile.
-/

namespace Mito.Meshes

open Mito.Topology

/-- A node: `GeometricSimplex<0, D>`, lib/mito/geometry/GeometricSimplex.h:167-222, held by a shared
pointer (`node_t`, lib/mito/geometry/api.h:28-30).  `id` is the pointer; the point is left out. -/
structure Node where
  id : Nat
  vertex : Id
deriving DecidableEq, Repr

/-- Data members of `GeometricSimplex`, lib/mito/geometry/GeometricSimplex.h:160-165 -/
structure GCell where
  simplex : Id
  nodes : List Node
deriving DecidableEq, Repr

/-- the facets of a cell of order `N + 1` as seen by the mesh: `composition()` of its simplex with
footprint id and orientation, lib/mito/mesh/Mesh.h:73-78 -/
def facets (t : Topo) (N : Nat) (c : GCell) : List (Nat × Int) :=
  (t.composition (N + 1) c.simplex).map fun x => (t.fp N x, t.sg N x)

/-- `std::ranges::find_if` for each vertex; `none` is dereferencing the end iterator -/
def findNodes (nodes : List Node) : List Id → Option (List Node)
  | [] => some []
  | v :: vs =>
    match nodes.find? (fun n => n.vertex = v), findNodes nodes vs with
    | some n, some ns => some (n :: ns)
    | _, _ => none

/-- Constructor of `GeometricSimplex` from nodes, lib/mito/geometry/GeometricSimplex.h:76-84 and
98-104. -/
def mkCell (t : Topo) (nodes : List Node) : Option (Topo × GCell) :=
  match t.fromVertices (nodes.map (·.vertex)) with
  | none => none
  | some (t1, o) => some (t1, ⟨o, nodes⟩)

/-- The assertion of the constructor from a simplex and nodes,
lib/mito/geometry/GeometricSimplex.h:64-74 and 87-96. -/
def GCell.sanityCheck (t : Topo) (N : Nat) (c : GCell) : Bool :=
  match t.verticesOf N c.simplex with
  | none => false
  | some l => Combinatorics.permutationSign l (c.nodes.map (·.vertex)) == some 1

/-- `geometric_simplex(simplex, nodes)`, lib/mito/geometry/utilities.h:77-112 for order `N ≥ 1`, and
114-137 for order 0, where the result is the node of the vertex. -/
def geometricSimplex (t : Topo) (N : Nat) (o : Id) (nodes : List Node) : Option (Topo × GCell) :=
  match N with
  | 0 =>
    match nodes.find? (fun n => n.vertex = t.fp 0 o) with
    | none => none
    | some n => some (t, ⟨o, [n]⟩)
  | N + 1 =>
    match t.verticesOf (N + 1) o with
    | none => none
    | some vs =>
      match findNodes nodes vs with
      | none => none
      | some ns => mkCell t ns

/-- `geometry::flip`, lib/mito/geometry/utilities.h:140-145 -/
def GCell.flip (t : Topo) (N : Nat) (c : GCell) : Option (Topo × GCell) :=
  match t.flip N c.simplex with
  | none => none
  | some (t1, o) => geometricSimplex t1 N o c.nodes

/-- a `for` loop collecting what each round inserts, threading the topology -/
def loop {β γ : Type} (f : Topo → β → Option (Topo × List γ)) : Topo → List β → Option (Topo × List γ)
  | t, [] => some (t, [])
  | t, x :: xs =>
    match f t x with
    | none => none
    | some (t1, r) =>
      match loop f t1 xs with
      | none => none
      | some (t2, rs) => some (t2, r ++ rs)

/-- keep the subcells on the boundary; `none` is the exception of `isOnBoundary` -/
def filterOnBoundary (m : Mesh GCell) (t : Topo) (N : Nat) : List Id → Option (List Id)
  | [] => some []
  | x :: xs =>
    match m.isOnBoundary (t.fp N x, t.sg N x), filterOnBoundary m t N xs with
    | some b, some ys => some (if b then x :: ys else ys)
    | _, _ => none

/-- `boundary_size`, lib/mito/mesh/Boundary.icc:12-31, for a mesh of cells of order `N + 1` -/
def boundarySize (t : Topo) (N : Nat) (m : Mesh GCell) : Option Nat :=
  match m.cellList with
  | none => none
  | some cells =>
    match cells.mapM fun c => filterOnBoundary m t N (t.composition (N + 1) c.simplex) with
    | none => none
    | some ls => some (ls.map List.length).sum

/-- one round of the loop in `boundary`, lib/mito/mesh/Boundary.icc:41-51 -/
def boundaryOfCell (N : Nat) (m : Mesh GCell) (t : Topo) (c : GCell) : Option (Topo × List GCell) :=
  match filterOnBoundary m t N (t.composition (N + 1) c.simplex) with
  | none => none
  | some xs =>
    loop (fun t x =>
      match geometricSimplex t N x c.nodes with
      | none => none
      | some (t1, d) => some (t1, [d])) t xs

/-- The cells inserted by `boundary`, lib/mito/mesh/Boundary.icc:33-56, in order, for a mesh of cells
of order `N + 1`.  For `N ≥ 1` they are inserted in an empty mesh (`insertAll_cells`); for `N = 0` the
boundary is an `unordered_set` of nodes (`boundaryNodes`). -/
def boundary (t : Topo) (N : Nat) (m : Mesh GCell) : Option (Topo × List GCell) :=
  match m.cellList with
  | none => none
  | some cells => loop (boundaryOfCell N m) t cells

/-- the boundary of a mesh of segments: the set of nodes, lib/mito/mesh/Boundary.h:27-36 -/
def boundaryNodes (t : Topo) (m : Mesh GCell) : Option (List Node) :=
  match boundary t 0 m with
  | none => none
  | some (_, l) => some (l.flatMap (·.nodes)).dedup

/-- `_insert_filtered_subcells`, lib/mito/mesh/Filter.icc:12-42: the cells of order `I` inserted for
the subcell `o` of order `I + d` -/
def filterSub (I : Nat) (nodes : List Node) : (d : Nat) → Topo → Id → Option (Topo × List GCell)
  | 0, t, o =>
    match geometricSimplex t I o nodes with
    | none => none
    | some (t1, c) => some (t1, [c])
  | d + 1, t, o => loop (filterSub I nodes d) t (t.composition (I + d + 1) o)

/-- `filter<I>`, lib/mito/mesh/Filter.icc:44-59, for a mesh of cells of order `I + d + 1`: the cells
inserted in the filtered mesh, in order -/
def filter (t : Topo) (I d : Nat) (m : Mesh GCell) : Option (Topo × List GCell) :=
  match m.cellList with
  | none => none
  | some cells => loop (fun t c => filterSub I c.nodes (d + 1) t c.simplex) t cells

/-- `get_nodes`, lib/mito/mesh/utilities.h:15-27, for a set of nodes -/
def getNodes (cells : List GCell) : List Node := (cells.flatMap (·.nodes)).dedup

end Mito.Meshes
