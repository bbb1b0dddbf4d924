import Verif.Mesh.Boundary
import Verif.Utilities.Numbering

/-!
# Model of loading a mesh: lib/mito/io/summit/reader.h on top of the topology

`Verif/IO/Summit.lean` models how the file is read.  Here the numbers read are turned into nodes and cells: the nodes are on new vertices of
the topology and the cells are on simplices of it.  The handles of the nodes on their vertices and of the cells on their simplices are
counted.  Coordinates are left out: a node keeps its position in the list of the nodes read.
-/

namespace Mito.Load

open Mito.Topology Mito.Meshes Mito.Numbering

/-- `geometry::node`, lib/mito/geometry/factories.h:35-52: a node on a new vertex.  `address` is the address of the node. -/
def makeNode (t : Topo) (address : Nat) : Option (Topo × Node) :=
  match t.vertex with
  | none => none
  | some (t1, v) => some (t1.setExtF 0 v (t1.extF 0 v + 1), ⟨address, v⟩)

/-- `readVertices`, lib/mito/io/summit/reader.h:11-38 -/
def makeNodes : Topo → List Nat → Option (Topo × List Node)
  | t, [] => some (t, [])
  | t, a :: as =>
    match makeNode t a with
    | none => none
    | some (t1, n) =>
      match makeNodes t1 as with
      | none => none
      | some (t2, ns) => some (t2, n :: ns)

/-- the cell that `mesh.insert({ nodes[index[I]]... })` builds, lib/mito/io/summit/reader.h:64-76 with lib/mito/mesh/Mesh.h:190-202.
`none`: an index out of range, or a failed assertion -/
def makeCell (t : Topo) (nodes : List Node) (index : List Nat) : Option (Topo × GCell) :=
  match allSome (index.map fun i => nodes[i]?) with
  | none => none
  | some ns =>
    match mkCell t ns with
    | none => none
    | some (t1, c) => some (t1.hold (index.length - 1) c.simplex, c)

/-- `readElements`, lib/mito/io/summit/reader.h:107-127 -/
def makeCells (nodes : List Node) : Topo → List (List Nat) → Option (Topo × List GCell)
  | t, [] => some (t, [])
  | t, i :: is =>
    match makeCell t nodes i with
    | none => none
    | some (t1, c) =>
      match makeCells nodes t1 is with
      | none => none
      | some (t2, cs) => some (t2, c :: cs)

/-- `reader`, lib/mito/io/summit/reader.h:129-191: the nodes and the cells of the mesh, in the order in which they are inserted.
`addresses` are those of the nodes. -/
def load (t : Topo) (addresses : List Nat) (cells : List (List Nat)) : Option (Topo × List Node × List GCell) :=
  match makeNodes t addresses with
  | none => none
  | some (t1, nodes) =>
    match makeCells nodes t1 cells with
    | none => none
    | some (t2, cs) => some (t2, nodes, cs)

end Mito.Load
