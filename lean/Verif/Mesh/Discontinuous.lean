import Verif.Mesh.Load

/-!
# Model of loading a discontinuous mesh: lib/mito/io/summit/reader.h with `galerkinT == DG`

As in `Verif/Mesh/Load.lean`, but every cell gets nodes of its own, on the vertices (and points) of the nodes read.  The handles of the
new nodes on their vertices are counted.  Simplification: the nodes read, which the reader drops at its end, are kept.
-/

namespace Mito.Load

open Mito.Topology Mito.Meshes Mito.Numbering

/-- `geometry::node_t<cellT::dim>(nodes[index[I]]->vertex(), nodes[index[I]]->point())...`, lib/mito/io/summit/reader.h:89-90: new nodes
at the addresses `as` on the vertices of the nodes `ns`.  `none`: not one address for each node -/
def renewNodes : Topo → List Nat → List Node → Option (Topo × List Node)
  | t, [], [] => some (t, [])
  | t, a :: as, n :: ns =>
    match renewNodes (t.setExtF 0 n.vertex (t.extF 0 n.vertex + 1)) as ns with
    | none => none
    | some (t1, ms) => some (t1, ⟨a, n.vertex⟩ :: ms)
  | _, _, _ => none

/-- the cell that `mesh.insert` builds, lib/mito/io/summit/reader.h:78-97.  `as` are the addresses of the new nodes -/
def makeCellDG (t : Topo) (nodes : List Node) (as index : List Nat) : Option (Topo × GCell) :=
  match allSome (index.map fun i => nodes[i]?) with
  | none => none
  | some ns =>
    match renewNodes t as ns with
    | none => none
    | some (t1, ms) =>
      match mkCell t1 ms with
      | none => none
      | some (t2, c) => some (t2.hold (index.length - 1) c.simplex, c)

/-- `readElements`, lib/mito/io/summit/reader.h:107-127; `as` are the addresses of the new nodes of each cell -/
def makeCellsDG (nodes : List Node) : Topo → List (List Nat) → List (List Nat) → Option (Topo × List GCell)
  | t, [], [] => some (t, [])
  | t, a :: as, i :: is =>
    match makeCellDG t nodes a i with
    | none => none
    | some (t1, c) =>
      match makeCellsDG nodes t1 as is with
      | none => none
      | some (t2, cs) => some (t2, c :: cs)
  | _, _, _ => none

/-- `reader<cellT, DG>`, lib/mito/io/summit/reader.h:129-191 -/
def loadDG (t : Topo) (addresses : List Nat) (as cells : List (List Nat)) : Option (Topo × List Node × List GCell) :=
  match makeNodes t addresses with
  | none => none
  | some (t1, nodes) =>
    match makeCellsDG nodes t1 as cells with
    | none => none
    | some (t2, cs) => some (t2, nodes, cs)

end Mito.Load
