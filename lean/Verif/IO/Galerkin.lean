import Verif.IO.Printing

/-!
# Nodes of meshes that are read as discontinuous ones

With `galerkinT == DG` the reader makes new nodes for each cell, on the points of the nodes of the file.  The nodes of a mesh are counted by
the mesh field on it, as in tests/mito.lib/io/summit_to_summit_mesh_2D.cc.
-/

namespace Mito.Printing

open Mito.Summit Mito.Numbering

/-- the cells of a discontinuous mesh, lib/mito/io/summit/reader.h:78-95: `ids` are the new nodes of each cell.  Simplification: no
coincidence is made between the shapes of `ids` and `cells`, which is a hypothesis of the theorems -/
def readCellsDG (ids cells : List (List Nat)) : List Cell := List.zipWith (List.zipWith fun a i => ⟨a, i⟩) ids cells

/-- `mesh_field(mesh, name).size()`, lib/mito/discrete/factories.h:23-36 and lib/mito/mesh/utilities.h:15-27: each node is inserted once -/
def fieldSize (cells : List Cell) : Nat := (number 0 (cells.flatMap fun c => c.map (·.id))).length

/-- how a mesh is read: the nodes of the file, lib/mito/io/summit/reader.h:61-75, or new ones for each cell, 78-95 -/
inductive Galerkin where
  | CG
  | DG (ids : List (List Nat))

/-- the cells of the mesh, lib/mito/io/summit/reader.h:61-95 -/
def Galerkin.cells : Galerkin → List (List Nat) → List Cell
  | .CG, cs => readCells cs
  | .DG ids, cs => readCellsDG ids cs

/-- the new nodes are as many as needed and no two of them are the same: they are all held by the mesh, lib/mito/io/summit/reader.h:89-90 -/
def Galerkin.Fresh : Galerkin → List (List Nat) → Prop
  | .CG, _ => True
  | .DG ids, cs => ids.map List.length = cs.map List.length ∧ ids.flatten.Nodup

end Mito.Printing
