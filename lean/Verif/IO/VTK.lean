import Verif.Utilities.Numbering

/-!
# Model of the VTK grids of lib/mito/io/vtk

VTK itself is not modelled: a grid is the list of its points and, for each cell, the list of point ids.
-/

namespace Mito.VTK

open Mito.Numbering

/-- `vtkUnstructuredGrid`: the points in order of insertion, the ids of the points of each cell -/
structure Grid (C : Type) where
  points : List C
  cells : List (List Nat)
deriving DecidableEq, Repr

variable {ν κ C : Type} [DecidableEq κ]

/-- one round of the first loop, lib/mito/io/vtk/MeshVTKWriter.h:46-55: the map and the points -/
def addPoint (key : ν → κ) (coords : ν → C) (s : (List (κ × Nat) × Nat) × List C) (n : ν) :
    (List (κ × Nat) × Nat) × List C :=
  match lookup s.1.1 (key n) with
  | some _ => s
  | none => (Numbering.step s.1 (key n), s.2 ++ [coords n])

/-- `_create_vtk_grid`, lib/mito/io/vtk/MeshVTKWriter.h:34-88 (`key` is the node itself) and
lib/mito/io/vtk/NodeVTKWriter.h:42-102 (`key` is the discretization node): the map `_nodes` and the grid.
`cells` are the node lists of the cells, `coords n` are the (cartesian) coordinates of the point of `n`. -/
def createGrid (key : ν → κ) (coords : ν → C) (cells : List (List ν)) :
    Option (List (κ × Nat) × Grid C) :=
  let s := (cells.flatten).foldl (addPoint key coords) (([], 0), [])
  match allSome (cells.map fun c => allSome (c.map fun n => lookup s.1.1 (key n))) with
  | none => none
  | some ids => some (s.1.1, ⟨s.2, ids⟩)

/-- `_attach_field` for meshes and function spaces, lib/mito/io/vtk/FieldVTKWriter.h:84-108: `order` is the
order in which the map is visited, `none` a tuple that was not set -/
def attachField {Y : Type} (order : List (κ × Nat)) (nPoints : Nat) (field : κ → Y) :
    List (Option Y) :=
  order.foldl (fun v e => v.set e.2 (some (field e.1))) (List.replicate nPoints none)

/-- `_create_vtk_grid` of a point cloud, lib/mito/io/vtk/PointCloudVTKWriter.h:36-59: `order` is the order in
which the set of points is visited -/
def cloudGrid (coords : κ → C) (order : List κ) : Grid C := ⟨order.map coords, []⟩

/-- `_attach_field` for point clouds, lib/mito/io/vtk/FieldVTKWriter.h:109-118 -/
def attachCloudField {Y : Type} (order : List κ) (field : κ → Y) : List Y := order.map field

end Mito.VTK
