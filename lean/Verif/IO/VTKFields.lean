import Verif.IO.VTK
import Verif.Fem.DiscreteField
import Verif.Geometry.Coordinates

/-!
# Model of the VTK writers with fields: points in all coordinates, `record`

VTK itself is not modelled: `vtkFieldData::AddArray` replaces the array of the same name, if there is one, in its place, and appends the array
otherwise.  A value is the list of its components.
-/

namespace Mito.VTK

open Mito.Numbering Mito.Tensor Mito.Geometry

/-! ### points -/

/-- cartesian coordinates in one dimension, lib/mito/io/vtk/vtk_point.h:33-40 -/
def vtkPoint1 (x : Vec 1) : Vec 3 := ![x 0, 0, 0]

/-- cartesian coordinates in two dimensions, lib/mito/io/vtk/vtk_point.h:24-31 -/
def vtkPoint2 (x : Vec 2) : Vec 3 := ![x 0, x 1, 0]

/-- cartesian coordinates in three dimensions, lib/mito/io/vtk/vtk_point.h:15-22 -/
def vtkPoint3 (x : Vec 3) : Vec 3 := ![x 0, x 1, x 2]

/-- polar coordinates, lib/mito/io/vtk/vtk_point.h:57-70 -/
noncomputable def vtkPointPolar (x : Vec 2) : Vec 3 :=
  let c := cartesianOfPolar x
  ![c 0, c 1, 0]

/-- spherical coordinates, lib/mito/io/vtk/vtk_point.h:42-55 -/
noncomputable def vtkPointSpherical (x : Vec 3) : Vec 3 :=
  let c := cartesianOfSpherical x
  ![c 0, c 1, c 2]

/-! ### fields -/

variable {κ C R : Type} [DecidableEq κ]

/-- a field with its name and the components of its values, lib/mito/discrete/DiscreteField.h:102-106 -/
structure NamedField (κ R : Type) where
  name : String
  values : DiscreteField.Field κ (List R)
deriving Repr

/-- an array of the grid: its name and its tuples; `none` is a tuple that was not set -/
structure Column (R : Type) where
  name : String
  tuples : List (Option (List R))
deriving DecidableEq, Repr

/-- a field writer, lib/mito/io/vtk/FieldVTKWriter.h:157-158: the map of the nodes, the grid and its arrays -/
structure FieldWriter (κ C R : Type) where
  nodes : List (κ × Nat)
  grid : Grid C
  columns : List (Column R)

/-- `AddArray` -/
def addColumn (l : List (Column R)) (a : Column R) : List (Column R) :=
  if l.any (fun b => b.name = a.name) then l.map fun b => if b.name = a.name then a else b else l ++ [a]

/-- the name under which a field is recorded, lib/mito/io/vtk/FieldVTKWriter.h:138-142 -/
def recordName (field : NamedField κ R) (name : String) : String := if name = "" then field.name else name

/-- the loop that sets the tuples, lib/mito/io/vtk/FieldVTKWriter.h:104-107; `none`: `std::out_of_range` -/
def fillTuples (values : DiscreteField.Field κ (List R)) : List (κ × Nat) → List (Option (List R)) → Option (List (Option (List R)))
  | [], v => some v
  | (k, i) :: l, v =>
    match DiscreteField.read values k with
    | none => none
    | some x => fillTuples values l (v.set i (some x))

/-- `record`, lib/mito/io/vtk/FieldVTKWriter.h:83-146: the array is inserted when all tuples are set.  `order` is the order in which the map of
the nodes is visited. -/
def FieldWriter.record (w : FieldWriter κ C R) (order : List (κ × Nat)) (field : NamedField κ R) (name : String) :
    Option (FieldWriter κ C R) :=
  match fillTuples field.values order (List.replicate w.grid.points.length none) with
  | none => none
  | some t => some { w with columns := addColumn w.columns ⟨recordName field name, t⟩ }

/-- the constructor, lib/mito/io/vtk/FieldVTKWriter.h:77-80, for meshes and function spaces -/
def makeWriter {ν : Type} (key : ν → κ) (coords : ν → C) (cells : List (List ν)) : Option (FieldWriter κ C R) :=
  (createGrid key coords cells).map fun x => ⟨x.1, x.2, []⟩

/-! ### programs -/

/-- a step of a program with several fields and one writer -/
inductive Event (κ R : Type) where
  /-- `field(key) = value` for the field of the given number -/
  | assign (f : Nat) (k : κ) (v : List R)
  /-- `writer.record(field, name)`; `order` as above -/
  | record (f : Nat) (name : String) (order : List (κ × Nat))

/-- the fields and the writer -/
structure State (κ C R : Type) where
  fields : List (NamedField κ R)
  writer : FieldWriter κ C R

/-- one step: exceptions are caught (a field that does not exist stands for nothing) -/
def State.step (s : State κ C R) : Event κ R → State κ C R
  | .assign f k v =>
    match s.fields[f]? with
    | none => s
    | some x =>
      { s with fields := s.fields.set f { x with values := (DiscreteField.step false x.values (.write k v)).2 } }
  | .record f name order =>
    match s.fields[f]? with
    | none => s
    | some x =>
      match s.writer.record order x name with
      | none => s
      | some w => { s with writer := w }

def State.run (s : State κ C R) (l : List (Event κ R)) : State κ C R := l.foldl State.step s

end Mito.VTK
