import Verif.Geometry.CoordinateSystem
import Verif.Fem.DiscreteField
import Verif.IO.VTK

/-!
# The point cloud of a process

`point_cloud<D>()` is a singleton, lib/mito/geometry/factories.h:31-36, so all the points of a process are in the same cloud, whatever mesh and
coordinate system they belong to.  Nothing removes a point from the cloud (lib/mito/geometry/PointCloud.h:14-82 has no such function, and pointers
that are released only decrement a count).  Points are their ids; the writers are those of lib/mito/io/vtk for point clouds.
-/

namespace Mito.Cloud

open Mito.Geometry Mito.Tensor Mito.Numbering

variable {d : Nat}

/-- what a program does with points; `s` is the number of a coordinate system, `a` the id of a new point -/
inductive Op (d : Nat) where
  /-- `cloud.point()`, lib/mito/geometry/PointCloud.h:64-69 -/
  | point (a : Nat)
  /-- `coord_system.place(p, x)` -/
  | place (s p : Nat) (x : Vec d)
  /-- `node(coord_system, x)`, lib/mito/geometry/factories.h:38-60, as the readers of meshes do -/
  | node (s a : Nat) (x : Vec d)

/-- the points and the coordinate systems of a process -/
structure State (d : Nat) where
  points : List Nat
  systems : Nat → CoordinateMap d

def State.start : State d := ⟨[], fun _ => []⟩

/-- placing a point in one of the coordinate systems -/
def State.placeIn (strict : Bool) (w : State d) (s p : Nat) (x : Vec d) : Option (State d) :=
  match Geometry.place strict (w.systems s) p x with
  | none => none
  | some m => some { w with systems := fun s' => if s' = s then m else w.systems s' }

def step (strict : Bool) (w : State d) : Op d → Option (State d)
  | .point a => some { w with points := w.points ++ [a] }
  | .place s p x => w.placeIn strict s p x
  | .node s a x => State.placeIn strict { w with points := w.points ++ [a] } s a x

/-- `none`: a duplicate is rejected -/
def run (strict : Bool) : State d → List (Op d) → Option (State d)
  | w, [] => some w
  | w, op :: ops =>
    match step strict w op with
    | none => none
    | some w' => run strict w' ops

/-- the constructor of the writer, lib/mito/io/vtk/PointCloudVTKWriter.h:36-70, for a coordinate system; `order` is the order in which the set of the points
is visited, `none` is `std::out_of_range` -/
def writer (m : CoordinateMap d) (order : List Nat) : Option (VTK.Grid (Vec d)) :=
  match allSome (order.map (coordinates m)) with
  | none => none
  | some points => some ⟨points, []⟩

/-- `point_field(cloud)`, lib/mito/discrete/factories.h:62-67, when the points of the cloud are `points` -/
def pointField {Y : Type} (debug : Bool) (default : Y) (points : List Nat) : Option (DiscreteField.Field Nat Y) :=
  DiscreteField.ofKeys debug default points

/-- `record` of a field, lib/mito/io/vtk/FieldVTKWriter.h:109-118, for a writer whose set is visited in the order `order`: the array, or
`none` for `std::out_of_range` -/
def record {Y : Type} (field : DiscreteField.Field Nat Y) (order : List Nat) : Option (List Y) :=
  allSome (order.map (DiscreteField.read field))

end Mito.Cloud
