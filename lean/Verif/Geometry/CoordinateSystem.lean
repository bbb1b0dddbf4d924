import Verif.Utilities.Assoc
import Verif.Geometry.Coordinates

/-!
# Model of `mito::geometry::CoordinateSystem`, lib/mito/geometry/CoordinateSystem.h

The map from points to coordinates is the list of its entries, in the order in which it is visited.  Points are compared by id.
-/

namespace Mito.Geometry

open Mito.Tensor Mito.Assoc

/-- the map of a coordinate system, lib/mito/geometry/CoordinateSystem.h:24-26 -/
abbrev CoordinateMap (d : Nat) := List (Nat × Vec d)

variable {d d' : Nat}

/-- `place`, lib/mito/geometry/CoordinateSystem.h:63-82; `none`: a duplicate is rejected.  `strict`: the firewall is fatal or
assertions are compiled in. -/
def place (strict : Bool) (m : CoordinateMap d) (p : Nat) (x : Vec d) : Option (CoordinateMap d) :=
  if strict && (get m p).isSome then none else some (Assoc.insert m p x)

/-- a sequence of placements -/
def placeAll (strict : Bool) : CoordinateMap d → List (Nat × Vec d) → Option (CoordinateMap d)
  | m, [] => some m
  | m, (p, x) :: later =>
    match place strict m p x with
    | none => none
    | some m' => placeAll strict m' later

/-- `coordinates`, lib/mito/geometry/CoordinateSystem.h:84-89; `none`: `std::out_of_range` -/
def coordinates (m : CoordinateMap d) (p : Nat) : Option (Vec d) := get m p

/-- the constructor for a change of coordinates, lib/mito/geometry/CoordinateSystem.h:33-44 -/
def change (strict : Bool) (T : Vec d → Vec d) (m : CoordinateMap d) : Option (CoordinateMap d) :=
  placeAll strict [] (m.map fun e => (e.1, T e.2))

/-- `midpoint` of two points, lib/mito/geometry/CoordinateSystem.h:94-100 -/
noncomputable def midpointOf (S : System d) (m : CoordinateMap d) (p q : Nat) : Option (Vec d) :=
  match coordinates m p, coordinates m q with
  | some x, some y => some (S.midpoint x y)
  | _, _ => none

/-- `distance` of two points, lib/mito/geometry/utilities.h:34-43 -/
noncomputable def distanceOf (S : System d) (m : CoordinateMap d) (p q : Nat) : Option ℝ :=
  match coordinates m p, coordinates m q with
  | some x, some y => some (S.distance x y)
  | _, _ => none

/-- `volume` of the cell with the given points, lib/mito/manifolds/Manifold.h:118-139 -/
noncomputable def volumeOf (S : System d) (m : CoordinateMap d) (points : Fin (d + 1) → Nat) : Option ℝ :=
  if ∀ a, (coordinates m (points a)).isSome then some (S.volume fun a => (coordinates m (points a)).getD 0) else none

end Mito.Geometry
