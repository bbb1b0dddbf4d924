import Verif.Fem.DiscreteField
import Verif.Geometry.ReferenceSimplex
import Verif.Quadrature.Tables

/-!
# Model of `mito::quadrature::Integrator`, lib/mito/quadrature/Integrator.h

A cell of the manifold is the id of its oriented simplex and the coordinates of its nodes.  The volume of a cell is a parameter
(`Verif/Geometry/Coordinates.lean` models it).  The coordinates are Cartesian: in other coordinates the parametrization of a cell
subtracts the origin from the nodes (lib/mito/geometry/GeometricSimplex.h:136-158), which divides by `r = 0`.
-/

namespace Mito.Quadrature

open Mito.Functions Mito.Geometry

/-- a cell of order `n + 1` in a space of dimension `d` -/
structure Cell (n d : Nat) where
  /-- the id of `simplex()` -/
  key : Nat
  /-- the coordinates of `nodes()` -/
  nodes : Fin (n + 2) → Val (.vec d)

/-- how the construction and use of an integrator may end -/
inductive Outcome where
  | value (r : ℝ)
  /-- `std::out_of_range` -/
  | throws
  /-- the assertion of `DiscreteField::insert` fails (debug builds) -/
  | aborts

variable {n d : Nat}

/-- the coordinates of the quadrature points of a cell -/
noncomputable def quadraturePoints (t : Table (n + 1)) (c : Cell n d) : List (Val (.vec d)) :=
  t.rule.map fun p => (parametrization c.nodes).eval p.1

/-- `_computeQuadPointCoordinates`, lib/mito/quadrature/Integrator.h:35-50; `none`: an assertion fails -/
noncomputable def coordinatesField (debug : Bool) (t : Table (n + 1)) (cells : List (Cell n d)) :
    Option (DiscreteField.Field Nat (List (Val (.vec d)))) :=
  DiscreteField.run debug [] (cells.map fun c => .insert c.key (quadraturePoints t c))

/-- the inner loop of `integrate`, lib/mito/quadrature/Integrator.h:65-68 -/
noncomputable def addCell (f : Val (.vec d) → ℝ) (volume : ℝ) (points : List (Val (.vec d))) (weights : List ℝ) (result : ℝ) : ℝ :=
  (points.zip weights).foldl (fun r p => r + f p.1 * p.2 * volume) result

/-- the loop of `integrate`, lib/mito/quadrature/Integrator.h:60-72 -/
noncomputable def integrateLoop (field : DiscreteField.Field Nat (List (Val (.vec d)))) (t : Table (n + 1)) (volume : Cell n d → ℝ)
    (f : Val (.vec d) → ℝ) : List (Cell n d) → ℝ → Outcome
  | [], r => .value r
  | c :: cells, r =>
    match DiscreteField.read field c.key with
    | none => .throws
    | some points => integrateLoop field t volume f cells (addCell f (volume c) points (t.rule.map Prod.snd) r)

/-- the constructor, lib/mito/quadrature/Integrator.h:53-58, followed by `integrate(f)` -/
noncomputable def integrate (debug : Bool) (t : Table (n + 1)) (volume : Cell n d → ℝ) (cells : List (Cell n d))
    (f : Val (.vec d) → ℝ) : Outcome :=
  match coordinatesField debug t cells with
  | none => .aborts
  | some field => integrateLoop field t volume f cells 0

end Mito.Quadrature
