import Verif.Quadrature.Integrator

/-!
# Model of `mito::quadrature::Integrator` with rounding

As `Verif/Quadrature/Integrator.lean`, where every operation on `double` is the exact operation followed by a function `fl`.  What the
parametrization of the cells, the function and the volume of the cells return is given by the parameters `points`, `f` and `volume`; for
triangles in Cartesian coordinates `flPoint`, with the points of the tables as they are stored, and `flArea` model the first and the last.  A product with `0.0` or `1.0` and a sum with `0.0` are exact,
hence the components of a vector are those that the forms `dx` return, and the square root of the determinant of the metric is one
(lib/mito/geometry/metric_space.h:46-59).
-/

namespace Mito.Quadrature

open Mito.Functions Mito.Geometry

variable {n d : Nat}

/-- the inner loop of `integrate`, lib/mito/quadrature/Integrator.h:65-68 -/
noncomputable def flAddCell (fl : ℝ → ℝ) (f : Val (.vec d) → ℝ) (volume : ℝ) (points : List (Val (.vec d))) (weights : List ℝ) (result : ℝ) : ℝ :=
  (points.zip weights).foldl (fun r p => fl (r + fl (fl (f p.1 * p.2) * volume))) result

/-- the loop of `integrate`, lib/mito/quadrature/Integrator.h:60-72; the weights are the numbers nearest to the decimals of the tables -/
noncomputable def flIntegrateLoop (fl : ℝ → ℝ) (field : DiscreteField.Field Nat (List (Val (.vec d)))) (t : Table (n + 1))
    (volume : Cell n d → ℝ) (f : Val (.vec d) → ℝ) : List (Cell n d) → ℝ → Outcome
  | [], r => .value r
  | c :: cells, r =>
    match DiscreteField.read field c.key with
    | none => .throws
    | some points => flIntegrateLoop fl field t volume f cells (flAddCell fl f (volume c) points (t.rule.map fun p => fl p.2) r)

/-- the constructor, lib/mito/quadrature/Integrator.h:35-58, followed by `integrate(f)` -/
noncomputable def flIntegrate (fl : ℝ → ℝ) (debug : Bool) (t : Table (n + 1)) (volume : Cell n d → ℝ) (points : Cell n d → List (Val (.vec d)))
    (cells : List (Cell n d)) (f : Val (.vec d) → ℝ) : Outcome :=
  match DiscreteField.run debug [] (cells.map fun c => .insert c.key (points c)) with
  | none => .aborts
  | some field => flIntegrateLoop fl field t volume f cells 0

/-- the volume of a triangle in the plane, lib/mito/manifolds/Manifold.h:118-138, with its directors, lib/mito/geometry/utilities.h:49-75, and
the wedge product, lib/mito/tensor/wedge.h:34-39 -/
noncomputable def flArea (fl : ℝ → ℝ) (c : Cell 1 2) : ℝ :=
  let x0 := fl (c.nodes 1 0 - c.nodes 0 0)
  let x1 := fl (c.nodes 1 1 - c.nodes 0 1)
  let y0 := fl (c.nodes 2 0 - c.nodes 0 0)
  let y1 := fl (c.nodes 2 1 - c.nodes 0 1)
  fl (1 / 2 * fl (fl (x0 * y1) - fl (x1 * y0)))

/-- a point of a triangle, lib/mito/geometry/GeometricSimplex.h:134-157, with the barycentric coordinates of
lib/mito/geometry/ReferenceSimplex.h:21-44; `ξ` are the coordinates as they are stored in the table -/
noncomputable def flPoint (fl : ℝ → ℝ) (c : Cell 1 2) (ξ : Fin 2 → ℝ) : Val (.vec 2) := fun i =>
  fl (fl (ξ 0 * c.nodes 0 i) + fl (fl (ξ 1 * c.nodes 1 i) + fl (fl (fl (1 - ξ 0) - ξ 1) * c.nodes 2 i)))

/-- the points of `triangle1`, lib/mito/quadrature/quadrature_tables_triangles.icc:12-21 -/
noncomputable def flTriangle1 (fl : ℝ → ℝ) : List (Fin 2 → ℝ) := [![fl (1 / 3), fl (1 / 3)]]

/-- the points of `triangle2`, lib/mito/quadrature/quadrature_tables_triangles.icc:23-34 -/
noncomputable def flTriangle2 (fl : ℝ → ℝ) : List (Fin 2 → ℝ) :=
  [![fl (2 / 3), fl (1 / 6)], ![fl (1 / 6), fl (2 / 3)], ![fl (1 / 6), fl (1 / 6)]]

/-- the points of `triangle3`, lib/mito/quadrature/quadrature_tables_triangles.icc:36-55: some of their coordinates are computed -/
noncomputable def flTriangle3 (fl : ℝ → ℝ) : List (Fin 2 → ℝ) :=
  let a : ℝ := fl 0.16288285039589191090016180418490635
  let b : ℝ := fl 0.47791988356756370000000000000000000
  [![fl (1 - fl (2 * a)), a], ![a, fl (1 - fl (2 * a))], ![a, a], ![fl (1 - fl (2 * b)), b], ![b, fl (1 - fl (2 * b))], ![b, b]]

/-- the points of `triangle4`, lib/mito/quadrature/quadrature_tables_triangles.icc:57-77 -/
noncomputable def flTriangle4 (fl : ℝ → ℝ) : List (Fin 2 → ℝ) :=
  let a : ℝ := fl 0.816847572980458513080857
  let b : ℝ := fl 0.091576213509770743459571
  let c : ℝ := fl 0.108103018168070227363167
  let d : ℝ := fl 0.445948490915964886318329
  [![a, b], ![b, a], ![b, b], ![c, d], ![d, c], ![d, d]]

/-- the rules for triangles and their points as they are stored -/
noncomputable def triangleRules (fl : ℝ → ℝ) : List (Table 2 × List (Fin 2 → ℝ)) :=
  [(triangle1, flTriangle1 fl), (triangle2, flTriangle2 fl), (triangle3, flTriangle3 fl), (triangle4, flTriangle4 fl)]

end Mito.Quadrature
