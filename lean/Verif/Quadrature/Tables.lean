import Mathlib.Data.Rat.Floor
import Mathlib.Data.Fin.VecNotation
import Mathlib.Algebra.BigOperators.Fin
import Mathlib.Data.Real.Basic

/-! # Quadrature tables

`mito::quadrature::QuadratureTable`. A table is the list of its points and weights. The decimal literals of the code are exact
rationals here: rounding them to double precision is not modelled. -/

namespace Mito.Quadrature

/-- points and weights, lib/mito/quadrature/QuadratureTable.h:14-52 -/
abbrev Table (d : Nat) := List ((Fin d → ℚ) × ℚ)

/-- lib/mito/quadrature/quadrature_tables_segments.icc:12-21 -/
def segment1 : Table 1 := [(![0.5], 1.0)]

/-- lib/mito/quadrature/quadrature_tables_segments.icc:23-36 -/
def segment2 : Table 1 :=
  let a : ℚ := 0.788675134594813
  let b : ℚ := 0.211324865405187
  [(![a], 0.5), (![b], 0.5)]

/-- lib/mito/quadrature/quadrature_tables_triangles.icc:12-21 -/
def triangle1 : Table 2 := [(![1.0 / 3.0, 1.0 / 3.0], 1.0)]

/-- lib/mito/quadrature/quadrature_tables_triangles.icc:23-34 -/
def triangle2 : Table 2 :=
  [(![2.0 / 3.0, 1.0 / 6.0], 1.0 / 3.0), (![1.0 / 6.0, 2.0 / 3.0], 1.0 / 3.0), (![1.0 / 6.0, 1.0 / 6.0], 1.0 / 3.0)]

/-- lib/mito/quadrature/quadrature_tables_triangles.icc:36-55 -/
def triangle3 : Table 2 :=
  let a : ℚ := 0.16288285039589191090016180418490635
  let b : ℚ := 0.47791988356756370000000000000000000
  let w1 : ℚ := 0.28114980244097964825351432270207695
  let w2 : ℚ := 0.05218353089235368507981901063125638
  [(![1.0 - 2.0 * a, a], w1), (![a, 1.0 - 2.0 * a], w1), (![a, a], w1),
   (![1.0 - 2.0 * b, b], w2), (![b, 1.0 - 2.0 * b], w2), (![b, b], w2)]

/-- lib/mito/quadrature/quadrature_tables_triangles.icc:57-77 -/
def triangle4 : Table 2 :=
  let a : ℚ := 0.816847572980458513080857
  let b : ℚ := 0.091576213509770743459571
  let c : ℚ := 0.108103018168070227363167
  let d : ℚ := 0.445948490915964886318329
  let w1 : ℚ := 0.109951743655321867638326
  let w2 : ℚ := 0.223381589678011465695007
  [(![a, b], w1), (![b, a], w1), (![b, b], w1), (![c, d], w2), (![d, c], w2), (![d, d], w2)]

/-- lib/mito/quadrature/quadrature_tables_tetrahedra.icc:12-22 -/
def tetrahedron1 : Table 3 := [(![1.0 / 4.0, 1.0 / 4.0, 1.0 / 4.0], 1.0)]

/-- lib/mito/quadrature/quadrature_tables_tetrahedra.icc:24-40 -/
def tetrahedron2 : Table 3 :=
  let a : ℚ := 0.5854101966249685
  let b : ℚ := 0.1381966011250105
  [(![a, b, b], 1.0 / 4.0), (![b, a, b], 1.0 / 4.0), (![b, b, a], 1.0 / 4.0), (![b, b, b], 1.0 / 4.0)]

/-- the points and weights as real numbers -/
noncomputable def Table.rule {d : Nat} (t : Table d) : List ((Fin d → ℝ) × ℝ) :=
  t.map fun p => (fun i => (p.1 i : ℝ), (p.2 : ℝ))

end Mito.Quadrature
