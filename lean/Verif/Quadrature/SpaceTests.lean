import Verif.Geometry.Manifold
import Verif.Quadrature.Integrator

/-! # Tests of integrals over segments and triangles in space

tests/mito.lib/quadrature/quadrature_segment_3D.cc, tests/mito.lib/integration/quadrature_flip_segment_3D.cc and
tests/mito.lib/quadrature/quadrature_square_3D.cc.  The arithmetic is that of the real numbers. -/

namespace Mito.SpaceTests

open Mito.Functions Mito.Geometry Mito.Quadrature Mito.Tensor Matrix

/-- `v_1`, tests/mito.lib/quadrature/quadrature_segment_3D.cc:34 -/
noncomputable def tangent (x y : Vec 3) : Vec 3 := (Geometry.norm (y - x))⁻¹ • (y - x)

/-- `v_2`, tests/mito.lib/quadrature/quadrature_segment_3D.cc:35-37; the division by zero for segments along the first axis is excluded by
the premises of the theorems -/
noncomputable def normal1 (x y : Vec 3) : Vec 3 :=
  let try2 : Vec 3 := ![1, 0, 0]
  let w := try2 - (try2 ⬝ᵥ tangent x y) • tangent x y
  (Geometry.norm w)⁻¹ • w

/-- `v_3`, tests/mito.lib/quadrature/quadrature_segment_3D.cc:38-39 -/
noncomputable def normal2 (x y : Vec 3) : Vec 3 :=
  let c := cross (tangent x y) (normal1 x y)
  (Geometry.norm c)⁻¹ • c

/-- the volumes of cells of the submanifold with the two normal fields of the segment from `x` to `y`,
tests/mito.lib/quadrature/quadrature_segment_3D.cc:41-53 -/
noncomputable def length (x y : Vec 3) (c : Cell 0 3) : ℝ :=
  System.subVolume (k := 2) (n := 1) (cartesian 3) ![fun _ => normal1 x y, fun _ => normal2 x y] c.nodes

/-- `result` for the segment from `x` to `y`, tests/mito.lib/quadrature/quadrature_segment_3D.cc:47-59;
tests/mito.lib/integration/quadrature_flip_segment_3D.cc:49-60 -/
noncomputable def segmentResult (debug : Bool) (x y : Vec 3) (f : Vec 3 → ℝ) : Outcome :=
  integrate debug segment2 (length x y) [⟨0, ![x, y]⟩] f

/-- `result_flip` with the same normal fields, tests/mito.lib/integration/quadrature_flip_segment_3D.cc:62-68 -/
noncomputable def flipResult (debug : Bool) (x y : Vec 3) (f : Vec 3 → ℝ) : Outcome :=
  integrate debug segment2 (length x y) [⟨1, ![y, x]⟩] f

/-- the nodes of the square, tests/mito.lib/quadrature/quadrature_square_3D.cc:49-53 -/
noncomputable def corner : Fin 5 → Vec 3 := ![![0, 0, 0], ![1, 0, 1], ![1, 1, 1], ![0.5, 0.5, 0.5], ![0, 1, 0]]

/-- the triangles of the square, tests/mito.lib/quadrature/quadrature_square_3D.cc:62-66 -/
noncomputable def squareMesh : List (Cell 1 3) :=
  [⟨0, ![corner 0, corner 1, corner 3]⟩, ⟨1, ![corner 1, corner 2, corner 3]⟩, ⟨2, ![corner 2, corner 4, corner 3]⟩,
    ⟨3, ![corner 4, corner 0, corner 3]⟩]

/-- `result`, tests/mito.lib/quadrature/quadrature_square_3D.cc:68-84 -/
noncomputable def squareResult (debug : Bool) (f : Vec 3 → ℝ) : Outcome :=
  integrate debug triangle2
    (fun c => System.subVolume (k := 1) (n := 2) (cartesian 3) (fun _ => triangleNormal ![corner 0, corner 1, corner 2]) c.nodes) squareMesh f

end Mito.SpaceTests
