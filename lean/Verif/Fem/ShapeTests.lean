import Verif.Functions.Arithmetic
import Verif.Quadrature.Doubles

/-!
# Shape functions in double arithmetic, and their tests
-/

namespace Mito.Fem

open Mito.Functions Mito.Quadrature

/-- the shape functions of the segment, lib/mito/fem/elements/seg1/ShapeSegmentP1.h:21-29 -/
def arithSeg1 : Fin 2 → Arith 1
  | 0 => Arith.constSub 1 (.coord 0)
  | 1 => .coord 0

/-- the third barycentric coordinate of the triangle, lib/mito/fem/elements/tri1/ShapeTriangleP1.h:24 and
lib/mito/fem/elements/tri2/ShapeTriangleP2.h:24 -/
def arithXi2 : Arith 2 := (Arith.constSub 1 (.coord 0)).sub (.coord 1)

/-- the linear shape functions of the triangle, lib/mito/fem/elements/tri1/ShapeTriangleP1.h:21-32 -/
def arithTri1 : Fin 3 → Arith 2
  | 0 => .coord 0
  | 1 => .coord 1
  | 2 => arithXi2

/-- `phi_3`, `phi_4` and `phi_5`, lib/mito/fem/elements/tri2/ShapeTriangleP2.h:27-29 -/
def arithPhi3 : Arith 2 := .prod (.constTimes 4 (.coord 0)) (.coord 1)
@[inherit_doc arithPhi3]
def arithPhi4 : Arith 2 := .prod (.constTimes 4 (.coord 1)) arithXi2
@[inherit_doc arithPhi3]
def arithPhi5 : Arith 2 := .prod (.constTimes 4 (.coord 0)) arithXi2

/-- the quadratic shape functions of the triangle, lib/mito/fem/elements/tri2/ShapeTriangleP2.h:26-35 -/
def arithTri2 : Fin 6 → Arith 2
  | 0 => ((Arith.coord 0).sub (.constTimes (1 / 2) arithPhi5)).sub (.constTimes (1 / 2) arithPhi3)
  | 1 => ((Arith.coord 1).sub (.constTimes (1 / 2) arithPhi3)).sub (.constTimes (1 / 2) arithPhi4)
  | 2 => (arithXi2.sub (.constTimes (1 / 2) arithPhi5)).sub (.constTimes (1 / 2) arithPhi4)
  | 3 => arithPhi3
  | 4 => arithPhi4
  | 5 => arithPhi5

/-- the right fold `((element.template shape<a>()(xi)) + ...)`, tests/mito.lib/fem/isoparametric_segment.cc:45-49 and
tests/mito.lib/fem/isoparametric_triangle.cc:45-49, as a function -/
def sumSeg1 : Arith 1 := .sum (arithSeg1 0) (arithSeg1 1)
@[inherit_doc sumSeg1]
def sumTri1 : Arith 2 := .sum (arithTri1 0) (.sum (arithTri1 1) (arithTri1 2))
@[inherit_doc sumSeg1]
def sumTri2 : Arith 2 :=
  .sum (arithTri2 0) (.sum (arithTri2 1) (.sum (arithTri2 2) (.sum (arithTri2 3) (.sum (arithTri2 4) (arithTri2 5)))))

/-- `test_partition_of_unity`, tests/mito.lib/fem/isoparametric_segment.cc:30-56 and tests/mito.lib/fem/isoparametric_triangle.cc:30-56: what the compiler checks at the
points of a quadrature rule -/
def partitionOfUnity {d : Nat} (sum : Arith d) (pts : List (Fin d → ℚ)) : List Bool := pts.map fun ξ => decide (sum.run rnd ξ = 1)

/-- the shape functions of the rows at the nodes of the columns -/
def atNodes {d n : Nat} (shape : Fin n → Arith d) (nodes : Fin n → Fin d → ℚ) : List (List ℚ) :=
  (List.finRange n).map fun a => (List.finRange n).map fun b => (shape a).run rnd (nodes b)

/-- the nodes of tests/mito.lib/fem/shape_functions_segment_p1.cc:21-24 -/
def testNodesSeg1 : Fin 2 → Fin 1 → ℚ := ![![0], ![1]]

/-- the nodes of tests/mito.lib/fem/shape_functions_triangle_p1.cc:21-26 -/
def testNodesTri1 : Fin 3 → Fin 2 → ℚ := ![![1, 0], ![0, 1], ![0, 0]]

/-- the nodes of tests/mito.lib/fem/shape_functions_triangle_p2.cc:21-32 -/
def testNodesTri2 : Fin 6 → Fin 2 → ℚ := ![![1, 0], ![0, 1], ![0, 0], ![1 / 2, 1 / 2], ![0, 1 / 2], ![1 / 2, 0]]

/-- the values that tests/mito.lib/fem/shape_functions_segment_p1.cc:26-38, tests/mito.lib/fem/shape_functions_triangle_p1.cc:28-52 and
tests/mito.lib/fem/shape_functions_triangle_p2.cc:34-121 assert -/
def unitRows (n : Nat) : List (List ℚ) := (List.finRange n).map fun a => (List.finRange n).map fun b => if a = b then 1 else 0

end Mito.Fem
