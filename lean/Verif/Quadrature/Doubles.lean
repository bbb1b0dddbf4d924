import Verif.Quadrature.Tables

/-!
# Double arithmetic on rational numbers

`double` numbers are rational, and the arithmetic operations round the exact result to the nearest number with 53 binary digits.  There are no
bounds for the exponent here: all numbers that occur are zero or between `1e-20` and `10`.  Compile time evaluation has no fused operations.
-/

namespace Mito.Quadrature

/-- the exponent of the greatest power of two below a number that is not zero -/
def exponent (q : ℚ) : ℤ :=
  let n := q.num.natAbs
  let a := n.log2
  let b := q.den.log2
  if 2 ^ a * q.den ≤ n * 2 ^ b then (a : ℤ) - b else (a : ℤ) - b - 1

/-- powers of two -/
def twoTo (e : ℤ) : ℚ := if 0 ≤ e then 2 ^ e.toNat else 1 / 2 ^ (-e).toNat

/-- the nearest integer, and the even one of two -/
def nearestEvenQ (q : ℚ) : ℤ :=
  if q - q.floor < 1 / 2 then q.floor else if 1 / 2 < q - q.floor then q.floor + 1
  else if q.floor % 2 = 0 then q.floor else q.floor + 1

/-- rounding to the nearest number with 53 binary digits -/
def rnd (q : ℚ) : ℚ := if q = 0 then 0 else twoTo (exponent q - 52) * nearestEvenQ (q / twoTo (exponent q - 52))

/-- the points of a table as they are stored, if they are literals or quotients of literals -/
def storedPoints {d : Nat} (t : Table d) : List (Fin d → ℚ) := t.map fun p i => rnd (p.1 i)

/-- the weights of a table as they are stored -/
def storedWeights {d : Nat} (t : Table d) : List ℚ := t.map fun p => rnd p.2

/-- the points of `triangle3`, lib/mito/quadrature/quadrature_tables_triangles.icc:36-55: some of their coordinates are computed -/
def storedTriangle3 : List (Fin 2 → ℚ) :=
  let a : ℚ := rnd 0.16288285039589191090016180418490635
  let b : ℚ := rnd 0.47791988356756370000000000000000000
  [![rnd (1 - rnd (2 * a)), a], ![a, rnd (1 - rnd (2 * a))], ![a, a],
   ![rnd (1 - rnd (2 * b)), b], ![b, rnd (1 - rnd (2 * b))], ![b, b]]

/-- the sum of the weights that the compiler computes, lib/mito/quadrature/QuadratureRule.h:39-58 -/
def weightsSum (ws : List ℚ) : ℚ := ws.foldl (fun s w => rnd (w + s)) 0

/-- `static_assert(weightsSum == 1.0)`, lib/mito/quadrature/QuadratureRule.h:59-60 -/
def checkWeights (ws : List ℚ) : Bool := weightsSum ws == 1

/-- `x * x * …`, `k` factors -/
def power (x : ℚ) : Nat → ℚ
  | 0 => 1
  | 1 => x
  | k + 1 => rnd (power x k * x)

/-- `w_0 * f(x_0) + w_1 * f(x_1) + …` -/
def weightedSum (f : ℚ → ℚ) : List (ℚ × ℚ) → ℚ
  | [] => 0
  | (x, w) :: l => l.foldl (fun s p => rnd (s + rnd (p.2 * f p.1))) (rnd (w * f x))

/-- the first coordinates of the points with the weights -/
def firsts {d : Nat} (ps : List (Fin (d + 1) → ℚ)) (ws : List ℚ) : List (ℚ × ℚ) := (ps.map fun p => p 0).zip ws

/-- `std::fabs(integral - exact) < 1.e-16` -/
def near (integral exact : ℚ) : Bool := |rnd (integral - exact)| < rnd (1 / 10 ^ 16)

/-- tests/mito.lib/quadrature/quadrature_parametric_segment.cc:16-38 and 40-63 -/
def parametricSegment : List Bool :=
  [near (weightedSum (power · 1) (firsts (storedPoints segment1) (storedWeights segment1))) (rnd (1 / 2)),
   near (weightedSum (power · 2) (firsts (storedPoints segment2) (storedWeights segment2))) (rnd (1 / 3))]

/-- tests/mito.lib/quadrature/quadrature_parametric_triangle.cc:17-138 -/
def parametricTriangle : List Bool :=
  [near (weightedSum (power · 1) ((firsts (storedPoints triangle1) (storedWeights triangle1)).map fun p => (p.1, rnd (rnd (1 / 2) * p.2)))) (rnd (1 / 6)),
   near (rnd (rnd (1 / 2) * weightedSum (power · 2) (firsts (storedPoints triangle2) (storedWeights triangle2)))) (rnd (1 / 12)),
   near (rnd (rnd (1 / 2) * weightedSum (power · 3) (firsts storedTriangle3 (storedWeights triangle3)))) (rnd (1 / 20)),
   near (rnd (rnd (1 / 2) * weightedSum (power · 4) (firsts (storedPoints triangle4) (storedWeights triangle4)))) (rnd (1 / 30))]

/-- tests/mito.lib/quadrature/quadrature_parametric_tetrahedron.cc:17-73 -/
def parametricTetrahedron : List Bool :=
  [near (weightedSum (power · 1) ((firsts (storedPoints tetrahedron1) (storedWeights tetrahedron1)).map fun p => (p.1, rnd (rnd (1 / 6) * p.2)))) (rnd (1 / 24)),
   near (rnd (rnd (1 / 6) * weightedSum (power · 2) (firsts (storedPoints tetrahedron2) (storedWeights tetrahedron2)))) (rnd (1 / 60))]

/-! ## Integration over triangles -/

/-- a triangle in the plane with coordinates that are `double` numbers -/
abbrev QTriangle := Fin 3 → Fin 2 → ℚ

/-- the volume of a triangle in the plane, lib/mito/manifolds/Manifold.h:118-138, with its directors, lib/mito/geometry/utilities.h:49-75, and
the wedge product, lib/mito/tensor/wedge.h:34-39 -/
def qArea (c : QTriangle) : ℚ :=
  let x0 := rnd (c 1 0 - c 0 0)
  let x1 := rnd (c 1 1 - c 0 1)
  let y0 := rnd (c 2 0 - c 0 0)
  let y1 := rnd (c 2 1 - c 0 1)
  rnd (1 / 2 * rnd (rnd (x0 * y1) - rnd (x1 * y0)))

/-- a point of a triangle, lib/mito/geometry/GeometricSimplex.h:134-157, with the barycentric coordinates of
lib/mito/geometry/ReferenceSimplex.h:21-44; `ξ` are the coordinates as they are stored in the table -/
def qPoint (c : QTriangle) (ξ : Fin 2 → ℚ) : Fin 2 → ℚ := fun i =>
  rnd (rnd (ξ 0 * c 0 i) + rnd (rnd (ξ 1 * c 1 i) + rnd (rnd (rnd (1 - ξ 0) - ξ 1) * c 2 i)))

/-- one cell of the loop in `integrate`, lib/mito/quadrature/Integrator.h:60-68 -/
def qAddCell (f : (Fin 2 → ℚ) → ℚ) (pts : List (Fin 2 → ℚ)) (ws : List ℚ) (result : ℚ) (c : QTriangle) : ℚ :=
  (pts.zip ws).foldl (fun r p => rnd (r + rnd (rnd (f (qPoint c p.1) * p.2) * qArea c))) result

/-- `integrate`, lib/mito/quadrature/Integrator.h:57-72 -/
def qIntegrate (f : (Fin 2 → ℚ) → ℚ) (pts : List (Fin 2 → ℚ)) (ws : List ℚ) (cells : List QTriangle) : ℚ :=
  cells.foldl (qAddCell f pts ws) 0

/-- the place of a positive `double` in the list of all, in which gtest counts steps -/
def place (q : ℚ) : ℤ := if q = 0 then 0 else (exponent q + 1022) * 2 ^ 52 + (q / twoTo (exponent q - 52)).floor

/-- `EXPECT_DOUBLE_EQ(a, b)` for positive numbers: at most four steps -/
def doubleEq (a b : ℚ) : Bool := (place a - place b).natAbs ≤ 4

/-- the square with a node in the middle, tests/mito.lib/quadrature/quadrature_triangle_2D.cc:49-66 -/
def squareCells : List QTriangle :=
  let n0 : Fin 2 → ℚ := ![0, 0]
  let n1 : Fin 2 → ℚ := ![1, 0]
  let n2 : Fin 2 → ℚ := ![1, 1]
  let n3 : Fin 2 → ℚ := ![1 / 2, 1 / 2]
  let n4 : Fin 2 → ℚ := ![0, 1]
  [![n0, n1, n3], ![n1, n2, n3], ![n2, n4, n3], ![n4, n0, n3]]

/-- tests/mito.lib/quadrature/quadrature_triangle_2D.cc:85-121; the integral of the cosine is left out -/
def squareTest : List Bool :=
  let integral (f : (Fin 2 → ℚ) → ℚ) : ℚ := qIntegrate f (storedPoints triangle2) (storedWeights triangle2) squareCells
  [doubleEq (integral fun _ => 1) 1, doubleEq (integral fun x => x 0) (1 / 2),
   doubleEq (integral fun x => rnd (x 0 * x 1)) (1 / 4), doubleEq (integral fun x => rnd (x 0 * x 0)) (rnd (1 / 3))]

end Mito.Quadrature
