import Verif.Quadrature.Doubles
import Mathlib.Algebra.Field.Defs

/-!
# Elementary and assembled matrices in double arithmetic

`fl` is the rounding after each operation.  Simplifications: the factors, shape functions and gradients at the quadrature points are given as
they are stored; no fused operations, no over- and underflow.
-/

namespace Mito.RoundedBlocks

variable {α : Type} [Field α] {n : Nat}

/-- what a block has at a quadrature point: `factor`, and for each node the components of the gradient of its shape function,
lib/mito/fem/blocks/GradGradBlock.h:39-60, or its value as the only component, lib/mito/fem/blocks/MassBlock.h:39-60 -/
structure Point (α : Type) (n : Nat) where
  factor : α
  values : Fin n → List α

/-- the product of two vectors -/
def dot (fl : α → α) (u v : List α) : α := (u.zip v).foldl (fun s p => fl (s + fl (p.1 * p.2))) 0

/-- `factor * dphi_a * dphi_b`, lib/mito/fem/blocks/GradGradBlock.h:60 and lib/mito/fem/blocks/MassBlock.h:60: from left to right -/
def term (fl : α → α) (q : Point α n) (a b : Fin n) : α := dot fl ((q.values a).map fun x => fl (q.factor * x)) (q.values b)

/-- `compute`, lib/mito/fem/blocks/GradGradBlock.h:26-67 and lib/mito/fem/blocks/MassBlock.h:26-67 -/
def block (fl : α → α) (points : List (Point α n)) (a b : Fin n) : α := points.foldl (fun m q => fl (m + term fl q a b)) 0

/-- an element that has the nodes of a row and of a column: its points, and the local numbers of the two nodes -/
structure Part (α : Type) (n : Nat) where
  points : List (Point α n)
  row : Fin n
  col : Fin n

/-- the same element for the other place in the matrix -/
def Part.swap (p : Part α n) : Part α n := ⟨p.points, p.col, p.row⟩

/-- `add_matrix_value`, lib/mito/fem/DiscreteSystem.h:153-183: an entry of the matrix, element after element -/
def entry (fl : α → α) (parts : List (Part α n)) : α := parts.foldl (fun s p => fl (s + block fl p.points p.row p.col)) 0

/-- `factor`, lib/mito/fem/blocks/GradGradBlock.h:43-48: the area of the canonical triangle, the weight and the determinant -/
def factor (fl : α → α) (area weight det : α) : α := fl (fl (area * weight) * det)

/-- the points of a triangle with the nodes `(-1, 2)`, `(2, -5)` and `(0, 0)`, lib/mito/fem/elements/tri1/IsoparametricTriangleP1.h:73-114, and the
quadrature rule with three points: the determinant is one and the gradients of the shape functions are integers -/
def exTriangle : List (Point ℚ 3) :=
  (Quadrature.storedWeights Quadrature.triangle2).map fun w => ⟨factor Quadrature.rnd (1 / 2) w 1, ![[-5, -2], [-2, -1], [7, 3]]⟩

end Mito.RoundedBlocks
