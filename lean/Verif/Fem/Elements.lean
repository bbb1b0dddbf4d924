import Verif.Geometry.ReferenceSimplex

/-!
# Model of shape functions and isoparametric elements, lib/mito/fem/elements

Shape functions and parametrizations are function expressions (`Verif/Functions/Expr.lean`).  Jacobians and physical gradients are
functions wrapping a lambda in the code and functions here.  `tensor::inverse` and `tensor::determinant` of pyre are the inverse and
the determinant.
-/

namespace Mito.Fem

open Mito.Functions Mito.Geometry

/-- parametric coordinates -/
noncomputable abbrev coord (d : Nat) (i : Fin d) : Expr (.vec d) .scalar := .component (a := .vec d) i

/-- the shape functions of the segment, lib/mito/fem/elements/seg1/ShapeSegmentP1.h:21-29 -/
noncomputable def shapeSeg1 : Fin 2 → Expr (.vec 1) .scalar
  | 0 => Expr.constSub (sc 1) (coord 1 0)
  | 1 => coord 1 0

/-- the third barycentric coordinate of the triangle, lib/mito/fem/elements/tri1/ShapeTriangleP1.h:24 and
lib/mito/fem/elements/tri2/ShapeTriangleP2.h:24 -/
noncomputable def xi2 : Expr (.vec 2) .scalar := (Expr.constSub (sc 1) (coord 2 0)).sub (coord 2 1)

/-- the linear shape functions of the triangle, lib/mito/fem/elements/tri1/ShapeTriangleP1.h:21-32 -/
noncomputable def shapeTri1 : Fin 3 → Expr (.vec 2) .scalar
  | 0 => coord 2 0
  | 1 => coord 2 1
  | 2 => xi2

/-- `phi_3`, `phi_4` and `phi_5`, lib/mito/fem/elements/tri2/ShapeTriangleP2.h:27-29 -/
noncomputable def phi3 : Expr (.vec 2) .scalar := (Expr.smul 4 (coord 2 0)).mul (coord 2 1)
@[inherit_doc phi3]
noncomputable def phi4 : Expr (.vec 2) .scalar := (Expr.smul 4 (coord 2 1)).mul xi2
@[inherit_doc phi3]
noncomputable def phi5 : Expr (.vec 2) .scalar := (Expr.smul 4 (coord 2 0)).mul xi2

/-- the quadratic shape functions of the triangle, lib/mito/fem/elements/tri2/ShapeTriangleP2.h:26-35 -/
noncomputable def shapeTri2 : Fin 6 → Expr (.vec 2) .scalar
  | 0 => ((coord 2 0).sub (Expr.smul (1 / 2) phi5)).sub (Expr.smul (1 / 2) phi3)
  | 1 => ((coord 2 1).sub (Expr.smul (1 / 2) phi3)).sub (Expr.smul (1 / 2) phi4)
  | 2 => (xi2.sub (Expr.smul (1 / 2) phi5)).sub (Expr.smul (1 / 2) phi4)
  | 3 => phi3
  | 4 => phi4
  | 5 => phi5

/-- an isoparametric element of dimension `d` with `n` discretization nodes -/
structure Element (d n : Nat) where
  /-- `shape<a>()` -/
  shape : Fin n → Expr (.vec d) .scalar
  /-- `parametrization()` -/
  parametrization : Expr (.vec d) (.vec d)
  /-- `jacobian()` -/
  jacobian : Val (.vec d) → Val (.mat d d)

/-- a matrix value as a matrix -/
def toMatrix {d : Nat} (A : Val (.mat d d)) : Matrix (Fin d) (Fin d) ℝ := Matrix.of fun i j => A (i, j)

/-- `tensor::inverse` -/
noncomputable def inverse {d : Nat} (A : Val (.mat d d)) : Val (.mat d d) := fun ij => (toMatrix A)⁻¹ ij.1 ij.2

/-- `dshape<a>()`, lib/mito/fem/elements/seg1/ShapeSegmentP1.h:32-33, lib/mito/fem/elements/tri1/ShapeTriangleP1.h:35-36,
lib/mito/fem/elements/tri2/ShapeTriangleP2.h:38-40 -/
noncomputable def Element.dshape {d n : Nat} (e : Element d n) (a : Fin n) : Expr (.vec d) (.vec d) :=
  Functions.gradient (e.shape a)

/-- `gradient<a>()`, lib/mito/fem/elements/seg1/IsoparametricSegmentP1.h:107-125,
lib/mito/fem/elements/tri1/IsoparametricTriangleP1.h:97-115, lib/mito/fem/elements/tri2/IsoparametricTriangleP2.h:105-123 -/
noncomputable def Element.gradient {d n : Nat} (e : Element d n) (a : Fin n) (ξ : Val (.vec d)) : Val (.vec d) :=
  mul (.vecMat d d) ((e.dshape a).eval ξ) (inverse (e.jacobian ξ))

/-- `tensor::determinant(element.jacobian()(xi))` -/
noncomputable def Element.detJ {d n : Nat} (e : Element d n) (ξ : Val (.vec d)) : ℝ := (toMatrix (e.jacobian ξ)).det

/-- `tensor::dyadic` -/
noncomputable def dyadic {m n : Nat} (u : Val (.vec m)) (v : Val (.vec n)) : Val (.mat m n) := fun ij => u ij.1 * v ij.2

/-- `IsoparametricSegmentP1`, with the given nodes, lib/mito/fem/elements/seg1/IsoparametricSegmentP1.h:67-105 and
lib/mito/fem/elements/IsoparametricSegment.h:36-42 -/
noncomputable def segP1 (x : Fin 2 → Val (.vec 1)) : Element 1 2 where
  shape := shapeSeg1
  parametrization := .lin (.scaleR (.vec 1)) x shapeSeg1
  jacobian := fun ξ _ =>
    mul (.dot 1) (x 0) ((Functions.gradient (shapeSeg1 0)).eval ξ) () +
      mul (.dot 1) (x 1) ((Functions.gradient (shapeSeg1 1)).eval ξ) ()

/-- `IsoparametricTriangleP1`, with the given nodes, lib/mito/fem/elements/tri1/IsoparametricTriangleP1.h:67-95 and
lib/mito/fem/elements/IsoparametricTriangle.h:33-65 -/
noncomputable def triP1 (x : Fin 3 → Val (.vec 2)) : Element 2 3 where
  shape := shapeTri1
  parametrization := Geometry.parametrization x
  jacobian := fun ξ =>
    dyadic (x 0) ((Functions.gradient (shapeTri1 0)).eval ξ) + dyadic (x 1) ((Functions.gradient (shapeTri1 1)).eval ξ) +
      dyadic (x 2) ((Functions.gradient (shapeTri1 2)).eval ξ)

/-- the positions of the discretization nodes of a quadratic triangle with the given nodes: `x3`, `x4` and `x5` are as in
lib/mito/fem/elements/tri2/IsoparametricTriangleP2.h:82-84 -/
noncomputable def nodesTri2 (x : Fin 3 → Val (.vec 2)) : Fin 6 → Val (.vec 2)
  | 0 => x 0
  | 1 => x 1
  | 2 => x 2
  | 3 => (1 / 2 : ℝ) • (x 0 + x 1)
  | 4 => (1 / 2 : ℝ) • (x 1 + x 2)
  | 5 => (1 / 2 : ℝ) • (x 2 + x 0)

/-- `IsoparametricTriangleP2`, with the given nodes, lib/mito/fem/elements/tri2/IsoparametricTriangleP2.h:67-103 and
lib/mito/fem/elements/IsoparametricTriangle.h:33-65 -/
noncomputable def triP2 (x : Fin 3 → Val (.vec 2)) : Element 2 6 where
  shape := shapeTri2
  parametrization := Geometry.parametrization x
  jacobian := fun ξ =>
    dyadic (nodesTri2 x 0) ((Functions.gradient (shapeTri2 0)).eval ξ) +
      dyadic (nodesTri2 x 1) ((Functions.gradient (shapeTri2 1)).eval ξ) +
      dyadic (nodesTri2 x 2) ((Functions.gradient (shapeTri2 2)).eval ξ) +
      dyadic (nodesTri2 x 3) ((Functions.gradient (shapeTri2 3)).eval ξ) +
      dyadic (nodesTri2 x 4) ((Functions.gradient (shapeTri2 4)).eval ξ) +
      dyadic (nodesTri2 x 5) ((Functions.gradient (shapeTri2 5)).eval ξ)

/-- the three elements of mito -/
inductive IsElement : {d n : Nat} → Element d n → Prop where
  | seg1 (x : Fin 2 → Val (.vec 1)) : IsElement (segP1 x)
  | tri1 (x : Fin 3 → Val (.vec 2)) : IsElement (triP1 x)
  | tri2 (x : Fin 3 → Val (.vec 2)) : IsElement (triP2 x)

end Mito.Fem
