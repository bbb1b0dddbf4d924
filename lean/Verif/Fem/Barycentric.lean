import Verif.Fem.Elements

/-!
# Shape functions in barycentric coordinates, tests/mito.lib/fem/shape_functions_triangle_construction.cc

The shape functions are functions of the three barycentric coordinates.  The test differentiates them with respect to the two
parametric coordinates and gives the result as a function of the barycentric coordinates again.  `double` is the set of reals.
-/

namespace Mito.Barycentric

open Mito.Functions Mito.Fem

/-- `parametric_to_barycentric`, tests/mito.lib/fem/shape_functions_triangle_construction.cc:21-23 -/
noncomputable def toBarycentric : Expr (.vec 2) (.vec 3) :=
  ((Expr.timesConst (.scale _) (coord 2 0) (unitVec 0)).add (.timesConst (.scale _) (coord 2 1) (unitVec 1))).add
    (.timesConst (.scale _) ((Expr.constSub (sc 1) (coord 2 0)).sub (coord 2 1)) (unitVec 2))

/-- `barycentric_to_parametric`, tests/mito.lib/fem/shape_functions_triangle_construction.cc:25-27 -/
noncomputable def toParametric : Expr (.vec 3) (.vec 2) :=
  (Expr.timesConst (.scale _) (coord 3 0) (unitVec 0)).add (.timesConst (.scale _) (coord 3 1) (unitVec 1))

/-- `phi(parametric_to_barycentric)` -/
noncomputable def parametric (φ : Expr (.vec 3) .scalar) : Expr (.vec 2) .scalar := .compT φ toBarycentric

/-- `derivative(phi(parametric_to_barycentric))(barycentric_to_parametric)`,
tests/mito.lib/fem/shape_functions_triangle_construction.cc:48-55 and
tests/mito.lib/fem/shape_functions_triangle_construction.cc:95-108 -/
noncomputable def dN (φ : Expr (.vec 3) .scalar) : Expr (.vec 3) (.mat 1 2) := .compT (jacobianVS (parametric φ)) toParametric

/-- `tensor::row<0>` of a value -/
def row0 {n : Nat} (A : Val (.mat 1 n)) : Val (.vec n) := fun k => A (0, k)

/-- the linear shape functions, tests/mito.lib/fem/shape_functions_triangle_construction.cc:35-38 -/
noncomputable def phiP1 : Fin 3 → Expr (.vec 3) .scalar
  | 0 => coord 3 0
  | 1 => coord 3 1
  | 2 => coord 3 2

/-- the hard-coded derivatives, tests/mito.lib/fem/shape_functions_triangle_construction.cc:40-46 -/
noncomputable def dphiP1 : Fin 3 → Expr (.vec 3) (.vec 2)
  | 0 => .const (unitVec 0)
  | 1 => .const (unitVec 1)
  | 2 => .const (-unitVec 0 - unitVec 1)

/-- `phi_3`, `phi_4` and `phi_5`, tests/mito.lib/fem/shape_functions_triangle_construction.cc:76-78 -/
noncomputable def phi3 : Expr (.vec 3) .scalar := (Expr.smul 4 (coord 3 0)).mul (coord 3 1)
@[inherit_doc phi3]
noncomputable def phi4 : Expr (.vec 3) .scalar := (Expr.smul 4 (coord 3 1)).mul (coord 3 2)
@[inherit_doc phi3]
noncomputable def phi5 : Expr (.vec 3) .scalar := (Expr.smul 4 (coord 3 0)).mul (coord 3 2)

/-- the quadratic shape functions, tests/mito.lib/fem/shape_functions_triangle_construction.cc:75-81 -/
noncomputable def phiP2 : Fin 6 → Expr (.vec 3) .scalar
  | 0 => ((coord 3 0).sub (Expr.smul (1 / 2) phi5)).sub (Expr.smul (1 / 2) phi3)
  | 1 => ((coord 3 1).sub (Expr.smul (1 / 2) phi3)).sub (Expr.smul (1 / 2) phi4)
  | 2 => ((coord 3 2).sub (Expr.smul (1 / 2) phi5)).sub (Expr.smul (1 / 2) phi4)
  | 3 => phi3
  | 4 => phi4
  | 5 => phi5

/-- constant vector times function -/
noncomputable def vmul (v : Val (.vec 2)) (f : Expr (.vec 3) .scalar) : Expr (.vec 3) (.vec 2) := .constTimes (.scaleR _) v f

/-- the hard-coded derivatives, tests/mito.lib/fem/shape_functions_triangle_construction.cc:83-93 -/
noncomputable def dphiP2 : Fin 6 → Expr (.vec 3) (.vec 2)
  | 0 => vmul (unitVec 0)
      (((Expr.constSub (sc 1) (Expr.smul 2 (coord 3 1))).sub (Expr.smul 2 (coord 3 2))).add (Expr.smul 2 (coord 3 0)))
  | 1 => vmul (unitVec 1)
      (((Expr.constSub (sc 1) (Expr.smul 2 (coord 3 0))).sub (Expr.smul 2 (coord 3 2))).add (Expr.smul 2 (coord 3 1)))
  | 2 => vmul (unitVec 0 + unitVec 1)
      (((Expr.constSub (sc (-1)) (Expr.smul 2 (coord 3 2))).add (Expr.smul 2 (coord 3 0))).add (Expr.smul 2 (coord 3 1)))
  | 3 => (vmul (unitVec 0) (Expr.smul 4 (coord 3 1))).add (vmul (unitVec 1) (Expr.smul 4 (coord 3 0)))
  | 4 => (vmul (unitVec 0) (Expr.smul (-4) (coord 3 1))).add
      (vmul (unitVec 1) ((Expr.smul 4 (coord 3 2)).sub (Expr.smul 4 (coord 3 1))))
  | 5 => (vmul (unitVec 0) ((Expr.smul 4 (coord 3 2)).sub (Expr.smul 4 (coord 3 0)))).add
      (vmul (unitVec 1) (Expr.smul (-4) (coord 3 0)))

/-- the points of the tests, tests/mito.lib/fem/shape_functions_triangle_construction.cc:57-58 and
tests/mito.lib/fem/shape_functions_triangle_construction.cc:110-111 -/
noncomputable def pointP1 : Val (.vec 3) := ![1 / 3, 1 / 3, 1 / 3]
@[inherit_doc pointP1]
def pointP2 : Val (.vec 3) := ![1, 0, 0]

end Mito.Barycentric
