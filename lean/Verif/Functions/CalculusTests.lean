import Verif.Functions.TensorDerivative

/-!
# The functions of the tests of the symbolic calculus, tests/mito.lib/functions

The tests evaluate them at one point each; `Verif/Props/CalculusTests.lean` proves the assertions at every point of the domain, with real numbers for `double`.
-/

namespace Mito.Functions.Tests

open Mito.Functions

/-- the functions of the library -/
noncomputable abbrev sin : Expr .scalar .scalar := .prim .sin
@[inherit_doc sin]
noncomputable abbrev cos : Expr .scalar .scalar := .prim .cos
@[inherit_doc sin]
noncomputable abbrev tan : Expr .scalar .scalar := .prim .tan
@[inherit_doc sin]
noncomputable abbrev exp : Expr .scalar .scalar := .prim .exp
/-- `pow<n>` -/
noncomputable abbrev pow (n : Nat) : Expr .scalar .scalar := .prim (.pow (n - 1))
/-- `component<vector_t<n>, i>` -/
noncomputable abbrev comp {n : Nat} (i : Fin n) : Expr (.vec n) .scalar := .component (a := .vec n) i
/-- `component<matrix_t<2, 2>, k>` -/
noncomputable abbrev entry (k : Fin 4) : Expr (.mat 2 2) .scalar := .component (a := .mat 2 2) (Ty.at (.mat 2 2) k)
/-- `f * v` for a scalar-valued function and a tensor, lib/mito/functions/algebra.h:39-43 -/
noncomputable abbrev times {a b : Ty} (f : Expr a .scalar) (v : Val b) : Expr a b := .timesConst (.scale b) f v

/-- `derivative` of a function of reals -/
noncomputable abbrev deriv1 {b : Ty} (f : Expr .scalar b) : Expr .scalar b := f.derivative ()

/-- tests/mito.lib/functions/derivative_chain_rule.cc:16-49 -/
noncomputable def sinPow2 : Expr .scalar .scalar := .compS sin (pow 2)
@[inherit_doc sinPow2]
noncomputable def pow2Sin : Expr .scalar .scalar := .compS (pow 2) sin

/-- `g` of tests/mito.lib/functions/derivative_chain_rule.cc:57-92 -/
noncomputable def chainG : Expr (.vec 2) (.vec 3) :=
  (times ((comp 0).mul (comp 1)) (unitVec 1)).add (times ((comp 0).add (comp 1)) (unitVec 2))

/-- `f` of tests/mito.lib/functions/derivative_chain_rule.cc:57-92 -/
noncomputable def chainF : Expr (.vec 3) (.vec 3) :=
  ((times (comp 0) (unitVec 0)).add (times (comp 1) (unitVec 1))).add (times (comp 2) (unitVec 2))

/-- `h` of tests/mito.lib/functions/derivative_chain_rule.cc:57-92 -/
noncomputable def chainH : Expr (.vec 2) (.vec 3) := .compT chainF chainG

/-- the inverse functions of tests/mito.lib/functions/derivative_inverse.cc:20-113 -/
noncomputable def inverses : List (Expr .scalar .scalar) :=
  [.compS (.prim .sqrt) (pow 2), .compS (.prim .cbrt) (pow 3), .compS cos (.prim .acos), .compS sin (.prim .asin), .compS tan (.prim .atan), .compS exp (.prim .log)]

/-- `f` of tests/mito.lib/functions/derivative_product.cc:102-135: the base vectors are functions -/
noncomputable def scalarProduct (a : Val (.vec 2)) : Expr (.vec 2) .scalar :=
  .constTimes (.dot 2) a ((Expr.prod (.scale _) (comp 0) (.const (unitVec 0))).add (Expr.prod (.scale _) (comp 1) (.const (unitVec 1))))

/-- `f` of tests/mito.lib/functions/derivative_product.cc:138-171: they are constants -/
noncomputable def scalarProductConstant (a : Val (.vec 2)) : Expr (.vec 2) .scalar :=
  .constTimes (.dot 2) a ((times (comp 0) (unitVec 0)).add (times (comp 1) (unitVec 1)))

/-- `f` of tests/mito.lib/functions/derivative_subscript.cc:14-44 -/
noncomputable def subscripted : Expr .scalar (.mat 2 3) := times sin (unitMat 1 2)

/-- `combination` of tests/mito.lib/functions/derivative_sum.cc:112-131 -/
noncomputable def combination : Expr .scalar .scalar := .lin (.scale _) ![sc 2, sc (-1)] ![sin, cos]

/-- tests/mito.lib/functions/partial_derivatives.cc:60-85 and tests/mito.lib/functions/tensor_derivatives.cc:42-53 -/
noncomputable def sinOfProduct : Expr (.vec 2) .scalar := .compS sin ((comp 0).mul (comp 1))

/-- tests/mito.lib/functions/tensor_derivatives.cc:56-70 -/
noncomputable def trace : Expr (.mat 2 2) .scalar := (entry 0).add (entry 3)

/-- tests/mito.lib/functions/tensor_derivatives.cc:73-86 -/
noncomputable def vectorOfScalar : Expr .scalar (.vec 3) :=
  ((times sin (unitVec 0)).add (times cos (unitVec 1))).add (times exp (unitVec 2))

/-- tests/mito.lib/functions/tensor_derivatives.cc:89-104 -/
noncomputable def vectorOfVector : Expr (.vec 2) (.vec 3) :=
  ((times (comp 0) (unitVec 0)).add (times (comp 1) (unitVec 1))).add (times ((comp 0).mul (comp 1)) (unitVec 2))

/-- tests/mito.lib/functions/tensor_derivatives.cc:107-136 -/
noncomputable def vectorOfMatrix : Expr (.mat 2 2) (.vec 3) :=
  ((times (entry 0) (unitVec 0)).add (times (entry 1) (unitVec 1))).add (times ((entry 2).sub (entry 3)) (unitVec 2))

/-- tests/mito.lib/functions/tensor_derivatives.cc:139-153 -/
noncomputable def matrixOfScalar : Expr .scalar (.mat 2 2) :=
  ((times sin (unitMat 0 0)).add (times cos (unitMat 0 1))).add (times exp (unitMat 1 0))

/-- tests/mito.lib/functions/tensor_derivatives.cc:156-178 -/
noncomputable def matrixOfVector : Expr (.vec 2) (.mat 2 2) :=
  ((times (.compS sin (comp 0)) (unitMat 0 0)).add (times (.compS cos (comp 1)) (unitMat 0 1))).add
    (times (.compS exp ((comp 0).mul (comp 1))) (unitMat 1 1))

/-- tests/mito.lib/functions/tensor_derivatives.cc:181-208 -/
noncomputable def matrixOfMatrix : Expr (.mat 2 2) (.mat 2 2) := times trace (unitMat 0 0 + unitMat 1 0)

/-- `function1` of tests/mito.lib/functions/algebra.cc:18-83 -/
noncomputable def algebra1 : Expr (.vec 2) .scalar := .compS cos ((comp 0).mul (comp 1))
/-- `function3` -/
noncomputable def algebra3 : Expr (.vec 2) .scalar := algebra1.add (Expr.smul 5 (.const (sc 1)))
/-- `function4`, `function5` -/
noncomputable def algebra4 : Expr (.vec 2) .scalar := (algebra3.add algebra3).add algebra3
@[inherit_doc algebra4]
noncomputable def algebra5 : Expr (.vec 2) .scalar := Expr.smul 3 algebra3
/-- `function6`, `function7` -/
noncomputable def algebra6 : Expr (.vec 2) .scalar := algebra4.sub algebra3
@[inherit_doc algebra6]
noncomputable def algebra7 : Expr (.vec 2) .scalar := algebra5.sub algebra3
/-- `function8` to `function12` -/
noncomputable def algebra8 : Expr (.vec 2) .scalar := (times algebra7 (sc (1 / 2))).divConst (1 / 2)
@[inherit_doc algebra8]
noncomputable def algebra9 : Expr (.vec 2) .scalar := (Expr.constDiv (sc (1 / 2)) algebra7).mul algebra7
@[inherit_doc algebra8]
noncomputable def algebra10 (p : ℝ) : Expr (.vec 2) .scalar := (algebra7.addConst (sc p)).sub algebra7
@[inherit_doc algebra8]
noncomputable def algebra11 (p : ℝ) : Expr (.vec 2) .scalar := (algebra7.addConst (sc p)).subConst (sc (2 * p))
@[inherit_doc algebra8]
noncomputable def algebra12 : Expr (.vec 2) .scalar := algebra3.div algebra1
/-- `function16` to `function18` -/
noncomputable def algebra16 : Expr (.vec 2) (.vec 3) :=
  ((Expr.prod (.scale _) algebra1 (.const (unitVec 0))).add (Expr.prod (.scale _) algebra1 (.const (unitVec 1)))).add
    (Expr.prod (.scale _) algebra1 (.const (unitVec 2)))
@[inherit_doc algebra16]
noncomputable def algebra17 : Expr (.vec 2) (.vec 3) := Expr.smul 10 algebra16
@[inherit_doc algebra16]
noncomputable def algebra18 : Expr (.vec 2) .scalar := .constTimes (.dot 3) ![1, 2, 3] algebra16

/-- `f` of tests/mito.lib/functions/algebra.cc:86-127 -/
noncomputable def tensorF : Expr (.vec 3) .scalar := ((comp 1).mul (comp 2)).mul (.compS cos (comp 0))
/-- `B` of tests/mito.lib/functions/algebra.cc:86-127 -/
noncomputable def tensorB : Expr (.vec 3) (.mat 3 3) :=
  ((times tensorF (unitMat 1 2)).add (times (tensorF.mul tensorF) (unitMat 2 2))).add (.const (unitMat 1 2))

end Mito.Functions.Tests
