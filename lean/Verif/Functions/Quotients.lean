import Verif.Functions.Derivative

/-!
# Sums, products and quotients of functions and constants in double arithmetic

The functions of tests/mito.lib/functions/derivative_constants.cc and tests/mito.lib/functions/derivative_higher_order.cc: the sine, constants and
the operators of lib/mito/functions/algebra.h.  Every operation is followed by a rounding `rd`; a division of a function by a constant stores the
rounded reciprocal of the constant.  The values of sine and cosine are those of the C library: they are arguments of the model.
-/

namespace Mito.Functions

/-- the functions that the tests start from, and their derivatives -/
inductive Wave where
  | sin | cos
  deriving DecidableEq

/-- the functions of the tests, with constants in `K` -/
inductive Term (K : Type) where
  | wave (w : Wave)
  /-- `FunctionPlusConstant`, lib/mito/functions/function.h:246-296 -/
  | plusConst (f : Term K) (a : K)
  /-- `ConstantTimesFunction`, lib/mito/functions/function.h:409-460 -/
  | constTimes (a : K) (f : Term K)
  /-- `FunctionTimesConstant`, lib/mito/functions/function.h:354-405 -/
  | timesConst (f : Term K) (a : K)

namespace Term

variable {K : Type} [Field K]

/-- `-f`, lib/mito/functions/algebra.h:51-55 -/
def neg (f : Term K) : Term K := .constTimes (-1) f

/-- `a - f`, lib/mito/functions/algebra.h:63-67 -/
def constSub (a : K) (f : Term K) : Term K := .plusConst f.neg a

/-- `f - a`, lib/mito/functions/algebra.h:69-73 -/
def subConst (f : Term K) (a : K) : Term K := .plusConst f (-a)

/-- `f / a`, lib/mito/functions/algebra.h:45-49 -/
def divConst (rd : K → K) (f : Term K) (a : K) : Term K := .constTimes (rd (1 / a)) f

/-- `derivative`, lib/mito/functions/derivation_rules.h:15-113 and lib/mito/functions/library_derivatives.h:34-46 -/
def derivative : Term K → Term K
  | .wave .sin => .wave .cos
  | .wave .cos => neg (.wave .sin)
  | .plusConst f _ => f.derivative
  | .constTimes a f => .constTimes a f.derivative
  | .timesConst f a => .timesConst f.derivative a

/-- the call operators, lib/mito/functions/function.h:286, 395, 450, at a point where sine and cosine are given by `v` -/
def run (rd : K → K) (v : Wave → K) : Term K → K
  | .wave w => v w
  | .plusConst f a => rd (f.run rd v + a)
  | .constTimes a f => rd (a * f.run rd v)
  | .timesConst f a => rd (f.run rd v * a)

end Term

/-- the function without rounding -/
noncomputable def Term.expr : Term ℝ → Expr .scalar .scalar
  | .wave .sin => .prim .sin
  | .wave .cos => .prim .cos
  | .plusConst f a => .plusConst f.expr (sc a)
  | .constTimes a f => .constTimes (.scale .scalar) (sc a) f.expr
  | .timesConst f a => .timesConst (.scaleR .scalar) f.expr (sc a)

section
variable {K : Type} [Field K] (rd : K → K) (v : Wave → K) (a : K)

/-- the sine and its derivatives, tests/mito.lib/functions/derivative_constants.cc:21-46 -/
def sine : Term K := .wave .sin

/-- `static_assert(x == y)` in tests/mito.lib/functions/derivative_constants.cc:16-52 -/
def plusTest : List (K × K) :=
  let f : Term K := .plusConst sine a
  [(rd (a + v .sin), f.run rd v),
   ((sine : Term K).derivative.run rd v, f.derivative.run rd v),
   ((sine : Term K).derivative.derivative.run rd v, f.derivative.derivative.run rd v)]

/-- tests/mito.lib/functions/derivative_constants.cc:55-91 -/
def timesTest : List (K × K) :=
  let f : Term K := .constTimes a sine
  let g : Term K := .timesConst sine a
  [(rd (a * v .sin), f.run rd v), (rd (a * v .sin), g.run rd v),
   (rd (a * (sine : Term K).derivative.run rd v), f.derivative.run rd v), (rd (a * (sine : Term K).derivative.run rd v), g.derivative.run rd v),
   (rd (a * (sine : Term K).derivative.derivative.run rd v), f.derivative.derivative.run rd v),
   (rd (a * (sine : Term K).derivative.derivative.run rd v), g.derivative.derivative.run rd v)]

/-- tests/mito.lib/functions/derivative_constants.cc:94-121 -/
def divideTest : List (K × K) :=
  let f : Term K := Term.divConst rd sine a
  [(rd (v .sin / a), f.run rd v), (rd ((sine : Term K).derivative.run rd v / a), f.derivative.run rd v),
   (rd ((sine : Term K).derivative.derivative.run rd v / a), f.derivative.derivative.run rd v)]

/-- tests/mito.lib/functions/derivative_constants.cc:124-160; the sign of a double changes without rounding -/
def minusTest : List (K × K) :=
  let f : Term K := Term.constSub a sine
  let g : Term K := Term.subConst sine a
  [(rd (a - v .sin), f.run rd v), (rd (v .sin - a), g.run rd v),
   (-(sine : Term K).derivative.run rd v, f.derivative.run rd v), ((sine : Term K).derivative.run rd v, g.derivative.run rd v),
   (-(sine : Term K).derivative.derivative.run rd v, f.derivative.derivative.run rd v),
   ((sine : Term K).derivative.derivative.run rd v, g.derivative.derivative.run rd v)]

/-- tests/mito.lib/functions/derivative_higher_order.cc:17-45 -/
def higherTest : List (K × K) :=
  let f : Term K := sine
  [(v .cos, f.derivative.run rd v), (-v .sin, f.derivative.derivative.run rd v), (-v .cos, f.derivative.derivative.derivative.run rd v),
   (v .sin, f.derivative.derivative.derivative.derivative.run rd v)]

end

/-- sine and cosine of `pi / 6.0` as doubles: 0.49999999999999994 and 0.8660254037844387, the doubles nearest to the values at the double
`pi / 6.0` -/
def sixth : Wave → ℚ
  | .sin => 9007199254740991 / 2 ^ 54
  | .cos => 7800463371553963 / 2 ^ 53

end Mito.Functions
