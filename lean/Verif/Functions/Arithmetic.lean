import Verif.Functions.Expr

/-!
# Evaluating functions with rounding

The functions that are built from components and constants by the operators of lib/mito/functions/algebra.h, and how they are evaluated when every operation is followed by a
rounding.  `Arith.expr` is the function in the sense of `Verif/Functions/Expr.lean`; the arithmetic is exact when nothing is rounded (`Verif/Props/Arithmetic.lean`).

Constants are rational so that the evaluation can be computed.  Simplification: no fused operations, no over- and underflow.
-/

namespace Mito.Functions

/-- functions of `d` coordinates built by the operators -/
inductive Arith (d : Nat) where
  /-- `Component`, lib/mito/functions/library_functions.h:16-35 -/
  | coord (i : Fin d)
  /-- `Summation`, lib/mito/functions/function.h:118-170 -/
  | sum (f g : Arith d)
  /-- `FunctionPlusConstant`, lib/mito/functions/function.h:246-296 -/
  | plusConst (f : Arith d) (c : ℚ)
  /-- `ConstantTimesFunction`, lib/mito/functions/function.h:409-460 -/
  | constTimes (c : ℚ) (f : Arith d)
  /-- `Product`, lib/mito/functions/function.h:300-350 -/
  | prod (f g : Arith d)

namespace Arith

variable {d : Nat}

/-- the function -/
noncomputable def expr : Arith d → Expr (.vec d) .scalar
  | .coord i => .component (a := .vec d) i
  | .sum f g => .sum f.expr g.expr
  | .plusConst f c => .plusConst f.expr (sc c)
  | .constTimes c f => .constTimes (.scale .scalar) (sc c) f.expr
  | .prod f g => .prod (.scale .scalar) f.expr g.expr

/-- the call operators, lib/mito/functions/function.h:158-162, 286, 336-339, 450 and lib/mito/functions/library_functions.h:34, with a rounding `rd` after every operation -/
def run {K : Type} [Field K] (rd : K → K) : Arith d → (Fin d → K) → K
  | .coord i, x => x i
  | .sum f g, x => rd (f.run rd x + g.run rd x)
  | .plusConst f c, x => rd (f.run rd x + c)
  | .constTimes c f, x => rd (c * f.run rd x)
  | .prod f g, x => rd (f.run rd x * g.run rd x)

/-- `-f`, lib/mito/functions/algebra.h:51-55 -/
def neg (f : Arith d) : Arith d := .constTimes (-1) f

/-- `f - g`, lib/mito/functions/algebra.h:57-61 -/
def sub (f g : Arith d) : Arith d := .sum f g.neg

/-- `a - f`, lib/mito/functions/algebra.h:63-67 -/
def constSub (c : ℚ) (f : Arith d) : Arith d := .plusConst f.neg c

/-- a bound for the number of roundings that the value of a function went through: products add those of their factors -/
def depth : Arith d → Nat
  | .coord _ => 0
  | .sum f g => max f.depth g.depth + 1
  | .plusConst f _ => f.depth + 1
  | .constTimes _ f => f.depth + 1
  | .prod f g => f.depth + g.depth + 1

/-- the function without cancellation: all constants and coordinates are positive -/
noncomputable def size : Arith d → (Fin d → ℝ) → ℝ
  | .coord i, x => |x i|
  | .sum f g, x => f.size x + g.size x
  | .plusConst f c, x => f.size x + |(c : ℝ)|
  | .constTimes c f, x => |(c : ℝ)| * f.size x
  | .prod f g, x => f.size x * g.size x

end Arith

/-- the value of `f / a`, where `f` is `y`: `(1.0 / a) * f`, lib/mito/functions/algebra.h:45-49, and of `a / f`, where `f` is `y`: `a * Reciprocal(f)`, lib/mito/functions/algebra.h:81-86
and lib/mito/functions/function.h:464-494 -/
def overConst {K : Type} [Field K] (rd : K → K) (a y : K) : K := rd (rd (1 / a) * y)
@[inherit_doc overConst]
def constOver {K : Type} [Field K] (rd : K → K) (a y : K) : K := rd (a * rd (1 / y))

end Mito.Functions
