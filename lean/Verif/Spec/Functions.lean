import Verif.Functions.Derivative
import Mathlib.Analysis.Calculus.Deriv.Basic

/-! # Specification of functions and their derivatives (C60, C61, C62) -/

namespace Mito.Functions

/-- the point is in the domain of the function of the library -/
def Prim.Defined : Prim → ℝ → Prop
  | .tan, x => Real.cos x ≠ 0
  | .acos, x => -1 ≤ x ∧ x ≤ 1
  | .asin, x => -1 ≤ x ∧ x ≤ 1
  | .log, x => 0 < x
  | .sqrt, x => 0 ≤ x
  | _, _ => True

/-- the function of the library is differentiable at the point -/
def Prim.Smooth : Prim → ℝ → Prop
  | .tan, x => Real.cos x ≠ 0
  | .acos, x => -1 < x ∧ x < 1
  | .asin, x => -1 < x ∧ x < 1
  | .log, x => 0 < x
  | .sqrt, x => 0 < x
  | .cbrt, x => x ≠ 0
  | _, _ => True

/-- every part of the expression satisfies `P` where it is used, and nothing is divided by zero -/
def Expr.All (P : Prim → ℝ → Prop) : {a b : Ty} → Expr a b → Val a → Prop
  | _, _, .functor _, _ => True
  | _, _, .const _, _ => True
  | _, _, .prim p, x => P p (x ())
  | _, _, .component _, _ => True
  | _, _, .sum f g, x => f.All P x ∧ g.All P x
  | _, _, .lin _ _ fs, x => ∀ i, (fs i).All P x
  | _, _, .plusConst f _, x => f.All P x
  | _, _, .prod _ f g, x => f.All P x ∧ g.All P x
  | _, _, .timesConst _ f _, x => f.All P x
  | _, _, .constTimes _ _ f, x => f.All P x
  | _, _, .recip f, x => f.All P x ∧ f.eval x () ≠ 0
  | _, _, .compS f g, x => f.All P (g.eval x) ∧ g.All P x
  | _, _, .compT f g, x => f.All P (g.eval x) ∧ g.All P x
  | _, _, .subscript f _, x => f.All P x
  | _, _, .transpose f, x => f.All P x
  | _, _, .det f, x => f.All P x
  | _, _, .inverse f, x => f.All P x ∧ Matrix.det (Matrix.of fun i j => f.eval x (i, j)) ≠ 0
  | _, _, .dyadic f g, x => f.All P x ∧ g.All P x

/-- every part of the expression is used inside its domain -/
def Expr.Defined {a b : Ty} (f : Expr a b) (x : Val a) : Prop := f.All Prim.Defined x

/-- every part of the expression is differentiable where it is used -/
def Expr.Smooth {a b : Ty} (f : Expr a b) (x : Val a) : Prop := f.All Prim.Smooth x

/-- `v` is the partial derivative of `f` at `x` with respect to the component `i` -/
def HasPartial {a b : Ty} (f : Val a → Val b) (i : Idx a) (v : Val b) (x : Val a) : Prop :=
  HasDerivAt (fun t => f (Function.update x i t)) v (x i)

/-- repeated differentiation -/
noncomputable def Expr.derivatives {a b : Ty} (f : Expr a b) (is : List (Idx a)) : Expr a b :=
  is.foldl Expr.derivative f

end Mito.Functions
