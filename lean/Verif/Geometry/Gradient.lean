import Verif.Geometry.Coordinates
import Verif.Functions.Derivative

/-! # Model of gradients in curvilinear coordinates

The gradient of a scalar field is made by the user from `derivative<I>`, the coordinate one-forms and `metric_equivalent`, as in
tests/mito.lib/manifolds/polar_gradient.cc:47-56.  `fields::gradient` and `fields::divergence`, lib/mito/fields/differential.h:13-87, are
the functions `gradient` and `divergence` of `Verif/Functions/Derivative.lean`: they take fields in coordinates of each type
(lib/mito/fields/forward.h:14). -/

namespace Mito.Geometry

open Mito.Tensor Mito.Functions

variable {d : Nat}

/-- `df0 * dx0 + df1 * dx1 + …`, tests/mito.lib/manifolds/polar_gradient.cc:47 and spherical_gradient.cc:56, with the products and sums of
one-form fields of lib/mito/fields/fields_algebra.h and lib/mito/tensor/forms_algebra.h:13-34 -/
noncomputable def System.gradientForm (S : System d) (f : Expr (.vec d) .scalar) (x : Vec d) : Form1 d :=
  fun v => ∑ I : Fin d, (f.derivative I).eval x () * S.dx I x v

/-- `metric_equivalent(gradient_form)`, tests/mito.lib/manifolds/polar_gradient.cc:55 -/
noncomputable def System.gradientVector (S : System d) (f : Expr (.vec d) .scalar) (x : Vec d) : Vec d :=
  S.sharp (S.gradientForm f x) x

end Mito.Geometry
