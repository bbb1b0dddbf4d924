import Verif.Functions.CalculusTests
import Verif.Geometry.Coordinates

/-!
# The fields of the tests of fields, tests/mito.lib/fields

The tests evaluate them at one point each; `Verif/Props/FieldTests.lean` proves the assertions at every point of the domain, with real numbers for `double`.
-/

namespace Mito.Functions.Tests

open Mito.Functions Mito.Tensor

/-- `f` of tests/mito.lib/fields/calculus_identities.cc:20-49, `g` of tests/mito.lib/fields/calculus_vector_field.cc:24-56 -/
noncomputable def wave : Expr (.vec 2) (.vec 2) :=
  (times (.compS sin ((comp 0).mul (comp 1))) (unitVec 0)).add (times (.compS cos ((comp 0).mul (comp 1))) (unitVec 1))

/-- `g` of tests/mito.lib/fields/fields.cc:14-41: the base vectors are functions -/
noncomputable def shear : Expr (.vec 2) (.vec 2) :=
  .prod (.scale _) (.compS cos ((comp 0).mul (comp 1))) ((Expr.const (unitVec 0)).add (.const (unitVec 1)))

/-- `f` of tests/mito.lib/fields/gradient_non_square.cc:30-55 -/
noncomputable def nonSquare : Expr (.vec 3) (.vec 2) :=
  (times ((Expr.compS sin ((comp 0).mul (comp 1))).add (comp 2)) (unitVec 0)).add
    (times ((Expr.compS cos ((comp 0).mul (comp 1))).sub (comp 2)) (unitVec 1))

/-- `(e * e) * E` -/
noncomputable def gramTerm {n : Nat} (e : Expr (.vec n) (.vec n)) (i : Fin n) : Expr (.vec n) (.mat n n) :=
  .prod (.scale _) (.prod (.dot n) e e) (.const (unitMat i i))

/-- `e_r`, `e_t` of tests/mito.lib/fields/polar_metric_field.cc:22-24 -/
noncomputable def polarE : Fin 2 → Expr (.vec 2) (.vec 2)
  | 0 => .const (unitVec 0)
  | 1 => .prod (.scale _) (comp 0) (.const (unitVec 1))

/-- `g` of tests/mito.lib/fields/polar_metric_field.cc:26-31 -/
noncomputable def polarG : Expr (.vec 2) (.mat 2 2) := (gramTerm (polarE 0) 0).add (gramTerm (polarE 1) 1)

/-- `e_r`, `e_t`, `e_p` of tests/mito.lib/fields/spherical_metric_field.cc:23-27 -/
noncomputable def sphericalE : Fin 3 → Expr (.vec 3) (.vec 3)
  | 0 => .const (unitVec 0)
  | 1 => .prod (.scale _) (comp 0) (.const (unitVec 1))
  | 2 => .prod (.scale _) (.prod (.scale _) (comp 0) (.compS sin (comp 1))) (.const (unitVec 2))

/-- `g` of tests/mito.lib/fields/spherical_metric_field.cc:29-35 -/
noncomputable def sphericalG : Expr (.vec 3) (.mat 3 3) := ((gramTerm (sphericalE 0) 0).add (gramTerm (sphericalE 1) 1)).add (gramTerm (sphericalE 2) 2)

/-- the one-forms `dr`, `dt`, `dp` of tests/mito.lib/fields/polar_metric_field.cc:33-41 and tests/mito.lib/fields/spherical_metric_field.cc:37-46 -/
noncomputable def dual {n : Nat} (e : Fin n → Expr (.vec n) (.vec n)) (g : Expr (.vec n) (.mat n n)) (i : Fin n) (x : Vec n) : Form1 n :=
  oneForm ((e i).eval x) (Matrix.of fun j k => (Expr.inverse g).eval x (j, k))

/-- `w` of tests/mito.lib/fields/polar_metric_field.cc:54-56: `sqrt(determinant(g)) * wedge(dr, dt)` -/
noncomputable def polarW (x : Vec 2) : Form2 2 :=
  scale2 ((Expr.compS (.prim .sqrt) (.det polarG)).eval x ()) (wedge2 (dual polarE polarG 0 x) (dual polarE polarG 1 x))

/-- `w` of tests/mito.lib/fields/spherical_metric_field.cc:65-67: `sqrt(determinant(g)) * wedge(dr, dt, dp)` -/
noncomputable def sphericalW (x : Vec 3) : Form3 3 :=
  scale3 ((Expr.compS (.prim .sqrt) (.det sphericalG)).eval x ()) (wedge3 (dual sphericalE sphericalG 0 x) (dual sphericalE sphericalG 1 x) (dual sphericalE sphericalG 2 x))

end Mito.Functions.Tests
