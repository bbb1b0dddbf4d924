import Verif.Quadrature.Doubles
import Mathlib.Algebra.Field.Defs
import Mathlib.Data.Fin.VecNotation

/-!
# Forms in double arithmetic

`fl` is the rounding after each operation.  Simplifications: no over- and underflow, no fused operations; the sum in a contraction runs from the
left.  A form is any function of vectors, so that its own roundings are part of it.
-/

namespace Mito.RoundedForms

variable {α V : Type} [Field α]

/-- `one_form(vector)` with the identity as matrix, lib/mito/tensor/factories.h:40-49: the products with the matrix are exact -/
def oneForm (fl : α → α) (v : Fin 3 → α) : (Fin 3 → α) → α := fun x => fl (fl (fl (v 0 * x 0) + fl (v 1 * x 1)) + fl (v 2 * x 2))

/-- the tensor product of two one-forms, lib/mito/tensor/tensor.h:14-23 -/
def tensor2 (fl : α → α) (a b : V → α) : V → V → α := fun x y => fl (a x * b y)

/-- the tensor product of three one-forms, lib/mito/tensor/tensor.h:26-38 -/
def tensor3 (fl : α → α) (a b c : V → α) : V → V → V → α := fun x y z => fl (fl (a x * b y) * c z)

/-- the wedge product of two one-forms, lib/mito/tensor/wedge.h:35-39 with lib/mito/tensor/forms_algebra.h:42-52 -/
def wedge2 (fl : α → α) (a b : V → α) : V → V → α := fun x y => fl (tensor2 fl a b x y + fl (-1 * tensor2 fl b a x y))

/-- the wedge product of three one-forms, lib/mito/tensor/wedge.h:42-56 -/
def wedge3 (fl : α → α) (a b c : V → α) : V → V → V → α := fun x y z =>
  fl (fl (fl (a x * wedge2 fl b c y z) + fl (b x * wedge2 fl c a y z)) + fl (c x * wedge2 fl a b y z))

/-- a basis vector, `e_0`, `e_1` or `e_2`, tests/mito.lib/tensor/wedge_product_forms.cc:16-44 -/
def basis (i : Fin 3) : Fin 3 → α := fun j => if j = i then 1 else 0

/-- the determinant of three basis vectors -/
def levi (i j k : Fin 3) : α :=
  if i = j ∨ j = k ∨ k = i then 0 else if (i.val + 1) % 3 = j.val then 1 else -1

end Mito.RoundedForms
