import Mathlib.Data.Real.Basic
import Mathlib.LinearAlgebra.Matrix.Defs
import Mathlib.Data.Matrix.Mul

/-! # Model of forms, lib/mito/tensor

A form is the function of vectors that it wraps (lib/mito/tensor/Form.h:26-80). The placeholder `_` leaves an argument open: a form with
its last arguments open is its partial application. -/

namespace Mito.Tensor

/-- `vector_t<D>` -/
abbrev Vec (d : Nat) := Fin d → ℝ

/-- `matrix_t<D>`, with its symmetric and diagonal versions -/
abbrev Mat (d : Nat) := Matrix (Fin d) (Fin d) ℝ

abbrev Form1 (d : Nat) := Vec d → ℝ
abbrev Form2 (d : Nat) := Vec d → Vec d → ℝ
abbrev Form3 (d : Nat) := Vec d → Vec d → Vec d → ℝ

variable {d : Nat}

/-- `one_form(vector, matrix)`, lib/mito/tensor/factories.h:28-49 -/
def oneForm (vector : Vec d) (matrix : Mat d) : Form1 d := fun v => matrix.mulVec vector ⬝ᵥ v

/-- the sum of two forms, lib/mito/tensor/forms_algebra.h:13-19 -/
def add2 (f g : Form2 d) : Form2 d := fun x y => f x y + g x y

/-- a number times a form, lib/mito/tensor/forms_algebra.h:29-34 -/
def scale2 (a : ℝ) (f : Form2 d) : Form2 d := fun x y => a * f x y

def scale1 (a : ℝ) (f : Form1 d) : Form1 d := fun x => a * f x

def add3 (f g : Form3 d) : Form3 d := fun x y z => f x y z + g x y z

def scale3 (a : ℝ) (f : Form3 d) : Form3 d := fun x y z => a * f x y z

/-- the difference of two forms, lib/mito/tensor/forms_algebra.h:43-52 -/
def sub2 (f g : Form2 d) : Form2 d := add2 f (scale2 (-1.0) g)

/-- the tensor product of two one-forms, lib/mito/tensor/tensor.h:14-23 -/
def tensor2 (a b : Form1 d) : Form2 d := fun x y => a x * b y

/-- the tensor product of three one-forms, lib/mito/tensor/tensor.h:26-38 -/
def tensor3 (a b c : Form1 d) : Form3 d := fun x y z => a x * b y * c z

/-- the wedge product of two one-forms, lib/mito/tensor/wedge.h:35-39 -/
def wedge2 (a b : Form1 d) : Form2 d := sub2 (tensor2 a b) (tensor2 b a)

/-- the wedge product of three one-forms, lib/mito/tensor/wedge.h:42-56 -/
def wedge3 (a b c : Form1 d) : Form3 d := fun x y z =>
  a x * wedge2 b c y z + b x * wedge2 c a y z + c x * wedge2 a b y z

/-- the sign in the wedge of a one-form with a two-form, lib/mito/tensor/wedge.h:70 -/
def sign (p1 : Nat) : ℝ := if p1 % 2 ≠ 0 then 1 else -1

/-- the wedge product of a one-form with a two-form, lib/mito/tensor/wedge.h:65-83 -/
def wedge12 (b : Form1 d) (a : Form2 d) : Form3 d :=
  add3 (fun x y z => scale2 (b x) a y z) (scale3 (sign 1) fun x y z => scale1 (a x y) b z)

end Mito.Tensor
