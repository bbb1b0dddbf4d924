import Verif.Tensor.Contraction
import Mathlib.LinearAlgebra.Matrix.Determinant.Basic

/-! # Specification of the contraction of forms (C125) -/

namespace Mito.Tensor

variable {d : Nat}

/-- what a form is, as a function of all of its vectors -/
noncomputable def Tree.meaning : Tree d → List (Vec d) → ℝ
  | .one f, [x] => f x
  | .tensor2 a b, [x, y] => a.meaning [x] * b.meaning [y]
  | .tensor3 a b c, [x, y, z] => a.meaning [x] * b.meaning [y] * c.meaning [z]
  | .add f g, vs => f.meaning vs + g.meaning vs
  | .scale s f, vs => s * f.meaning vs
  | .wedge3 a b c, [x, y, z] =>
    Matrix.det (Matrix.of ![![a.meaning [x], a.meaning [y], a.meaning [z]], ![b.meaning [x], b.meaning [y], b.meaning [z]],
      ![c.meaning [x], c.meaning [y], c.meaning [z]]])
  | .wedge12 b a, [x, y, z] => b.meaning [x] * a.meaning [y, z] + a.meaning [x, y] * b.meaning [z]
  | _, _ => 0

/-- the vectors take the places of the placeholders, in order -/
def fill : List (Arg d) → List (Vec d) → List (Vec d)
  | [], _ => []
  | some v :: args, vs => v :: fill args vs
  | none :: args, v :: vs => v :: fill args vs
  | none :: _, [] => []

/-- the number of placeholders -/
def opens (args : List (Arg d)) : Nat := args.countP (·.isNone)

/-- what a call with some placeholders should return: a number if there are none, and otherwise a form of the remaining vectors -/
def Value.Contracts (F : Tree d) (args : List (Arg d)) : Value d → Prop
  | .number r => opens args = 0 ∧ r = F.meaning (fill args [])
  | .form G => G.WellTyped ∧ G.arity = opens args ∧ 0 < opens args ∧ ∀ vs : List (Vec d), vs.length = opens args → G.meaning vs = F.meaning (fill args vs)

/-- the calls that compile: a three-form cannot be called with placeholders only, and the wedge of a one-form and a two-form needs its first two vectors -/
def Tree.Accepts : Tree d → List (Arg d) → Prop
  | .add f g, args => f.Accepts args ∧ g.Accepts args
  | .scale _ f, args => f.Accepts args
  | .tensor3 _ _ _, args => args ≠ [none, none, none]
  | .wedge3 _ _ _, args => args ≠ [none, none, none]
  | .wedge12 _ _, args => ∃ x y z, args = [some x, some y, z]
  | _, _ => True

end Mito.Tensor
