import Verif.Tensor.Forms

/-!
# Model of the contraction of forms with placeholders, lib/mito/tensor/Form.h

`Verif/Tensor/Forms.lean` takes a form for a function of all of its vectors.  In the code a form may also be called with the placeholder `_` for some of them, and the generic
lambda inside then computes with a mixture of numbers and forms.  The model here is the tree of the operations that built the form, and the call by the overloads of `+`, `*` and
`wedge` that the lambda selects; `none` is a call that does not compile.

Simplification: `double` is the set of reals.
-/

namespace Mito.Tensor

variable {d : Nat}

/-- a form: how it was built -/
inductive Tree (d : Nat) where
  /-- `one_form`, lib/mito/tensor/factories.h:28-49 -/
  | one (f : Form1 d)
  /-- `tensor` of two one-forms, lib/mito/tensor/tensor.h:14-23, and `*` of two one-forms, lib/mito/tensor/forms_algebra.h:21-26 -/
  | tensor2 (a b : Tree d)
  /-- `tensor` of three one-forms, lib/mito/tensor/tensor.h:26-38 -/
  | tensor3 (a b c : Tree d)
  /-- `+`, lib/mito/tensor/forms_algebra.h:12-19 -/
  | add (f g : Tree d)
  /-- a number times a form, lib/mito/tensor/forms_algebra.h:28-40; `wedge` of a number and a form, lib/mito/tensor/wedge.h:20-32 -/
  | scale (s : ℝ) (f : Tree d)
  /-- `wedge` of three one-forms, lib/mito/tensor/wedge.h:42-56 -/
  | wedge3 (a b c : Tree d)
  /-- `wedge` of a one-form and a two-form, lib/mito/tensor/wedge.h:64-83 -/
  | wedge12 (b a : Tree d)

namespace Tree

/-- the template parameter `P` -/
def arity : Tree d → Nat
  | .one _ => 1
  | .tensor2 _ _ => 2
  | .tensor3 _ _ _ => 3
  | .add f _ => f.arity
  | .scale _ f => f.arity
  | .wedge3 _ _ _ => 3
  | .wedge12 _ _ => 3

/-- the constraints on the operands: `one_form_c` in lib/mito/tensor/tensor.h:14, 26-28 and lib/mito/tensor/wedge.h:42-44, equal `P` in lib/mito/tensor/forms_algebra.h:13-14,
`P1 == 1 && P2 == 2` in lib/mito/tensor/wedge.h:67 -/
def WellTyped : Tree d → Prop
  | .one _ => True
  | .tensor2 a b => (a.WellTyped ∧ a.arity = 1) ∧ b.WellTyped ∧ b.arity = 1
  | .tensor3 a b c => (a.WellTyped ∧ a.arity = 1) ∧ (b.WellTyped ∧ b.arity = 1) ∧ c.WellTyped ∧ c.arity = 1
  | .add f g => f.WellTyped ∧ g.WellTyped ∧ g.arity = f.arity
  | .scale _ f => f.WellTyped
  | .wedge3 a b c => (a.WellTyped ∧ a.arity = 1) ∧ (b.WellTyped ∧ b.arity = 1) ∧ c.WellTyped ∧ c.arity = 1
  | .wedge12 b a => (b.WellTyped ∧ b.arity = 1) ∧ a.WellTyped ∧ a.arity = 2

/-- unary `-`, lib/mito/tensor/forms_algebra.h:43-46 -/
noncomputable def neg (f : Tree d) : Tree d := .scale (-1.0) f

/-- `-`, lib/mito/tensor/forms_algebra.h:49-52 -/
noncomputable def sub (f g : Tree d) : Tree d := .add f g.neg

/-- `wedge` of two one-forms, lib/mito/tensor/wedge.h:35-39 -/
noncomputable def wedge2 (a b : Tree d) : Tree d := (Tree.tensor2 a b).sub (.tensor2 b a)

end Tree

/-- an argument: a vector, or the placeholder, lib/mito/tensor/Form.h:13-22 -/
abbrev Arg (d : Nat) := Option (Vec d)

/-- what a call returns -/
inductive Value (d : Nat) where
  | number (r : ℝ)
  | form (f : Tree d)

namespace Value

/-- `+`: of numbers, and of forms with equal `P` -/
def add : Value d → Value d → Option (Value d)
  | .number r, .number s => some (.number (r + s))
  | .form f, .form g => if g.arity = f.arity then some (.form (.add f g)) else none
  | _, _ => none

/-- `*`: of numbers, of a number and a form on either side (lib/mito/tensor/forms_algebra.h:28-40), and of one-forms (lib/mito/tensor/forms_algebra.h:21-26); there is no other product of
forms -/
def mul : Value d → Value d → Option (Value d)
  | .number r, .number s => some (.number (r * s))
  | .number r, .form f => some (.form (.scale r f))
  | .form f, .number r => some (.form (.scale r f))
  | .form f, .form g => if f.arity = 1 ∧ g.arity = 1 then some (.form (.tensor2 f g)) else none

/-- `+` and `*` of results that may not exist -/
def add? (u v : Option (Value d)) : Option (Value d) := u.bind fun u => v.bind fun v => add u v

@[inherit_doc add?]
def mul? (u v : Option (Value d)) : Option (Value d) := u.bind fun u => v.bind fun v => mul u v

end Value

open Value

/-- the call of `wedge` of the one-forms `b` and `c` at `y` and `z`, given what the calls of `b` and `c` return: `tensor(b, c)(y, z) + (-1.0) * tensor(c, b)(y, z)` -/
noncomputable def wedgeCall (bY cZ cY bZ : Option (Value d)) : Option (Value d) :=
  add? (mul? bY cZ) (mul? (some (.number (-1.0))) (mul? cY bZ))

/-- The call of a form.  A one-form called with the placeholder is returned, lib/mito/tensor/Form.h:75; otherwise the function inside is called, lib/mito/tensor/Form.h:42-48 and 67-72. -/
noncomputable def Tree.call : Tree d → List (Arg d) → Option (Value d)
  | .one f, [some v] => some (.number (f v))
  | .one f, [none] => some (.form (.one f))
  | .tensor2 a b, [x, y] => mul? (a.call [x]) (b.call [y])
  | .tensor3 a b c, [x, y, z] => mul? (mul? (a.call [x]) (b.call [y])) (c.call [z])
  | .add f g, args =>
    if args = [none] then some (.form (.add f g))
    else add? (f.call args) (g.call args)
  | .scale s f, args =>
    if args = [none] then some (.form (.scale s f))
    else mul? (some (.number s)) (f.call args)
  | .wedge3 a b c, [x, y, z] =>
    add? (add? (mul? (a.call [x]) (wedgeCall (b.call [y]) (c.call [z]) (c.call [y]) (b.call [z])))
      (mul? (b.call [x]) (wedgeCall (c.call [y]) (a.call [z]) (a.call [y]) (c.call [z]))))
      (mul? (c.call [x]) (wedgeCall (a.call [y]) (b.call [z]) (b.call [y]) (a.call [z])))
  | .wedge12 b a, [x, y, z] =>
    add?
      -- `wedge(b_tilda(x), a_tilda)(y, z)`: for a form `b_tilda(x)` this is a three-form called with two arguments
      (match b.call [x] with
        | some (.number r) => mul? (some (.number r)) (a.call [y, z])
        | _ => none)
      -- `sign * ` the form that calls `wedge(b_tilda, a_tilda(x, y))(z)`: for a form `a_tilda(x, y)` this is a two- or three-form called with one argument
      (mul? (some (.number (sign 1))) (match a.call [x, y] with
        | some (.number r) => if z = none then some (.form (.scale r b)) else mul? (some (.number r)) (b.call [z])
        | _ => none))
  | _, _ => none

end Mito.Tensor
