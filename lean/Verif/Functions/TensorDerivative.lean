import Verif.Functions.Derivative
import Mathlib.Logic.Equiv.Fin.Basic

/-!
# Derivatives of tensor-valued functions of tensors, lib/mito/functions/partial_derivatives.h

The components of a tensor are numbered row by row, as `operator[](int)` and `std::make_index_sequence<size>` do.  `derivative` of a function gives the matrix whose rows are the
components of the output and whose columns are those of the input.
-/

namespace Mito.Functions

/-- `size` of the type -/
def Ty.size : Ty → Nat
  | .scalar => 1
  | .vec n => n
  | .mat m n => m * n

/-- the index of the component with a number -/
def Ty.at : (t : Ty) → Fin t.size → Idx t
  | .scalar, _ => ()
  | .vec _, k => k
  | .mat _ _, k => finProdFinEquiv.symm k

/-- `f[I]`, or `f` for scalar-valued functions, lib/mito/functions/partial_derivatives.h:37-41 -/
def part {a : Ty} : {b : Ty} → Expr a b → Fin b.size → Expr a .scalar
  | .scalar, f, _ => f
  | .vec n, f, i => .subscript f (Ty.at (.vec n) i)
  | .mat m n, f, i => .subscript f (Ty.at (.mat m n) i)

/-- `derivative_impl` and `derivative`, lib/mito/functions/partial_derivatives.h:21-90, for functions whose input or output is a tensor.  For outputs that are tensors with one
component the code does not subscript, so that the model does not stand for it. -/
noncomputable def tensorDerivative {a b : Ty} (f : Expr a b) : Expr a (.mat b.size a.size) :=
  sumList ((List.finRange a.size).map fun k => sumList ((List.finRange b.size).map fun i =>
    .timesConst (.scale _) ((part f i).derivative (a.at k)) (unitMat i k)))

end Mito.Functions
