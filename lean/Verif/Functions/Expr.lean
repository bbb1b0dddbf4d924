import Mathlib.Analysis.SpecialFunctions.Pow.Real
import Mathlib.Analysis.SpecialFunctions.Trigonometric.Arctan
import Mathlib.Analysis.SpecialFunctions.Trigonometric.Inverse
import Mathlib.LinearAlgebra.Matrix.NonsingularInverse

/-!
# Model of the functions of mito, lib/mito/functions/function.h, lib/mito/functions/algebra.h and
lib/mito/functions/library_functions.h

In mito a function is an object of a class built from the classes of its parts: an expression tree.  The model is that tree.

Simplifications.
* `double` is the set of reals.  Where a partial operation (logarithm, division, ...) is used outside its domain the model gives
  a real number and the code an infinity or a NaN: the theorems that need it assume the point to be in the domain
  (`Verif/Spec/Functions.lean`).
* Points of a coordinate system and vectors are the same type of the model.
* The tensors are scalars, vectors and matrices; the products are the ones pyre gives them.
* An integer constant (`N * pow<N-1>`) is a real constant.
-/

namespace Mito.Functions

/-- the types of inputs and outputs of a function -/
inductive Ty where
  | scalar
  /-- `tensor::vector_t<n>`, and coordinates of dimension `n` -/
  | vec (n : Nat)
  /-- `tensor::matrix_t<m, n>` -/
  | mat (m n : Nat)
deriving DecidableEq

/-- the indices of the components of a value of a type -/
abbrev Idx : Ty → Type
  | .scalar => Unit
  | .vec n => Fin n
  | .mat m n => Fin m × Fin n

instance instFintypeIdx : (t : Ty) → Fintype (Idx t)
  | .scalar => inferInstanceAs (Fintype Unit)
  | .vec n => inferInstanceAs (Fintype (Fin n))
  | .mat m n => inferInstanceAs (Fintype (Fin m × Fin n))

instance instDecidableEqIdx : (t : Ty) → DecidableEq (Idx t)
  | .scalar => inferInstanceAs (DecidableEq Unit)
  | .vec n => inferInstanceAs (DecidableEq (Fin n))
  | .mat m n => inferInstanceAs (DecidableEq (Fin m × Fin n))

/-- all indices in the order of `std::make_index_sequence<size>` (row by row) -/
def enum : (t : Ty) → List (Idx t)
  | .scalar => [()]
  | .vec n => List.finRange n
  | .mat m n => (List.finRange m).flatMap fun i => (List.finRange n).map fun j => (i, j)

/-- the values of a type -/
abbrev Val (t : Ty) : Type := Idx t → ℝ

/-- a real as a scalar value -/
abbrev sc (x : ℝ) : Val .scalar := fun _ => x

/-- the products of pyre tensors, by the types of the factors and of the product -/
inductive MulKind : Ty → Ty → Ty → Type where
  /-- scalar times tensor -/
  | scale (t : Ty) : MulKind .scalar t t
  /-- tensor times scalar -/
  | scaleR (t : Ty) : MulKind t .scalar t
  /-- scalar product of vectors -/
  | dot (n : Nat) : MulKind (.vec n) (.vec n) .scalar
  | matVec (m n : Nat) : MulKind (.mat m n) (.vec n) (.vec m)
  | vecMat (m n : Nat) : MulKind (.vec m) (.mat m n) (.vec n)
  | matMat (m n p : Nat) : MulKind (.mat m n) (.mat n p) (.mat m p)

/-- the product -/
noncomputable def mul : {a b c : Ty} → MulKind a b c → Val a → Val b → Val c
  | _, _, _, .scale _, u, v => fun i => u () * v i
  | _, _, _, .scaleR _, u, v => fun i => u i * v ()
  | _, _, _, .dot _, u, v => fun _ => ∑ k, u k * v k
  | _, _, _, .matVec _ _, u, v => fun i => ∑ k, u (i, k) * v k
  | _, _, _, .vecMat _ _, u, v => fun j => ∑ k, u k * v (k, j)
  | _, _, _, .matMat _ _ _, u, v => fun ij => ∑ k, u (ij.1, k) * v (k, ij.2)

/-- the functions of reals of the library, lib/mito/functions/library_functions.h:38-241; `pow n` is `Power<n + 1>`
(`Power<N>` requires `N >= 1`) -/
inductive Prim where
  | sin | cos | tan | acos | asin | atan | exp | log | sqrt | cbrt
  | pow (n : Nat)
deriving DecidableEq

/-- `std::cbrt`: the real cube root -/
noncomputable def cbrt (x : ℝ) : ℝ := if 0 ≤ x then x ^ ((1 : ℝ) / 3) else -((-x) ^ ((1 : ℝ) / 3))

/-- `_power`, lib/mito/functions/library_functions.h:219-226 -/
def power (x : ℝ) : Nat → ℝ
  | 0 => 1
  | n + 1 => power x n * x

/-- the call operators, lib/mito/functions/library_functions.h:50, 66, 82, 98-101, 117-120, 136-139, 155, 171, 187-190, 206-209,
237-240 -/
noncomputable def Prim.eval : Prim → ℝ → ℝ
  | .sin, x => Real.sin x
  | .cos, x => Real.cos x
  | .tan, x => Real.tan x
  | .acos, x => Real.arccos x
  | .asin, x => Real.arcsin x
  | .atan, x => Real.arctan x
  | .exp, x => Real.exp x
  | .log, x => Real.log x
  | .sqrt, x => Real.sqrt x
  | .cbrt, x => Functions.cbrt x
  | .pow n, x => power x (n + 1)

/-- the functions -/
inductive Expr : Ty → Ty → Type where
  /-- `FunctionFromFunctor`, lib/mito/functions/function.h:25-66 -/
  | functor {a b : Ty} (f : Val a → Val b) : Expr a b
  /-- `Constant`, lib/mito/functions/function.h:70-114 -/
  | const {a b : Ty} (c : Val b) : Expr a b
  /-- a function of the library -/
  | prim (p : Prim) : Expr .scalar .scalar
  /-- `Component`, lib/mito/functions/library_functions.h:16-35 -/
  | component {a : Ty} (i : Idx a) : Expr a .scalar
  /-- `Summation` of two functions, lib/mito/functions/function.h:118-170.  A summation of more functions is the right fold of
  this one, as the fold expressions in lib/mito/functions/function.h:161 and lib/mito/functions/derivation_rules.h:27 are. -/
  | sum {a b : Ty} (f g : Expr a b) : Expr a b
  /-- `LinearCombination`, lib/mito/functions/function.h:173-243 -/
  | lin {a b c r : Ty} {n : Nat} (k : MulKind c b r) (cs : Fin n → Val c) (fs : Fin n → Expr a b) : Expr a r
  /-- `FunctionPlusConstant`, lib/mito/functions/function.h:246-296 -/
  | plusConst {a b : Ty} (f : Expr a b) (c : Val b) : Expr a b
  /-- `Product`, lib/mito/functions/function.h:300-350 -/
  | prod {a b c r : Ty} (k : MulKind b c r) (f : Expr a b) (g : Expr a c) : Expr a r
  /-- `FunctionTimesConstant`, lib/mito/functions/function.h:354-405 -/
  | timesConst {a b c r : Ty} (k : MulKind b c r) (f : Expr a b) (v : Val c) : Expr a r
  /-- `ConstantTimesFunction`, lib/mito/functions/function.h:409-460 -/
  | constTimes {a b c r : Ty} (k : MulKind c b r) (v : Val c) (f : Expr a b) : Expr a r
  /-- `Reciprocal`, lib/mito/functions/function.h:464-494 -/
  | recip {a : Ty} (f : Expr a .scalar) : Expr a .scalar
  /-- `Composition` with a scalar-valued inner function, lib/mito/functions/function.h:498-546 -/
  | compS {a b : Ty} (f : Expr .scalar b) (g : Expr a .scalar) : Expr a b
  /-- `Composition` with a tensor-valued inner function -/
  | compT {a m b : Ty} (f : Expr m b) (g : Expr a m) : Expr a b
  /-- `Subscript`, lib/mito/functions/function.h:549-585 -/
  | subscript {a b : Ty} (f : Expr a b) (i : Idx b) : Expr a .scalar
  /-- `Transpose`, lib/mito/functions/function.h:589-637 -/
  | transpose {a : Ty} {m n : Nat} (f : Expr a (.mat m n)) : Expr a (.mat n m)
  /-- `Determinant`, lib/mito/functions/function.h:640-676 -/
  | det {a : Ty} {n : Nat} (f : Expr a (.mat n n)) : Expr a .scalar
  /-- `Inverse`, lib/mito/functions/function.h:679-727 -/
  | inverse {a : Ty} {n : Nat} (f : Expr a (.mat n n)) : Expr a (.mat n n)
  /-- `DyadicProduct`, lib/mito/functions/function.h:730-781 -/
  | dyadic {a : Ty} {m n : Nat} (f : Expr a (.vec m)) (g : Expr a (.vec n)) : Expr a (.mat m n)

/-- the right fold `(t + ...)` over the components of a pack; an empty pack does not compile -/
def sumList {a b : Ty} : List (Expr a b) → Expr a b
  | [] => .const 0
  | [f] => f
  | f :: g :: fs => .sum f (sumList (g :: fs))

/-- the call operators, lib/mito/functions/function.h:61, 109, 158-162, 220-229, 286, 336-339, 395, 450, 487, 535, 574, 627-630,
666-669, 717-720, 767-770 and lib/mito/functions/library_functions.h:34 -/
noncomputable def Expr.eval : {a b : Ty} → Expr a b → Val a → Val b
  | _, _, .functor f, x => f x
  | _, _, .const c, _ => c
  | _, _, .prim p, x => sc (p.eval (x ()))
  | _, _, .component i, x => sc (x i)
  | _, _, .sum f g, x => f.eval x + g.eval x
  | _, _, .lin k cs fs, x => ∑ i, mul k (cs i) ((fs i).eval x)
  | _, _, .plusConst f c, x => f.eval x + c
  | _, _, .prod k f g, x => mul k (f.eval x) (g.eval x)
  | _, _, .timesConst k f v, x => mul k (f.eval x) v
  | _, _, .constTimes k v f, x => mul k v (f.eval x)
  | _, _, .recip f, x => sc (1 / f.eval x ())
  | _, _, .compS f g, x => f.eval (g.eval x)
  | _, _, .compT f g, x => f.eval (g.eval x)
  | _, _, .subscript f i, x => sc (f.eval x i)
  | _, _, .transpose f, x => fun ij => f.eval x (ij.2, ij.1)
  | _, _, .det f, x => sc (Matrix.det (Matrix.of fun i j => f.eval x (i, j)))
  | _, _, .inverse f, x => fun ij => (Matrix.of fun i j => f.eval x (i, j))⁻¹ ij.1 ij.2
  | _, _, .dyadic f g, x => fun ij => f.eval x ij.1 * g.eval x ij.2

namespace Expr

variable {a b c r : Ty}

/-- `f1 + f2`, lib/mito/functions/algebra.h:15-19 -/
def add (f g : Expr a b) : Expr a b := .sum f g

/-- `a + f` and `f + a`, lib/mito/functions/algebra.h:21-31 -/
def addConst (f : Expr a b) (v : Val b) : Expr a b := .plusConst f v

/-- a scalar constant times a function, lib/mito/functions/algebra.h:33-37 -/
def smul (s : ℝ) (f : Expr a b) : Expr a b := .constTimes (.scale b) (sc s) f

/-- `f / a`, lib/mito/functions/algebra.h:45-49 -/
noncomputable def divConst (f : Expr a b) (s : ℝ) : Expr a b := smul (1 / s) f

/-- `-f`, lib/mito/functions/algebra.h:51-55 -/
noncomputable def neg (f : Expr a b) : Expr a b := smul (-1) f

/-- `f1 - f2`, lib/mito/functions/algebra.h:57-61 -/
noncomputable def sub (f g : Expr a b) : Expr a b := add f (neg g)

/-- `a - f`, lib/mito/functions/algebra.h:63-67 -/
noncomputable def constSub (v : Val b) (f : Expr a b) : Expr a b := addConst (neg f) v

/-- `f - a`, lib/mito/functions/algebra.h:69-73 -/
noncomputable def subConst (f : Expr a b) (v : Val b) : Expr a b := addConst f (-v)

/-- `a / f`, lib/mito/functions/algebra.h:81-86 -/
def constDiv (v : Val b) (f : Expr a .scalar) : Expr a b := .constTimes (.scaleR b) v (.recip f)

/-- `f1 / f2`, lib/mito/functions/algebra.h:88-92 -/
def div (f : Expr a b) (g : Expr a .scalar) : Expr a b := .prod (.scaleR b) f (.recip g)

/-- `f1 * f2` of scalar functions, lib/mito/functions/algebra.h:75-79 -/
def mul (f g : Expr a .scalar) : Expr a .scalar := .prod (.scale .scalar) f g

end Expr

end Mito.Functions
