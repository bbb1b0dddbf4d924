import Verif.Functions.Expr

/-!
# Model of symbolic differentiation, lib/mito/functions/derivation_rules.h, lib/mito/functions/library_derivatives.h,
lib/mito/functions/partial_derivatives.h and lib/mito/fields/differential.h
-/

namespace Mito.Functions

/-- the derivatives of the functions of the library, lib/mito/functions/library_derivatives.h:20-102 -/
noncomputable def Prim.derivative : Prim → Expr .scalar .scalar
  | .sin => .prim .cos
  | .cos => (Expr.prim .sin).neg
  | .tan => Expr.constDiv (sc 1) (.compS (.prim (.pow 1)) (.prim .cos))
  | .acos => Expr.constDiv (sc (-1)) (.compS (.prim .sqrt) (Expr.constSub (sc 1) (.prim (.pow 1))))
  | .asin => Expr.constDiv (sc 1) (.compS (.prim .sqrt) (Expr.constSub (sc 1) (.prim (.pow 1))))
  | .atan => Expr.constDiv (sc 1) (Expr.addConst (.prim (.pow 1)) (sc 1))
  | .exp => .prim .exp
  | .log => Expr.constDiv (sc 1) (.prim (.pow 0))
  | .sqrt => Expr.constDiv (sc (1 / 2)) (.prim .sqrt)
  | .cbrt => Expr.constDiv (sc (1 / 3)) (.compS (.prim (.pow 1)) (.prim .cbrt))
  | .pow 0 => .const (sc 1)
  | .pow (n + 1) => Expr.smul (n + 2 : ℕ) (.prim (.pow n))

/-- there is a rule for every part of the function (otherwise `derivative<I>` does not compile) -/
def Expr.HasRule : {a b : Ty} → Expr a b → Prop
  | _, _, .functor _ => False
  | _, _, .const _ => True
  | _, _, .prim _ => True
  | _, _, .component _ => True
  | _, _, .sum f g => f.HasRule ∧ g.HasRule
  | _, _, .lin _ _ fs => ∀ i, (fs i).HasRule
  | _, _, .plusConst f _ => f.HasRule
  | _, _, .prod _ f g => f.HasRule ∧ g.HasRule
  | _, _, .timesConst _ f _ => f.HasRule
  | _, _, .constTimes _ _ f => f.HasRule
  | _, _, .recip f => f.HasRule
  | _, _, .compS f g => f.HasRule ∧ g.HasRule
  | a, _, .compT f g => a ≠ .scalar ∧ f.HasRule ∧ g.HasRule
  | _, _, .subscript f _ => f.HasRule
  | _, _, .transpose f => f.HasRule
  | _, _, .det _ => False
  | _, _, .inverse _ => False
  | _, _, .dyadic _ _ => False

/-- `derivative<I>`, lib/mito/functions/derivation_rules.h:15-113 and lib/mito/functions/library_derivatives.h:12-18, 104-113.
The rules of the functions of reals ignore `I`, so the index of a function of reals is `()`.  Where `HasRule` fails the code
does not compile and the value given here means nothing. -/
noncomputable def Expr.derivative : {a b : Ty} → Expr a b → Idx a → Expr a b
  | _, _, .functor _, _ => .const 0
  | _, _, .const _, _ => .const 0
  | _, _, .prim p, _ => p.derivative
  | _, _, .component i, j => .const (sc (if j = i then 1 else 0))
  | _, _, .sum f g, j => .sum (f.derivative j) (g.derivative j)
  | _, _, .lin k cs fs, j => .lin k cs fun i => (fs i).derivative j
  | _, _, .plusConst f _, j => f.derivative j
  | _, _, .prod k f g, j => .sum (.prod k f (g.derivative j)) (.prod k (f.derivative j) g)
  | _, _, .timesConst k f v, j => .timesConst k (f.derivative j) v
  | _, _, .constTimes k v f, j => .constTimes k v (f.derivative j)
  | _, _, .recip f, j => Expr.div (Expr.smul (-1) (f.derivative j)) (Expr.mul f f)
  | _, b, .compS f g, j => .prod (.scaleR b) (.compS (f.derivative ()) g) (g.derivative j)
  | _, b, .compT (m := m) f g, j =>
    sumList ((enum m).map fun i => .prod (.scaleR b) (.compT (f.derivative i) g) (.subscript (g.derivative j) i))
  | _, _, .subscript f i, j => .subscript (f.derivative j) i
  | _, _, .transpose f, j => .transpose (f.derivative j)
  | _, _, .det _, _ => .const 0
  | _, _, .inverse _, _ => .const 0
  | _, _, .dyadic _ _, _ => .const 0

/-- `tensor::e<i, n>` -/
noncomputable def unitVec {n : Nat} (i : Fin n) : Val (.vec n) := fun k => if k = i then 1 else 0

/-- `tensor::unit<matrix_t<m, n>, i, j>` -/
noncomputable def unitMat {m n : Nat} (i : Fin m) (j : Fin n) : Val (.mat m n) := fun k => if k = (i, j) then 1 else 0

/-- `derivative` of a vector-valued function of vectors: the matrix of the partial derivatives,
lib/mito/functions/partial_derivatives.h:21-64.  Functions of matrices and matrix-valued functions are in
`Verif/Functions/TensorDerivative.lean`.  For `n = 1` the code does not subscript and gives a vector
(lib/mito/functions/partial_derivatives.h:37-38); the model stands for the other `n` only. -/
noncomputable def jacobianVV {d n : Nat} (f : Expr (.vec d) (.vec n)) : Expr (.vec d) (.mat n d) :=
  sumList ((List.finRange d).map fun k => sumList ((List.finRange n).map fun i =>
    .timesConst (.scale _) ((Expr.subscript f i).derivative k) (unitMat i k)))

/-- `derivative` of a scalar-valued function of vectors, lib/mito/functions/partial_derivatives.h:66-77 -/
noncomputable def jacobianVS {d : Nat} (f : Expr (.vec d) .scalar) : Expr (.vec d) (.mat 1 d) :=
  sumList ((List.finRange d).map fun k => .timesConst (.scale _) (f.derivative k) (unitMat 0 k))

/-- `derivative` of a vector-valued function of scalars, lib/mito/functions/partial_derivatives.h:79-90; `n ≠ 1`
as for `jacobianVV` -/
noncomputable def jacobianSV {n : Nat} (f : Expr .scalar (.vec n)) : Expr .scalar (.mat n 1) :=
  sumList ((List.finRange n).map fun i => .timesConst (.scale _) ((Expr.subscript f i).derivative ()) (unitMat i 0))

/-- `gradient` of a scalar field, lib/mito/fields/differential.h:13-32 -/
noncomputable def gradient {d : Nat} (f : Expr (.vec d) .scalar) : Expr (.vec d) (.vec d) :=
  sumList ((List.finRange d).map fun i => .prod (.scale _) (f.derivative i) (.const (unitVec i)))

/-- `gradient` of a vector field, lib/mito/fields/differential.h:34-65 -/
noncomputable def gradientV {d n : Nat} (f : Expr (.vec d) (.vec n)) : Expr (.vec d) (.mat n d) :=
  sumList ((List.finRange d).map fun k => sumList ((List.finRange n).map fun i =>
    .prod (.scale _) ((Expr.prod (.dot n) f (.const (unitVec i))).derivative k) (.const (unitMat i k))))

/-- `divergence` of a vector field, lib/mito/fields/differential.h:67-87 -/
noncomputable def divergence {d : Nat} (f : Expr (.vec d) (.vec d)) : Expr (.vec d) .scalar :=
  sumList ((List.finRange d).map fun i => (Expr.prod (.dot d) f (.const (unitVec i))).derivative i)

/-- `divergence` of a tensor field, lib/mito/fields/differential.h:89-118 -/
noncomputable def divergenceT {d : Nat} (f : Expr (.vec d) (.mat d d)) : Expr (.vec d) (.vec d) :=
  sumList ((List.finRange d).map fun k => sumList ((List.finRange d).map fun i =>
    .prod (.scale _)
      ((Expr.prod (.dot d) (.prod (.matVec d d) f (.const (unitVec i))) (.const (unitVec k))).derivative i)
      (.const (unitVec k))))

end Mito.Functions
