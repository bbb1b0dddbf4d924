import Verif.Functions.CalculusTests
import Verif.Functions.TensorDerivativeLemmas
import Verif.Functions.ArithmeticLemmas
import Verif.Props.Functions
import Verif.Props.Rounding

/-!
# C124: derivatives of tensors, and the tests of the symbolic calculus at every point
-/

namespace Mito.Functions

/-! ## Derivatives of tensor-valued functions of tensors -/

/-- The matrix that `derivative` returns for a function of tensors: its rows are the components of the value and its columns those of the argument, numbered row by row, and its
entries are the partial derivatives. -/
theorem tensor_derivative_correct {a b : Ty} (f : Expr a b) (hr : f.HasRule) (x : Val a) (hs : f.Smooth x) (i : Fin b.size) (k : Fin a.size) :
    HasDerivAt (fun t => f.eval (Function.update x (a.at k) t) (b.at i)) ((tensorDerivative f).eval x (i, k)) (x (a.at k)) := by
  rw [tensorDerivative_eval]
  exact hasDerivAt_pi.mp (partial_correct f hr x hs (a.at k)).1 (b.at i)

/-- Every component has exactly one number. -/
theorem at_bijective (t : Ty) : Function.Bijective t.at := by
  cases t with
  | scalar =>
    refine ⟨fun i j _ => ?_, fun u => ⟨(0 : Fin 1), rfl⟩⟩
    exact Fin.ext (by have := i.2; have := j.2; simp only [Ty.size] at *; omega)
  | vec n => exact Function.bijective_id
  | mat m n => exact finProdFinEquiv.symm.bijective

/-- ... row by row -/
theorem at_mat (m n : Nat) (k : Fin (m * n)) : ((Ty.at (.mat m n) k).1 : Nat) = k / n ∧ ((Ty.at (.mat m n) k).2 : Nat) = k % n := ⟨rfl, rfl⟩

/-- It can be differentiated again. -/
theorem tensor_derivative_again {a b : Ty} (f : Expr a b) (hr : f.HasRule) : (tensorDerivative f).HasRule := tensorDerivative_hasRule f hr

/-- For functions of vectors it is the matrix of C61. -/
theorem tensor_derivative_vectors {d n : Nat} (f : Expr (.vec d) (.vec n)) (x : Val (.vec d)) : (tensorDerivative f).eval x = (jacobianVV f).eval x := by
  funext ij
  exact (tensorDerivative_eval f x ij.1 ij.2).trans (jacobianVV_eval f x ij.1 ij.2).symm

/-- Second derivatives of a function of tensors: the entry of the components `i` of the value, `k` and `l` of the argument. -/
theorem tensor_derivative_twice {a b : Ty} (f : Expr a b) (x : Val a) (i : Fin b.size) (k l : Fin a.size) :
    (tensorDerivative (tensorDerivative f)).eval x (finProdFinEquiv (i, k), l) = ((tensorDerivative f).derivative (a.at l)).eval x (i, k) := by
  have h := tensorDerivative_eval (tensorDerivative f) x (finProdFinEquiv (i, k)) l
  rw [h]
  congr 1
  exact finProdFinEquiv.symm_apply_apply (i, k)

namespace Tests

/-! ## The tests -/

theorem higher_order (x : ℝ) :
    (deriv1 sin).eval (sc x) () = Real.cos x ∧ (deriv1 (deriv1 sin)).eval (sc x) () = -Real.sin x ∧
    (deriv1 (deriv1 (deriv1 sin))).eval (sc x) () = -Real.cos x ∧ (deriv1 (deriv1 (deriv1 (deriv1 sin)))).eval (sc x) () = Real.sin x := by
  refine ⟨?_, ?_, ?_, ?_⟩ <;> simp [Expr.derivative, Prim.derivative, Expr.eval, Prim.eval, Expr.neg, Expr.smul, mul]

theorem chain_rule_scalar (x : ℝ) :
    sinPow2.eval (sc x) () = Real.sin (x ^ 2) ∧ (deriv1 sinPow2).eval (sc x) () = 2 * Real.cos (x ^ 2) * x ∧
    pow2Sin.eval (sc x) () = Real.sin x ^ 2 ∧ (deriv1 pow2Sin).eval (sc x) () = 2 * Real.sin x * Real.cos x := by
  refine ⟨?_, ?_, ?_, ?_⟩ <;>
    simp [sinPow2, pow2Sin, Expr.derivative, Prim.derivative, Expr.eval, Prim.eval, Expr.smul, mul, power_eq] <;> ring

theorem chain_rule_vector (p : Val (.vec 2)) :
    chainH.eval p = ![0, p 0 * p 1, p 0 + p 1] ∧ (chainH.derivative 0).eval p = ![0, p 1, 1] ∧ (chainH.derivative 1).eval p = ![0, p 0, 1] := by
  refine ⟨?_, ?_, ?_⟩ <;> funext i <;> fin_cases i <;>
    simp [chainH, chainF, chainG, Expr.derivative, Expr.eval, mul, unitVec, Expr.add, Expr.mul, enum, List.finRange_succ, sumList]

/-- for every function, not just the sine -/
theorem constants (f : Expr .scalar .scalar) (a x : ℝ) :
    (deriv1 (f.addConst (sc a))).eval (sc x) = (deriv1 f).eval (sc x) ∧
    (deriv1 (deriv1 (f.addConst (sc a)))).eval (sc x) = (deriv1 (deriv1 f)).eval (sc x) ∧
    (deriv1 (Expr.smul a f)).eval (sc x) () = a * (deriv1 f).eval (sc x) () ∧
    (deriv1 (deriv1 (Expr.smul a f))).eval (sc x) () = a * (deriv1 (deriv1 f)).eval (sc x) () ∧
    (deriv1 (times f (sc a))).eval (sc x) () = a * (deriv1 f).eval (sc x) () ∧
    (deriv1 (f.divConst a)).eval (sc x) () = (deriv1 f).eval (sc x) () / a ∧
    (deriv1 (deriv1 (f.divConst a))).eval (sc x) () = (deriv1 (deriv1 f)).eval (sc x) () / a ∧
    (deriv1 (Expr.constSub (sc a) f)).eval (sc x) () = -(deriv1 f).eval (sc x) () ∧
    (deriv1 (f.subConst (sc a))).eval (sc x) = (deriv1 f).eval (sc x) ∧
    (deriv1 (Expr.const (a := .scalar) (sc a))).eval (sc x) () = 0 ∧ (deriv1 (deriv1 (Expr.const (a := .scalar) (sc a)))).eval (sc x) () = 0 := by
  refine ⟨rfl, rfl, ?_, ?_, ?_, ?_, ?_, ?_, rfl, rfl, rfl⟩ <;>
    simp [Expr.derivative, Expr.eval, Expr.smul, Expr.divConst, Expr.constSub, Expr.addConst, Expr.neg, mul, mul_comm, div_eq_mul_inv]

/-- the derivative of a function after its inverse is one wherever all of them are smooth -/
theorem inverse_functions {x : ℝ} (h0 : 0 < x) (h1 : x < 1) : ∀ f ∈ inverses, f.Smooth (sc x) ∧ (deriv1 f).eval (sc x) () = 1 := by
  intro f hf
  have hc : Real.cos (Real.arctan x) ≠ 0 := (Real.cos_arctan_pos x).ne'
  have hq : 0 < 1 - x ^ 2 := by nlinarith
  have hs := Real.sqrt_pos.mpr hq
  simp only [inverses, List.mem_cons, List.not_mem_nil, or_false] at hf
  rcases hf with rfl | rfl | rfl | rfl | rfl | rfl
  · refine ⟨⟨?_, trivial⟩, ?_⟩
    · show 0 < power x 2
      rw [power_eq]
      positivity
    simp [Expr.derivative, Prim.derivative, Expr.eval, Prim.eval, Expr.smul, mul, power_eq, Expr.constDiv, Real.sqrt_sq h0.le]
    field_simp
  · have hx3 : (0 : ℝ) ≤ x ^ 3 := by positivity
    have hcb : cbrt (x ^ 3) = x := by
      rw [cbrt, if_pos hx3, ← Real.rpow_natCast, ← Real.rpow_mul h0.le]
      norm_num
    refine ⟨⟨?_, trivial⟩, ?_⟩
    · show power x 3 ≠ 0
      rw [power_eq]
      positivity
    simp [Expr.derivative, Prim.derivative, Expr.eval, Prim.eval, Expr.smul, mul, power_eq, Expr.constDiv, hcb]
    field_simp
  · refine ⟨⟨trivial, show -1 < x ∧ x < 1 from ⟨by linarith, h1⟩⟩, ?_⟩
    simp [Expr.derivative, Prim.derivative, Expr.eval, Prim.eval, Expr.smul, mul, power_eq, Expr.constDiv, Expr.constSub, Expr.addConst, Expr.neg, Real.sin_arccos]
    rw [← sub_eq_neg_add]
    field_simp
  · refine ⟨⟨trivial, show -1 < x ∧ x < 1 from ⟨by linarith, h1⟩⟩, ?_⟩
    simp [Expr.derivative, Prim.derivative, Expr.eval, Prim.eval, Expr.smul, mul, power_eq, Expr.constDiv, Expr.constSub, Expr.addConst, Expr.neg, Real.cos_arcsin]
    rw [← sub_eq_neg_add]
    field_simp
  · refine ⟨⟨hc, trivial⟩, ?_⟩
    simp [Expr.derivative, Prim.derivative, Expr.eval, Prim.eval, Expr.smul, mul, power_eq, Expr.constDiv, Expr.addConst, Real.cos_sq_arctan]
    have : x ^ 2 + 1 ≠ 0 := by positivity
    rw [add_comm]
    field_simp
  · refine ⟨⟨trivial, h0⟩, ?_⟩
    simp [Expr.derivative, Prim.derivative, Expr.eval, Prim.eval, Expr.smul, mul, power_eq, Expr.constDiv, Real.exp_log h0]
    field_simp

theorem product (x : ℝ) :
    (deriv1 (sin.mul cos)).eval (sc x) () = Real.sin x * -Real.sin x + Real.cos x * Real.cos x ∧
    (deriv1 (deriv1 (sin.mul cos))).eval (sc x) () = Real.sin x * -Real.cos x + -Real.sin x * Real.cos x + 2 * Real.cos x * -Real.sin x := by
  refine ⟨?_, ?_⟩ <;> simp [Expr.derivative, Prim.derivative, Expr.eval, Prim.eval, Expr.neg, Expr.smul, Expr.mul, mul] <;> ring

theorem reciprocal (x : ℝ) (h : Real.cos x ≠ 0) :
    (deriv1 (Expr.constDiv (sc 1) cos)).eval (sc x) () = Real.tan x * (1 / Real.cos x) ∧ (deriv1 tan).eval (sc x) () = 1 / Real.cos x * (1 / Real.cos x) := by
  refine ⟨?_, ?_⟩ <;>
    simp [Expr.derivative, Prim.derivative, Expr.eval, Prim.eval, Expr.neg, Expr.smul, Expr.constDiv, Expr.div, Expr.mul, mul, power_eq, Real.tan_eq_sin_div_cos] <;>
    field_simp

theorem powers (x : ℝ) : (pow 2).eval (sc x) () = x * x ∧ (deriv1 (pow 2)).eval (sc x) () = 2 * x ∧ (deriv1 (deriv1 (pow 2))).eval (sc x) () = 2 := by
  refine ⟨?_, ?_, ?_⟩ <;> simp [Expr.derivative, Prim.derivative, Expr.eval, Prim.eval, Expr.smul, mul, power_eq] <;> ring

theorem scalar_product (a x : Val (.vec 2)) (i : Fin 2) :
    ((scalarProduct a).derivative i).eval x () = a i ∧ ((scalarProductConstant a).derivative i).eval x () = a i := by
  fin_cases i <;> simp [scalarProduct, scalarProductConstant, Expr.derivative, Expr.eval, Expr.add, mul, unitVec, Fin.sum_univ_two]

/-- `f[{1, 2}]` is the component with the offset 5 -/
theorem subscripts (x : ℝ) :
    Ty.at (.mat 2 3) (5 : Fin 6) = ((1 : Fin 2), (2 : Fin 3)) ∧ subscripted.eval (sc x) ((1 : Fin 2), (2 : Fin 3)) = Real.sin x ∧
    (deriv1 (.subscript subscripted ((1 : Fin 2), (2 : Fin 3)))).eval (sc x) () = (tensorDerivative subscripted).eval (sc x) ((5 : Fin 6), (0 : Fin 1)) := by
  refine ⟨by decide, ?_, ?_⟩
  · simp [subscripted, Expr.eval, Prim.eval, mul, unitMat]
  · exact (tensorDerivative_eval subscripted (sc x) (5 : Fin 6) (0 : Fin 1)).symm

theorem sums (f g : Expr .scalar .scalar) (x : ℝ) :
    (deriv1 (f.add g)).eval (sc x) = (deriv1 f).eval (sc x) + (deriv1 g).eval (sc x) ∧
    (deriv1 (deriv1 (f.add g))).eval (sc x) = (deriv1 (deriv1 f)).eval (sc x) + (deriv1 (deriv1 g)).eval (sc x) ∧
    (deriv1 (f.sub g)).eval (sc x) = (deriv1 f).eval (sc x) - (deriv1 g).eval (sc x) ∧
    (deriv1 (deriv1 (f.sub g))).eval (sc x) = (deriv1 (deriv1 f)).eval (sc x) - (deriv1 (deriv1 g)).eval (sc x) := by
  refine ⟨rfl, rfl, ?_, ?_⟩ <;> funext u <;> simp [Expr.derivative, Expr.eval, Expr.sub, Expr.add, Expr.neg, Expr.smul, mul, sub_eq_add_neg]

theorem linear_combination (x : ℝ) :
    combination.eval (sc x) () = 2 * Real.sin x - Real.cos x ∧ (deriv1 combination).eval (sc x) () = 2 * Real.cos x + Real.sin x := by
  refine ⟨?_, ?_⟩ <;>
    simp [combination, Expr.derivative, Prim.derivative, Expr.eval, Prim.eval, Expr.neg, Expr.smul, mul, Fin.sum_univ_two, sub_eq_add_neg]

theorem components (x : Val (.vec 2)) (i k : Fin 2) (l : Fin 2) :
    (tensorDerivative (comp i)).eval x ((0 : Fin 1), k) = (if k = i then 1 else 0) ∧
    (tensorDerivative (tensorDerivative (comp i))).eval x (finProdFinEquiv ((0 : Fin 1), k), l) = 0 := by
  constructor
  · rw [tensorDerivative_eval (comp i) x (0 : Fin 1) k]
    rfl
  · have h := tensor_derivative_twice (comp i) x (0 : Fin 1) k l
    refine h.trans ?_
    fin_cases i <;> fin_cases k <;> fin_cases l <;>
      simp [tensorDerivative, sumList, List.finRange_succ, Expr.derivative, Expr.eval, part, mul, Ty.size]

theorem scalar_of_vector (x : Val (.vec 2)) :
    (tensorDerivative sinOfProduct).eval x ((0 : Fin 1), (0 : Fin 2)) = Real.cos (x 0 * x 1) * x 1 ∧
    (tensorDerivative sinOfProduct).eval x ((0 : Fin 1), (1 : Fin 2)) = Real.cos (x 0 * x 1) * x 0 := by
  refine ⟨(tensorDerivative_eval sinOfProduct x (0 : Fin 1) (0 : Fin 2)).trans ?_, (tensorDerivative_eval sinOfProduct x (0 : Fin 1) (1 : Fin 2)).trans ?_⟩ <;>
    simp [sinOfProduct, Ty.at, Expr.derivative, Expr.eval, mul, Prim.derivative, Prim.eval, Expr.mul]

theorem scalar_of_matrix (A : Val (.mat 2 2)) : (List.finRange 4).map (fun k : Fin 4 => (tensorDerivative trace).eval A ((0 : Fin 1), k)) = [1, 0, 0, 1] := by
  have h := fun k : Fin 4 => tensorDerivative_eval trace A (0 : Fin 1) k
  simp only [List.finRange_succ, List.finRange_zero, List.map_cons, List.map_nil, Function.comp]
  rw [h, h, h, h]
  simp [trace, Expr.derivative, Expr.eval, Expr.add, Ty.at, finProdFinEquiv, Fin.divNat, Fin.modNat]

theorem vector_of_scalar (x : ℝ) :
    (List.finRange 3).map (fun i : Fin 3 => (tensorDerivative vectorOfScalar).eval (sc x) (i, (0 : Fin 1))) = [Real.cos x, -Real.sin x, Real.exp x] := by
  have h := fun i : Fin 3 => tensorDerivative_eval vectorOfScalar (sc x) i (0 : Fin 1)
  simp only [List.finRange_succ, List.finRange_zero, List.map_cons, List.map_nil, Function.comp]
  rw [h, h, h]
  simp [vectorOfScalar, Expr.derivative, Prim.derivative, Prim.eval, Expr.eval, Expr.add, Expr.neg, Expr.smul, Ty.at, mul, unitVec]

theorem vector_of_vector (x : Val (.vec 2)) :
    (List.finRange 3).map (fun i : Fin 3 => (List.finRange 2).map fun k : Fin 2 => (tensorDerivative vectorOfVector).eval x (i, k)) =
      [[1, 0], [0, 1], [x 1, x 0]] := by
  have h := fun (i : Fin 3) (k : Fin 2) => tensorDerivative_eval vectorOfVector x i k
  simp only [List.finRange_succ, List.finRange_zero, List.map_cons, List.map_nil, Function.comp]
  rw [h, h, h, h, h, h]
  simp [vectorOfVector, Expr.derivative, Expr.eval, Expr.add, Expr.mul, Ty.at, mul, unitVec]

theorem vector_of_matrix (A : Val (.mat 2 2)) :
    (List.finRange 3).map (fun i : Fin 3 => (List.finRange 4).map fun k : Fin 4 => (tensorDerivative vectorOfMatrix).eval A (i, k)) =
      [[1, 0, 0, 0], [0, 1, 0, 0], [0, 0, 1, -1]] := by
  have h := fun (i : Fin 3) (k : Fin 4) => tensorDerivative_eval vectorOfMatrix A i k
  simp only [List.finRange_succ, List.finRange_zero, List.map_cons, List.map_nil, Function.comp]
  rw [h, h, h, h, h, h, h, h, h, h, h, h]
  simp [vectorOfMatrix, Expr.derivative, Expr.eval, Expr.add, Expr.sub, Expr.neg, Expr.smul, Ty.at, mul, unitVec, finProdFinEquiv, Fin.divNat, Fin.modNat]

theorem matrix_of_scalar (x : ℝ) :
    (List.finRange 4).map (fun i : Fin 4 => (tensorDerivative matrixOfScalar).eval (sc x) (i, (0 : Fin 1))) = [Real.cos x, -Real.sin x, Real.exp x, 0] := by
  have h := fun i : Fin 4 => tensorDerivative_eval matrixOfScalar (sc x) i (0 : Fin 1)
  simp only [List.finRange_succ, List.finRange_zero, List.map_cons, List.map_nil, Function.comp]
  rw [h, h, h, h]
  simp [matrixOfScalar, Expr.derivative, Prim.derivative, Prim.eval, Expr.eval, Expr.add, Expr.neg, Expr.smul, Ty.at, mul, unitMat, finProdFinEquiv, Fin.divNat,
    Fin.modNat]

theorem matrix_of_vector (x : Val (.vec 2)) :
    (List.finRange 4).map (fun i : Fin 4 => (List.finRange 2).map fun k : Fin 2 => (tensorDerivative matrixOfVector).eval x (i, k)) =
      [[Real.cos (x 0), 0], [0, -Real.sin (x 1)], [0, 0], [Real.exp (x 0 * x 1) * x 1, Real.exp (x 0 * x 1) * x 0]] := by
  have h := fun (i : Fin 4) (k : Fin 2) => tensorDerivative_eval matrixOfVector x i k
  simp only [List.finRange_succ, List.finRange_zero, List.map_cons, List.map_nil, Function.comp]
  rw [h, h, h, h, h, h, h, h]
  simp [matrixOfVector, Expr.derivative, Prim.derivative, Prim.eval, Expr.eval, Expr.add, Expr.mul, Expr.neg, Expr.smul, Ty.at, mul, unitMat, finProdFinEquiv,
    Fin.divNat, Fin.modNat]

theorem matrix_of_matrix (A : Val (.mat 2 2)) :
    (List.finRange 4).map (fun i : Fin 4 => (List.finRange 4).map fun k : Fin 4 => (tensorDerivative matrixOfMatrix).eval A (i, k)) =
      [[1, 0, 0, 1], [0, 0, 0, 0], [1, 0, 0, 1], [0, 0, 0, 0]] := by
  have h := fun (i k : Fin 4) => tensorDerivative_eval matrixOfMatrix A i k
  simp only [List.finRange_succ, List.finRange_zero, List.map_cons, List.map_nil, Function.comp]
  rw [h, h, h, h, h, h, h, h, h, h, h, h, h, h, h, h]
  simp [matrixOfMatrix, trace, Expr.derivative, Expr.eval, Expr.add, Ty.at, mul, unitMat, finProdFinEquiv, Fin.divNat, Fin.modNat]

/-- the assertions of the test of the algebra; `function7` must not be zero, and it is `2 cos(x₀ x₁) + 10` -/
theorem algebra (x : Val (.vec 2)) (p : ℝ) :
    algebra4.eval x = algebra5.eval x ∧ algebra6.eval x = algebra7.eval x ∧ algebra8.eval x = algebra7.eval x ∧ algebra9.eval x () = 1 / 2 ∧
    (algebra10 p).eval x () = p ∧ (algebra11 p).eval x () = algebra7.eval x () - p ∧
    algebra12.eval x () = (algebra1.eval x () + 5) / algebra1.eval x () ∧ algebra17.eval x = fun i => 10 * algebra16.eval x i := by
  have h7 : algebra7.eval x () = 2 * Real.cos (x 0 * x 1) + 10 := by
    simp [algebra7, algebra5, algebra3, algebra1, Expr.eval, Prim.eval, mul, Expr.mul]
    ring
  have hn : algebra7.eval x () ≠ 0 := by
    rw [h7]
    have := Real.neg_one_le_cos (x 0 * x 1)
    linarith
  refine ⟨?_, ?_, ?_, ?_, ?_, ?_, ?_, ?_⟩
  · funext u; simp [algebra4, algebra5, algebra3, Expr.eval]; ring
  · funext u; simp [algebra6, algebra7, algebra4, algebra5, algebra3, Expr.eval]; ring
  · funext u
    simp only [algebra8, eval_divConst, Expr.eval, mul, Pi.smul_apply, smul_eq_mul]
    ring
  · simp only [algebra9, eval_mul, eval_constDiv, Pi.mul_apply, Pi.smul_apply, smul_eq_mul]
    field_simp
  · simp [algebra10, Expr.eval]
  · simp [algebra11, Expr.eval]; ring
  · simp [algebra12, algebra3, Expr.eval, div_eq_inv_mul]
  · funext i; simp [algebra17]

/-- at the point of the test -/
theorem algebra_at_the_point : algebra18.eval ![1, Real.pi] () = -6 := by
  simp [algebra18, algebra16, algebra1, Expr.eval, Prim.eval, Expr.add, mul, unitVec, Fin.sum_univ_three, Expr.mul]
  norm_num

theorem tensor_algebra : tensorF.eval ![0, 2, 1] () = 2 ∧ tensorB.eval ![0, 2, 1] = fun ij => 3 * unitMat (1 : Fin 3) (2 : Fin 3) ij + 4 * unitMat (2 : Fin 3) (2 : Fin 3) ij := by
  have h : tensorF.eval ![0, 2, 1] () = 2 := by simp [tensorF, Expr.eval, Prim.eval, Expr.mul, mul]
  refine ⟨h, ?_⟩
  funext ij
  simp [tensorB, Expr.eval, Expr.add, Expr.mul, mul, h]
  ring

end Tests

/-! ## Quotients in double arithmetic -/

/-- `f / a` and `a / f` are products with a rounded reciprocal: two roundings, within `2u + u²` of the quotient. -/
theorem quotient_error {u : ℝ} (hu : 0 ≤ u) {fl : ℝ → ℝ} (hfl : Rounds u fl) (a y : ℝ) :
    |overConst fl a y - y / a| ≤ (2 * u + u ^ 2) * |y / a| ∧ |constOver fl a y - a / y| ≤ (2 * u + u ^ 2) * |a / y| := by
  have key : ∀ p q : ℝ, |fl (fl (1 / p) * q) - q / p| ≤ (2 * u + u ^ 2) * |q / p| := by
    intro p q
    have h1 : |fl (1 / p) * q - q / p| ≤ (1 + u - 1) * |q / p| := by
      have := mul_le_mul_of_nonneg_right (hfl (1 / p)) (abs_nonneg q)
      rw [← abs_mul, mul_assoc, ← abs_mul] at this
      rw [show fl (1 / p) * q - q / p = (fl (1 / p) - 1 / p) * q by ring, show q / p = 1 / p * q by ring]
      linarith
    have h2 := Arith.round_step hfl hu (le_refl |q / p|) h1
    have e : (1 + u) * (1 + u) - 1 = 2 * u + u ^ 2 := by ring
    rwa [e] at h2
  refine ⟨key a y, ?_⟩
  have := key y a
  rwa [mul_comm] at this

/-- So `f / 49.0` is not `f(x) / 49.0`: at `f(x) = 49` it is `1 - 2⁻⁵³`, and so is `49.0 / f`.  The test divides by `0.1`, whose rounded reciprocal is exactly ten. -/
theorem quotient_differs : overConst Quadrature.rnd 49 49 = 1 - 1 / 2 ^ 53 ∧ constOver Quadrature.rnd 49 49 = 1 - 1 / 2 ^ 53 ∧
    Quadrature.rnd (49 / 49) = 1 ∧ Quadrature.rnd (1 / Quadrature.rnd (1 / 10)) = 10 := by
  decide +kernel

/-! ### examples -/

/-- rows and columns are not exchanged -/
example (x : Val (.vec 2)) : (tensorDerivative Tests.vectorOfVector).eval x ((2 : Fin 3), (0 : Fin 2)) = x 1 := by
  have h := tensorDerivative_eval Tests.vectorOfVector x (2 : Fin 3) (0 : Fin 2)
  refine h.trans ?_
  simp [Tests.vectorOfVector, Expr.derivative, Expr.eval, Expr.add, Expr.mul, Ty.at, mul, unitVec]

/-- `tensor_derivative_correct` applies to a function of matrices -/
example : Tests.matrixOfMatrix.HasRule ∧ ∀ A, Tests.matrixOfMatrix.Smooth A := by
  refine ⟨⟨trivial, trivial⟩, fun A => ⟨trivial, trivial⟩⟩

end Mito.Functions
