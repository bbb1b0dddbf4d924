import Verif.Functions.ArithmeticLemmas
import Verif.Math.NearestLemmas
import Verif.Fem.ShapeTests
import Verif.Fem.Elements
import Mathlib.Tactic.FinCases

/-!
# C123: functions and shape functions in double arithmetic
-/

namespace Mito.Fem

open Mito.Functions Mito.Quadrature

/-! ## Evaluation with rounding -/

/-- Without rounding the evaluation is that of C60 and C62. -/
theorem arith_exact {d : Nat} (p : Arith d) (x : Fin d → ℝ) : p.run id x = p.expr.eval x () := p.run_id x

/-- In double arithmetic it can be computed at every rational point. -/
theorem arith_in_doubles {d : Nat} (p : Arith d) (x : Fin d → ℚ) : p.run nearest (fun i => (x i : ℝ)) = ((p.run rnd x : ℚ) : ℝ) := p.run_cast x

/-- The rounding errors of every function, for every rounding with relative error `u`: at most `(1 + u)^depth - 1` times the value of the function without cancellation. -/
theorem arith_error {d : Nat} {u : ℝ} (hu : 0 ≤ u) {fl : ℝ → ℝ} (hfl : Rounds u fl) (p : Arith d) (x : Fin d → ℝ) :
    |p.run fl x - p.expr.eval x ()| ≤ ((1 + u) ^ p.depth - 1) * p.size x := by
  rw [← arith_exact]
  exact p.run_error hu hfl x

/-! ## Shape functions -/

/-- The functions below are the shape functions of C50. -/
theorem shapes_are_arith : (∀ a, (arithSeg1 a).expr = shapeSeg1 a) ∧ (∀ a, (arithTri1 a).expr = shapeTri1 a) ∧ ∀ a, (arithTri2 a).expr = shapeTri2 a := by
  have h1 : (((-1 : ℚ) : ℚ) : ℝ) = -1 := by norm_num
  have h2 : (((1 / 2 : ℚ) : ℚ) : ℝ) = 1 / 2 := by norm_num
  have h4 : (((4 : ℚ) : ℚ) : ℝ) = 4 := by norm_num
  have h0 : (((1 : ℚ) : ℚ) : ℝ) = 1 := by norm_num
  refine ⟨fun a => ?_, fun a => ?_, fun a => ?_⟩ <;> fin_cases a <;>
    simp only [arithSeg1, arithTri1, arithTri2, arithXi2, arithPhi3, arithPhi4, arithPhi5, shapeSeg1, shapeTri1, shapeTri2, xi2, phi3, phi4, phi5, Arith.expr,
      Arith.constSub, Arith.sub, Arith.neg, Expr.constSub, Expr.sub, Expr.neg, Expr.smul, Expr.add, Expr.addConst, Expr.mul, h0, h1, h2, h4, coord]

/-- What the compiler checks in the tests of shape functions and elements holds: shape functions are one at their node and zero at the others, and add up to `1.0` at the
points of the quadrature rules of the tests. -/
theorem shape_tests_pass :
    atNodes arithSeg1 testNodesSeg1 = unitRows 2 ∧ atNodes arithTri1 testNodesTri1 = unitRows 3 ∧ atNodes arithTri2 testNodesTri2 = unitRows 6 ∧
    (∀ b ∈ partitionOfUnity sumSeg1 (storedPoints segment2), b = true) ∧ (∀ b ∈ partitionOfUnity sumTri1 (storedPoints triangle4), b = true) ∧
    ∀ b ∈ partitionOfUnity sumTri2 (storedPoints triangle4), b = true := by
  decide +kernel

/-- With the rules of degree two or three the test of quadratic triangles would not compile: at one of the points the shape functions add up to `1 - 2⁻⁵²`.  Even linear shape
functions do not add up to `1.0` everywhere. -/
theorem partition_fails :
    partitionOfUnity sumTri2 (storedPoints triangle2) = [false, true, true] ∧
    partitionOfUnity sumTri2 storedTriangle3 = [true, true, true, true, false, true] ∧
    sumTri1.run rnd ![rnd (1 / 10), rnd (2 / 10)] = 1 - 1 / 2 ^ 53 ∧ sumTri1.run rnd ![rnd (1 / 10), rnd (3 / 10)] = 1 + 1 / 2 ^ 52 := by
  decide +kernel

/-- On segments they do: at every double between zero and one. -/
theorem partition_on_segments {x : ℝ} (hx : nearest x = x) (h0 : 0 ≤ x) (h1 : x ≤ 1) : sumSeg1.run nearest ![x] = 1 := by
  have e : sumSeg1.run nearest ![x] = nearest (nearest (1 - x) + x) := by
    simp only [sumSeg1, arithSeg1, Arith.constSub, Arith.neg, Arith.run, Matrix.cons_val_zero]
    have : ((-1 : ℚ) : ℝ) * x = -x := by push_cast; ring
    rw [this, nearest_neg hx, Rat.cast_one, neg_add_eq_sub]
  rw [e]
  apply nearest_eq_one
  have := nearest_error_unit (y := 1 - x) (by linarith) (by linarith)
  rwa [show nearest (1 - x) - (1 - x) = nearest (1 - x) + x - 1 by ring] at this

theorem sumTri1_exact (x : Fin 2 → ℝ) : sumTri1.run id x = 1 := by
  simp only [sumTri1, arithTri1, arithXi2, Arith.constSub, Arith.sub, Arith.neg, Arith.run, id_eq]
  push_cast
  ring

theorem sumTri2_exact (x : Fin 2 → ℝ) : sumTri2.run id x = 1 := by
  simp only [sumTri2, arithTri2, arithXi2, arithPhi3, arithPhi4, arithPhi5, Arith.constSub, Arith.sub, Arith.neg, Arith.run, id_eq]
  push_cast
  ring

/-- On triangles they do up to rounding errors, at every point. -/
theorem partition_on_triangles {x : Fin 2 → ℝ} (h0 : 0 ≤ x 0) (h1 : 0 ≤ x 1) (h : x 0 + x 1 ≤ 1) :
    |sumTri1.run nearest x - 1| ≤ 3 / 10 ^ 15 ∧ |sumTri2.run nearest x - 1| ≤ 6 / 10 ^ 14 := by
  have e1 := sumTri1.run_error (u := 2 ^ (-53 : ℤ)) (by positivity) nearest_rounds x
  have e2 := sumTri2.run_error (u := 2 ^ (-53 : ℤ)) (by positivity) nearest_rounds x
  rw [sumTri1_exact] at e1
  rw [sumTri2_exact] at e2
  have s1 : sumTri1.size x ≤ 3 := by
    simp only [sumTri1, arithTri1, arithXi2, Arith.constSub, Arith.sub, Arith.neg, Arith.size, abs_of_nonneg h0, abs_of_nonneg h1]
    norm_num
    linarith
  have s2 : sumTri2.size x ≤ 23 := by
    simp only [sumTri2, arithTri2, arithXi2, arithPhi3, arithPhi4, arithPhi5, Arith.constSub, Arith.sub, Arith.neg, Arith.size, abs_of_nonneg h0,
      abs_of_nonneg h1]
    norm_num
    nlinarith [mul_nonneg h0 h1, mul_nonneg h0 h0, mul_nonneg h1 h1, mul_nonneg (add_nonneg h0 h1) (sub_nonneg.mpr h)]
  refine ⟨e1.trans ?_, e2.trans ?_⟩
  · refine (mul_le_mul_of_nonneg_left s1 ?_).trans ?_
    · exact sub_nonneg.mpr (one_le_pow₀ (by norm_num))
    · have : sumTri1.depth = 5 := by decide
      rw [this]
      norm_num
  · refine (mul_le_mul_of_nonneg_left s2 ?_).trans ?_
    · exact sub_nonneg.mpr (one_le_pow₀ (by norm_num))
    · have : sumTri2.depth ≤ 17 := by decide
      refine (mul_le_mul_of_nonneg_right (sub_le_sub_right (pow_le_pow_right₀ (by norm_num) this) 1) (by norm_num)).trans ?_
      norm_num

/-! ### examples -/

/-- the sums of `partition_fails` -/
example : (storedPoints triangle2).map (sumTri2.run rnd) = [1 - 1 / 2 ^ 52, 1, 1] := by
  decide +kernel

/-- a wrong shape function is noticed -/
example : atNodes ![Arith.constSub 1 (.coord 0), Arith.constSub 1 (.coord 0)] testNodesSeg1 ≠ unitRows 2 := by
  decide +kernel

/-- there are points on the segment to which the theorem applies -/
example : sumSeg1.run rnd ![rnd (1 / 10)] = 1 ∧ rnd (rnd (1 / 10)) = rnd (1 / 10) := by
  decide +kernel

end Mito.Fem
