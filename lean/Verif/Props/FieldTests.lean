import Verif.Geometry.FieldTests
import Verif.Props.Calculus
import Verif.Props.CalculusTests
import Verif.Props.Coordinates
import Verif.Props.Combinatorics

/-! # C126: the tests of fields, metrics, transformations and permutations, at every point -/

namespace Mito.Functions.Tests

open Mito.Functions Mito.Tensor Mito.Geometry

/-! ## Fields -/

/-- tests/mito.lib/fields/calculus_scalar_field.cc:17-47 -/
theorem scalar_field (p : Val (.vec 2)) :
    (gradient sinOfProduct).eval p = ![Real.cos (p 0 * p 1) * p 1, Real.cos (p 0 * p 1) * p 0] ∧
    (divergence (gradient sinOfProduct)).eval p () = -Real.sin (p 0 * p 1) * p 1 * p 1 - Real.sin (p 0 * p 1) * p 0 * p 0 := by
  refine ⟨?_, ?_⟩
  · funext i
    fin_cases i <;> simp [gradient_eval, sinOfProduct, Expr.derivative, Prim.derivative, Expr.eval, Prim.eval, Expr.mul, mul]
  · simp [divergence, gradient, sinOfProduct, Expr.derivative, Prim.derivative, Expr.eval, Prim.eval, Expr.mul, Expr.neg, Expr.smul, mul, unitVec, List.finRange_succ, sumList]
    ring

theorem wave_smooth (p : Val (.vec 2)) : wave.HasRule ∧ wave.Smooth p := by
  refine ⟨by simp [wave, Expr.HasRule, Expr.add, Expr.mul], ?_⟩
  simp [wave, Expr.Smooth, Expr.All, Prim.Smooth, Expr.add, Expr.mul]

/-- tests/mito.lib/fields/calculus_vector_field.cc:24-61 -/
theorem vector_field (p : Val (.vec 2)) :
    (Matrix.of fun i k => (gradientV wave).eval p (i, k)) =
      !![Real.cos (p 0 * p 1) * p 1, Real.cos (p 0 * p 1) * p 0; -Real.sin (p 0 * p 1) * p 1, -Real.sin (p 0 * p 1) * p 0] ∧
    (divergenceT (gradientV wave)).eval p = -(p 0 * p 0 + p 1 * p 1) • wave.eval p := by
  refine ⟨?_, ?_⟩
  · ext i k
    fin_cases i <;> fin_cases k <;>
      simp [gradientV_eval, wave, Expr.derivative, Prim.derivative, Expr.eval, Prim.eval, Expr.mul, Expr.add, Expr.neg, Expr.smul, mul, unitVec]
  · funext k
    fin_cases k <;>
      simp [divergenceT_eval, gradientV, wave, Expr.derivative, Prim.derivative, Expr.eval, Prim.eval, Expr.mul, Expr.add, Expr.neg, Expr.smul, mul, unitVec, unitMat,
        List.finRange_succ, sumList] <;> ring

/-- tests/mito.lib/fields/calculus_identities.cc:20-50 -/
theorem identity_field (p : Val (.vec 2)) : (divergenceT (.transpose (gradientV wave))).eval p = (gradient (divergence wave)).eval p :=
  div_grad_transposed wave (wave_smooth p).1 p (wave_smooth p).2

/-- tests/mito.lib/fields/fields.cc:14-43 -/
theorem fields_values (p : Val (.vec 2)) :
    (Expr.compS cos ((comp (n := 2) 0).mul (comp 1))).eval p () = Real.cos (p 0 * p 1) ∧ shear.eval p = ![Real.cos (p 0 * p 1), Real.cos (p 0 * p 1)] := by
  refine ⟨by simp [Expr.eval, Prim.eval, Expr.mul, mul], ?_⟩
  funext i
  fin_cases i <;> simp [shear, Expr.eval, Prim.eval, Expr.mul, Expr.add, mul, unitVec]

/-- tests/mito.lib/fields/gradient_non_square.cc:30-66 -/
theorem non_square (p : Val (.vec 3)) :
    (Matrix.of fun i k => (gradientV nonSquare).eval p (i, k)) =
      !![Real.cos (p 0 * p 1) * p 1, Real.cos (p 0 * p 1) * p 0, 1; -Real.sin (p 0 * p 1) * p 1, -Real.sin (p 0 * p 1) * p 0, -1] := by
  ext i k
  fin_cases i <;> fin_cases k <;>
    simp [gradientV_eval, nonSquare, Expr.derivative, Prim.derivative, Expr.eval, Prim.eval, Expr.mul, Expr.add, Expr.neg, Expr.sub, Expr.smul, mul, unitVec]

/-! ## Metric fields -/

theorem polar_fields (x : Vec 2) : (∀ i, (polarE i).eval x = polar.e i x) ∧ (Matrix.of fun i k => polarG.eval x (i, k)) = polar.g x := by
  refine ⟨fun i => ?_, ?_⟩
  · funext k
    fin_cases i <;> fin_cases k <;> simp [polarE, Expr.eval, mul, unitVec, polar, polarBasis]
  · ext i k
    fin_cases i <;> fin_cases k <;> simp [polarG, gramTerm, polarE, Expr.eval, Expr.add, mul, unitVec, unitMat, polar, polarMetric] <;> ring

theorem spherical_fields (x : Vec 3) : (∀ i, (sphericalE i).eval x = spherical.e i x) ∧ (Matrix.of fun i k => sphericalG.eval x (i, k)) = spherical.g x := by
  refine ⟨fun i => ?_, ?_⟩
  · funext k
    fin_cases i <;> fin_cases k <;> simp [sphericalE, Expr.eval, Prim.eval, mul, unitVec, spherical, sphericalBasis]
  · ext i k
    fin_cases i <;> fin_cases k <;>
      simp [sphericalG, gramTerm, sphericalE, Expr.eval, Prim.eval, Expr.add, mul, unitVec, unitMat, spherical, sphericalMetric, Fin.sum_univ_three] <;> ring

theorem polar_duals (i : Fin 2) (x : Vec 2) : dual polarE polarG i x = polar.dx i x := by
  simp only [dual, System.dx, System.gInv, Expr.eval, (polar_fields x).1 i]
  rw [(polar_fields x).2]
  rfl

theorem spherical_duals (i : Fin 3) (x : Vec 3) : dual sphericalE sphericalG i x = spherical.dx i x := by
  simp only [dual, System.dx, System.gInv, Expr.eval, (spherical_fields x).1 i]
  rw [(spherical_fields x).2]
  rfl

/-- tests/mito.lib/fields/polar_metric_field.cc:20-61: the metric, the dual forms and the volume form that the test builds by hand are those of the library, the forms are dual to the
basis, and the volume form measures areas, at every point but the origin -/
theorem polar_metric_field {x : Vec 2} (hr : 0 < x 0) :
    (∀ i k, dual polarE polarG i x ((polarE k).eval x) = if i = k then 1 else 0) ∧
    (∀ v : Fin 2 → Vec 2, polarW x (v 0) (v 1) = polar.w x v) ∧
    ∀ a b : ℝ, polarW x (a • (polarE 0).eval x) (b • (polarE 1).eval x) = x 0 * a * b := by
  have hw : ∀ v : Fin 2 → Vec 2, polarW x (v 0) (v 1) = polar.w x v := by
    intro v
    simp only [polarW, scale2, System.w, System.wedge, polar_duals, Expr.eval, Prim.eval]
    rw [(polar_fields x).2]
  refine ⟨fun i k => ?_, hw, fun a b => ?_⟩
  · rw [polar_duals, (polar_fields x).1, polar_dual hr]
  · have := hw ![a • (polarE 0).eval x, b • (polarE 1).eval x]
    simp only [Matrix.cons_val_zero, Matrix.cons_val_one] at this
    rw [this, polar_w hr, (polar_fields x).1, (polar_fields x).1, Matrix.det_fin_two]
    simp [polar, polarBasis]
    ring

/-- tests/mito.lib/fields/spherical_metric_field.cc:21-75, at every point off the axis -/
theorem spherical_metric_field {x : Vec 3} (hr : 0 < x 0) (hs : 0 < Real.sin (x 1)) :
    (∀ i k, dual sphericalE sphericalG i x ((sphericalE k).eval x) = if i = k then 1 else 0) ∧
    (∀ v : Fin 3 → Vec 3, sphericalW x (v 0) (v 1) (v 2) = spherical.w x v) ∧
    ∀ a b c : ℝ, sphericalW x (a • (sphericalE 0).eval x) (b • (sphericalE 1).eval x) (c • (sphericalE 2).eval x) = x 0 * x 0 * Real.sin (x 1) * a * b * c := by
  have hw : ∀ v : Fin 3 → Vec 3, sphericalW x (v 0) (v 1) (v 2) = spherical.w x v := by
    intro v
    simp only [sphericalW, scale3, System.w, System.wedge, spherical_duals, Expr.eval, Prim.eval]
    rw [(spherical_fields x).2]
  refine ⟨fun i k => ?_, hw, fun a b c => ?_⟩
  · rw [spherical_duals, (spherical_fields x).1, spherical_dual hr hs]
  · have := hw ![a • (sphericalE 0).eval x, b • (sphericalE 1).eval x, c • (sphericalE 2).eval x]
    simp only [Matrix.cons_val] at this
    rw [this, spherical_w hr hs, (spherical_fields x).1, (spherical_fields x).1, (spherical_fields x).1, Matrix.det_fin_three]
    simp [spherical, sphericalBasis]
    ring

/-- The comment of the test claims duality at any point, and the point of the test, `t = π`, is on the axis: the metric is singular there, and its inverse divides by zero.  The test
passes because `std::numbers::pi` is not `π`. -/
theorem spherical_point_singular (r p : ℝ) : (Expr.det sphericalG).eval ![r, Real.pi, p] () = 0 := by
  have h := (spherical_fields ![r, Real.pi, p]).2
  simp only [Expr.eval, sc]
  rw [h]
  simp [spherical, sphericalMetric, Matrix.det_fin_three]

/-- tests/mito.lib/geometry/metric.cc:12-55 -/
theorem metrics (d : Nat) (x : Vec d) (y : Vec 2) (z : Vec 3) :
    (cartesian d).g x = Matrix.diagonal (fun _ => 1) ∧ polar.g y = Matrix.diagonal ![1, y 0 * y 0] ∧
    spherical.g z = Matrix.diagonal ![1, z 0 * z 0, z 0 * z 0 * Real.sin (z 1) * Real.sin (z 1)] := by
  refine ⟨?_, ?_, ?_⟩
  · exact Matrix.diagonal_one.symm
  · ext i k
    fin_cases i <;> fin_cases k <;> simp [polar, polarMetric] <;> ring
  · ext i k
    fin_cases i <;> fin_cases k <;> simp [spherical, sphericalMetric] <;> ring

/-! ## Transformations -/

/-- tests/mito.lib/geometry/coordinate_transformation.cc:10-52: the middle of two points in polar coordinates is the middle in cartesian coordinates, for all points but the origin -/
theorem transformation_midpoint {A : Vec 2} (B : Vec 2) (hA : A ≠ 0) :
    cartesianOfPolar (polar.midpoint (polarOfCartesian A) (polarOfCartesian B)) = (1 / 2 : ℝ) • (A + B) := by
  rw [polar_midpoint _, cartesian_polar_cartesian, cartesian_polar_cartesian]
  intro h
  have h1 : Real.sqrt (A 0 * A 0 + A 1 * A 1) = 0 := h
  rw [Real.sqrt_eq_zero (add_nonneg (mul_self_nonneg _) (mul_self_nonneg _))] at h1
  apply hA
  funext i
  have e0 : A 0 = 0 := by nlinarith [mul_self_nonneg (A 0), mul_self_nonneg (A 1)]
  have e1 : A 1 = 0 := by nlinarith [mul_self_nonneg (A 0), mul_self_nonneg (A 1)]
  fin_cases i
  · exact e0
  · exact e1

/-- The test also compares the polar coordinates of the middle; that is true where the middle is not the origin and the angle that the polar algebra returns is in the range of
`std::atan2`. -/
theorem transformation_partial {A : Vec 2} (B : Vec 2) (hA : A ≠ 0) (hm : 0 < polar.midpoint (polarOfCartesian A) (polarOfCartesian B) 0)
    (hθ : polar.midpoint (polarOfCartesian A) (polarOfCartesian B) 1 ∈ Set.Ioc (-Real.pi) Real.pi) :
    polarOfCartesian ((1 / 2 : ℝ) • (A + B)) = polar.midpoint (polarOfCartesian A) (polarOfCartesian B) := by
  rw [← transformation_midpoint B hA, polar_cartesian_polar_eq hm hθ]

/-- It is not true for all points: from the negative axis to the lower half plane the angle of the polar algebra passes `π`. -/
theorem transformation_fails : polarOfCartesian ((1 / 2 : ℝ) • (![-1, 0] + ![0, -1])) ≠ polar.midpoint (polarOfCartesian ![-1, 0]) (polarOfCartesian ![0, -1]) := by
  intro h
  have h1 := congrFun h 1
  have hA : polarOfCartesian ![-1, 0] = ![1, Real.pi] := by
    funext i
    fin_cases i
    · simp [polarOfCartesian]
    · have : (⟨-1, 0⟩ : ℂ) = -1 := by apply Complex.ext <;> simp
      simp [polarOfCartesian, atan2, this]
  have hB : polarOfCartesian ![0, -1] = ![1, -(Real.pi / 2)] := by
    funext i
    fin_cases i
    · simp [polarOfCartesian]
    · have : (⟨0, -1⟩ : ℂ) = -Complex.I := by apply Complex.ext <;> simp
      simp [polarOfCartesian, atan2, this]
  have hl : polarOfCartesian ((1 / 2 : ℝ) • (![-1, 0] + ![0, -1])) 1 < 0 := by
    show Complex.arg ⟨_, _⟩ < 0
    rw [Complex.arg_neg_iff]
    norm_num
  have hp : 0 < polar.midpoint (polarOfCartesian ![-1, 0]) (polarOfCartesian ![0, -1]) 1 := by
    rw [hA, hB]
    have hs : Real.sin (-(Real.pi / 2) - Real.pi) = 1 := by
      rw [Real.sin_sub_pi, Real.sin_neg, Real.sin_pi_div_two]
      ring
    simp only [System.midpoint, polar, polarAdd, Matrix.cons_val_one, Matrix.cons_val_zero]
    have ha : 0 ≤ atan2 (((0.5 : ℝ) • polarSub ![1, -(Real.pi / 2)] ![1, Real.pi] ⬝ᵥ polarBasis 1 ![1, Real.pi] /
        (polarBasis 1 ![1, Real.pi] ⬝ᵥ polarBasis 1 ![1, Real.pi])) * 1)
        (1 + (0.5 : ℝ) • polarSub ![1, -(Real.pi / 2)] ![1, Real.pi] ⬝ᵥ polarBasis 0 ![1, Real.pi]) := by
      rw [atan2, Complex.arg_nonneg_iff]
      simp [polarSub, polarBasis, hs]
      norm_num
    linarith [Real.pi_pos]
  linarith

end Mito.Functions.Tests

namespace Mito.Combinatorics

/-- tests/mito.lib/math/permutation_sign.cc:16-69: all assertions, and with them the sign of every permutation of up to four elements -/
theorem permutation_tests :
    permutationSign [2, 1] [1, 2] = some (-1) ∧
    (∀ l ∈ [[2, 3, 1], [3, 1, 2]], permutationSign l [1, 2, 3] = some 1) ∧ (∀ l ∈ [[1, 3, 2], [3, 2, 1], [2, 1, 3]], permutationSign l [1, 2, 3] = some (-1)) ∧
    (∀ l ∈ [[1, 2, 3, 4], [1, 3, 4, 2], [1, 4, 2, 3], [2, 1, 4, 3], [2, 3, 1, 4], [2, 4, 3, 1], [3, 1, 2, 4], [3, 2, 4, 1], [3, 4, 1, 2], [4, 1, 3, 2], [4, 2, 1, 3],
      [4, 3, 2, 1]], permutationSign l [1, 2, 3, 4] = some 1) ∧
    (∀ l ∈ [[1, 2, 4, 3], [1, 3, 2, 4], [1, 4, 3, 2], [2, 1, 3, 4], [2, 3, 4, 1], [2, 4, 1, 3], [3, 1, 4, 2], [3, 2, 1, 4], [3, 4, 2, 1], [4, 1, 2, 3], [4, 2, 3, 1],
      [4, 3, 1, 2]], permutationSign l [1, 2, 3, 4] = some (-1)) := by
  decide

end Mito.Combinatorics

/-! ## The hypotheses can be satisfied -/

example : (0 : ℝ) < (![2, 0] : Mito.Tensor.Vec 2) 0 := by norm_num

example : (0 : ℝ) < (![2, Real.pi / 2, 1] : Mito.Tensor.Vec 3) 0 ∧ 0 < Real.sin ((![2, Real.pi / 2, 1] : Mito.Tensor.Vec 3) 1) := by
  refine ⟨by norm_num, ?_⟩
  simp
