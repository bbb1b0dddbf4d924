import Verif.Fem.GreenLemmas
import Verif.Fem.PatchTestLemmas

/-! # Linear functions on triangles -/

namespace Mito.Fem

open Mito.Functions Mito.Geometry Mito.Quadrature MeasureTheory

/-- the gradient of the linear function with the given values at the nodes -/
noncomputable def slope2 (x : Fin 3 → Fin 2 → ℝ) (v : Fin 3 → ℝ) : Fin 2 → ℝ
  | 0 => (v 0 * (x 1 1 - x 2 1) + v 1 * (x 2 1 - x 0 1) + v 2 * (x 0 1 - x 1 1)) / (2 * triangleArea x)
  | 1 => -(v 0 * (x 1 0 - x 2 0) + v 1 * (x 2 0 - x 0 0) + v 2 * (x 0 0 - x 1 0)) / (2 * triangleArea x)

/-- the linear function with the given values at the nodes -/
noncomputable def linear (x : Fin 3 → Fin 2 → ℝ) (v : Fin 3 → ℝ) (y : Fin 2 → ℝ) : ℝ := v 2 + ∑ k, slope2 x v k * (y k - x 2 k)

theorem linear_param {x : Fin 3 → Fin 2 → ℝ} (hx : triangleArea x ≠ 0) (v : Fin 3 → ℝ) (ξ : Fin 2 → ℝ) :
    linear x v ((parametrization x).eval ξ) = ξ 0 * v 0 + ξ 1 * v 1 + (1 - ξ 0 - ξ 1) * v 2 := by
  simp only [linear, Fin.sum_univ_two, tri_param, slope2]
  have hA : triangleArea x = 1 / 2 * ((x 1 0 - x 0 0) * (x 2 1 - x 0 1) - (x 2 0 - x 0 0) * (x 1 1 - x 0 1)) := by
    unfold triangleArea; ring
  field_simp
  rw [hA]
  ring

theorem linear_shape {x : Fin 3 → Fin 2 → ℝ} (hx : triangleArea x ≠ 0) (v : Fin 3 → ℝ) (ξ : Fin 2 → ℝ) :
    ∑ a, v a * ((triP1 x).shape a).eval ξ () = linear x v ((parametrization x).eval ξ) := by
  rw [linear_param hx]
  obtain ⟨h0, h1, h2⟩ := tri1_eval ξ
  simp only [triP1, Fin.sum_univ_three, h0, h1, h2]
  ring

theorem slope_gradient (x : Fin 3 → Fin 2 → ℝ) (v : Fin 3 → ℝ) (ξ : Fin 2 → ℝ) (k : Fin 2) :
    ∑ a, v a * (triP1 x).gradient a ξ k = slope2 x v k := by
  have h : ∀ a, _ := gradient_tri1 x ξ
  fin_cases k
  · simp [Fin.sum_univ_three, (h _).1, edge, slope2]
    ring
  · simp [Fin.sum_univ_three, (h _).2, edge, slope2]
    ring

theorem linear_add (x : Fin 3 → Fin 2 → ℝ) (v : Fin 3 → ℝ) (y z : Fin 2 → ℝ) :
    linear x v y = linear x v z + ∑ k, slope2 x v k * (y k - z k) := by
  simp only [linear, Fin.sum_univ_two]; ring

/-- values along an edge -/
theorem linear_edge {x : Fin 3 → Fin 2 → ℝ} (hx : triangleArea x ≠ 0) (v : Fin 3 → ℝ) (a b : Fin 3) (s : ℝ) :
    linear x v (fun k => x a k + s * (x b k - x a k)) = v a + s * (v b - v a) := by
  have hA : triangleArea x = 1 / 2 * ((x 1 0 - x 0 0) * (x 2 1 - x 0 1) - (x 2 0 - x 0 0) * (x 1 1 - x 0 1)) := by
    unfold triangleArea; ring
  simp only [linear, Fin.sum_univ_two, slope2]
  field_simp
  rw [hA]
  fin_cases a <;> fin_cases b <;> simp <;> ring

theorem linear_node {x : Fin 3 → Fin 2 → ℝ} (hx : triangleArea x ≠ 0) (v : Fin 3 → ℝ) (a : Fin 3) : linear x v (x a) = v a := by
  have := linear_edge hx v a a 0
  simpa using this

theorem linear_smooth (x : Fin 3 → Fin 2 → ℝ) (v : Fin 3 → ℝ) : ContDiff ℝ 2 (linear x v) := by
  unfold linear
  fun_prop

theorem linear_fderiv (x : Fin 3 → Fin 2 → ℝ) (v : Fin 3 → ℝ) (y : Fin 2 → ℝ) (k : Fin 2) :
    fderiv ℝ (linear x v) y (Pi.single k 1) = slope2 x v k := by
  have : HasFDerivAt (linear x v) (∑ i : Fin 2, slope2 x v i • ContinuousLinearMap.proj (R := ℝ) (φ := fun _ : Fin 2 => ℝ) i) y := by
    unfold linear
    refine HasFDerivAt.const_add _ (HasFDerivAt.fun_sum fun i _ => ?_)
    exact ((hasFDerivAt_apply i y).sub_const _).const_mul _
  rw [this.fderiv]
  fin_cases k <;> simp [Fin.sum_univ_two]

theorem slope_sub (x : Fin 3 → Fin 2 → ℝ) (v w : Fin 3 → ℝ) (k : Fin 2) :
    slope2 x (fun a => v a - w a) k = slope2 x v k - slope2 x w k := by
  fin_cases k <;> simp [slope2] <;> ring

/-- the form of an element with a rule whose weights sum up to one -/
theorem form_linear {rule : Rule 2} (hs : (rule.map fun p => p.2).sum = 1) {x : Fin 3 → Fin 2 → ℝ} (v w : Fin 3 → ℝ) :
    ∑ a, ∑ b, v a * gradGrad rule (triP1 x) a b * w b = triangleArea x * ∑ k, slope2 x v k * slope2 x w k := by
  rw [gradGrad_form]
  simp only [slope_gradient, factor, tri1_detJ]
  have h2 : area 2 = 1 / 2 := by simp [area, Nat.factorial]
  rw [List.sum_map_mul_right, h2]
  have : (rule.map fun p => 1 / 2 * p.2 * (2 * triangleArea x)).sum = triangleArea x := by
    have e : (fun p : Val (.vec 2) × ℝ => 1 / 2 * p.2 * (2 * triangleArea x)) = fun p => p.2 * triangleArea x := by funext p; ring
    rw [e, List.sum_map_mul_right, hs, one_mul]
  rw [this]

/-- the load of an element -/
theorem load_linear (t : Table 2) (f : (Fin 2 → ℝ) → ℝ) {x : Fin 3 → Fin 2 → ℝ} (hx : 0 < triangleArea x) (v : Fin 3 → ℝ) :
    ∑ a, v a * sourceTerm f t.rule (triP1 x) a =
      triangleArea x * apply t fun ξ => f ((parametrization x).eval ξ) * linear x v ((parametrization x).eval ξ) := by
  simp only [sourceTerm_sum, ← linear_shape hx.ne', apply]
  have h2 : area 2 = 1 / 2 := by simp [area, Nat.factorial]
  simp only [← List.sum_map_mul_left]
  rw [sum_list_comm]
  refine congrArg List.sum (List.map_congr_left fun p _ => ?_)
  simp only [factor, tri1_detJ, h2, Finset.mul_sum]
  refine Finset.sum_congr rfl fun a _ => ?_
  simp only [triP1]
  ring

end Mito.Fem
