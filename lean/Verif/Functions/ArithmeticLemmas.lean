import Verif.Functions.Arithmetic
import Verif.Quadrature.DoublesLemmas

/-!
# Helper lemmas on the evaluation of functions with rounding
-/

namespace Mito.Functions.Arith

open Mito.Quadrature

variable {d : Nat}

theorem run_id (p : Arith d) (x : Fin d → ℝ) : p.run id x = p.expr.eval x () := by
  induction p with
  | coord i => rfl
  | sum f g hf hg => simp only [run, expr, Expr.eval, hf, hg]; rfl
  | plusConst f c hf => simp only [run, expr, Expr.eval, hf]; rfl
  | constTimes c f hf => simp only [run, expr, Expr.eval, hf, mul]; rfl
  | prod f g hf hg => simp only [run, expr, Expr.eval, hf, hg, mul]; rfl

theorem run_cast (p : Arith d) (x : Fin d → ℚ) : p.run nearest (fun i => (x i : ℝ)) = ((p.run rnd x : ℚ) : ℝ) := by
  induction p with
  | coord i => rfl
  | sum f g hf hg => simp only [run, hf, hg, rnd_cast]; push_cast; rfl
  | plusConst f c hf => simp only [run, hf, rnd_cast]; push_cast; rfl
  | constTimes c f hf => simp only [run, hf, rnd_cast]; push_cast; rfl
  | prod f g hf hg => simp only [run, hf, hg, rnd_cast]; push_cast; rfl

theorem size_nonneg (p : Arith d) (x : Fin d → ℝ) : 0 ≤ p.size x := by
  induction p with
  | coord i => exact abs_nonneg _
  | sum f g hf hg => exact add_nonneg hf hg
  | plusConst f c hf => exact add_nonneg hf (abs_nonneg _)
  | constTimes c f hf => exact mul_nonneg (abs_nonneg _) hf
  | prod f g hf hg => exact mul_nonneg hf hg

theorem abs_run_id_le (p : Arith d) (x : Fin d → ℝ) : |p.run id x| ≤ p.size x := by
  induction p with
  | coord i => exact le_refl _
  | sum f g hf hg => exact (abs_add_le _ _).trans (add_le_add hf hg)
  | plusConst f c hf => exact (abs_add_le _ _).trans (add_le_add hf (le_refl _))
  | constTimes c f hf =>
    simp only [run, size, id_eq, abs_mul]
    exact mul_le_mul_of_nonneg_left hf (abs_nonneg _)
  | prod f g hf hg =>
    simp only [run, size, id_eq, abs_mul]
    exact mul_le_mul hf hg (abs_nonneg _) (size_nonneg _ _)

/-- one more rounding -/
theorem round_step {u : ℝ} {fl : ℝ → ℝ} (hfl : Rounds u fl) {a b s P : ℝ} (hu : 0 ≤ u) (hb : |b| ≤ s) (h : |a - b| ≤ (P - 1) * s) :
    |fl a - b| ≤ (P * (1 + u) - 1) * s := by
  have h1 := hfl a
  have h2 : |a| ≤ P * s := by
    have := abs_add_le (a - b) b
    rw [sub_add_cancel] at this
    linarith
  have h3 : |fl a - b| ≤ |fl a - a| + |a - b| := abs_sub_le _ _ _
  have h4 := mul_le_mul_of_nonneg_left h2 hu
  nlinarith

theorem run_error {u : ℝ} (hu : 0 ≤ u) {fl : ℝ → ℝ} (hfl : Rounds u fl) (p : Arith d) (x : Fin d → ℝ) :
    |p.run fl x - p.run id x| ≤ ((1 + u) ^ p.depth - 1) * p.size x := by
  have one : ∀ n, 1 ≤ (1 + u) ^ n := fun n => one_le_pow₀ (by linarith)
  induction p with
  | coord i => simp [run, depth]
  | sum f g hf hg =>
    simp only [depth, pow_succ]
    refine round_step hfl hu (abs_run_id_le (.sum f g) x) ?_
    simp only [run, size, id_eq]
    have mf : (1 + u) ^ f.depth ≤ (1 + u) ^ max f.depth g.depth := pow_le_pow_right₀ (by linarith) (le_max_left _ _)
    have mg : (1 + u) ^ g.depth ≤ (1 + u) ^ max f.depth g.depth := pow_le_pow_right₀ (by linarith) (le_max_right _ _)
    have e : f.run fl x + g.run fl x - (f.run id x + g.run id x) = (f.run fl x - f.run id x) + (g.run fl x - g.run id x) := by ring
    rw [e]
    refine (abs_add_le _ _).trans ?_
    have := mul_le_mul_of_nonneg_right (sub_le_sub_right mf 1) (size_nonneg f x)
    have := mul_le_mul_of_nonneg_right (sub_le_sub_right mg 1) (size_nonneg g x)
    linarith
  | plusConst f c hf =>
    simp only [depth, pow_succ]
    refine round_step hfl hu (abs_run_id_le (.plusConst f c) x) ?_
    simp only [run, size, id_eq, add_sub_add_right_eq_sub]
    have := mul_nonneg (sub_nonneg.mpr (one f.depth)) (abs_nonneg (c : ℝ))
    linarith
  | constTimes c f hf =>
    simp only [depth, pow_succ]
    refine round_step hfl hu (abs_run_id_le (.constTimes c f) x) ?_
    simp only [run, size, id_eq, ← mul_sub, abs_mul]
    have := mul_le_mul_of_nonneg_left hf (abs_nonneg (c : ℝ))
    linarith
  | prod f g hf hg =>
    simp only [depth, pow_succ]
    refine round_step hfl hu (abs_run_id_le (.prod f g) x) ?_
    simp only [run, size, id_eq]
    have e : f.run fl x * g.run fl x - f.run id x * g.run id x =
        (f.run fl x - f.run id x) * (g.run fl x - g.run id x) + (f.run fl x - f.run id x) * g.run id x + f.run id x * (g.run fl x - g.run id x) := by
      ring
    rw [e, pow_add]
    have bf := abs_run_id_le f x
    have bg := abs_run_id_le g x
    have sf := size_nonneg f x
    have sg := size_nonneg g x
    have pf := one f.depth
    have pg := one g.depth
    have t1 := mul_le_mul hf hg (abs_nonneg _) (mul_nonneg (sub_nonneg.mpr pf) sf)
    have t2 := mul_le_mul hf bg (abs_nonneg _) (mul_nonneg (sub_nonneg.mpr pf) sf)
    have t3 := mul_le_mul bf hg (abs_nonneg _) sf
    refine (abs_add_three _ _ _).trans ?_
    simp only [abs_mul]
    nlinarith

end Mito.Functions.Arith
