import Verif.Fem.LinearLemmas
import Verif.Quadrature.RefineIntegralLemmas
import Mathlib.Analysis.Calculus.Deriv.MeanValue
import Mathlib.Analysis.Convex.Hull

/-! # Interpolation by linear functions on triangles -/

namespace Mito.Fem

open Mito.Functions Mito.Geometry Mito.Quadrature MeasureTheory

theorem fderiv_partial (u : (Fin 2 → ℝ) → ℝ) (y v : Fin 2 → ℝ) : fderiv ℝ u y v = ∑ k, partial2 u k y * v k := by
  conv_lhs => rw [show v = v 0 • Pi.single 0 1 + v 1 • Pi.single 1 1 by funext k; fin_cases k <;> simp]
  simp [partial2, Fin.sum_univ_two]
  ring

/-- the mean value theorem along a segment -/
theorem mean_value {u : (Fin 2 → ℝ) → ℝ} (hu : Differentiable ℝ u) (a b : Fin 2 → ℝ) :
    ∃ s ∈ Set.Icc (0 : ℝ) 1, u b - u a = ∑ k, partial2 u k (fun i => a i + s * (b i - a i)) * (b k - a k) := by
  have hd : ∀ s : ℝ, HasDerivAt (fun s : ℝ => u (fun i => a i + s * (b i - a i)))
      (∑ k, partial2 u k (fun i => a i + s * (b i - a i)) * (b k - a k)) s := by
    intro s
    have h1 : HasDerivAt (fun s : ℝ => (fun i => a i + s * (b i - a i) : Fin 2 → ℝ)) (fun i => b i - a i) s := by
      rw [hasDerivAt_pi]
      intro k
      have := ((hasDerivAt_id s).mul_const (b k - a k)).const_add (a k)
      simpa using this
    rw [← fderiv_partial u _ (fun i => b i - a i)]
    exact (hu _).hasFDerivAt.comp_hasDerivAt s h1
  obtain ⟨s, hs, h⟩ := exists_hasDerivAt_eq_slope (fun s : ℝ => u (fun i => a i + s * (b i - a i))) _ one_pos
    (fun s _ => (hd s).continuousAt.continuousWithinAt) fun s _ => hd s
  refine ⟨s, ⟨hs.1.le, hs.2.le⟩, ?_⟩
  rw [h]
  simp

theorem segment_hull {x : Fin 3 → Fin 2 → ℝ} {a b : Fin 2 → ℝ} (ha : a ∈ convexHull ℝ (Set.range x)) (hb : b ∈ convexHull ℝ (Set.range x))
    {s : ℝ} (hs : s ∈ Set.Icc (0 : ℝ) 1) : (fun i => a i + s * (b i - a i)) ∈ convexHull ℝ (Set.range x) := by
  have := (convex_convexHull ℝ (Set.range x)) ha hb (sub_nonneg.mpr hs.2) hs.1 (by ring)
  convert this using 1
  funext i
  simp
  ring

theorem node_hull (x : Fin 3 → Fin 2 → ℝ) (a : Fin 3) : x a ∈ convexHull ℝ (Set.range x) := subset_convexHull ℝ _ ⟨a, rfl⟩

/-- the gradient of the interpolating function -/
theorem slope_error {u : (Fin 2 → ℝ) → ℝ} (hu : Differentiable ℝ u) {x : Fin 3 → Fin 2 → ℝ} (hx : 0 < triangleArea x) {r κ δ : ℝ}
    (hr : ∀ a b, dist (x a) (x b) ≤ r) (hκ : r ^ 2 ≤ κ * triangleArea x)
    (hδ : ∀ k, ∀ y ∈ convexHull ℝ (Set.range x), ∀ z ∈ convexHull ℝ (Set.range x), |partial2 u k y - partial2 u k z| ≤ δ)
    {y : Fin 2 → ℝ} (hy : y ∈ convexHull ℝ (Set.range x)) (k : Fin 2) :
    |slope2 x (fun a => u (x a)) k - partial2 u k y| ≤ 2 * κ * δ := by
  have hr0 : 0 ≤ r := dist_nonneg.trans (hr 0 0)
  have hδ0 : 0 ≤ δ := (abs_nonneg _).trans (hδ 0 y hy y hy)
  have hcoord : ∀ a b i, |x a i - x b i| ≤ r := fun a b i => by
    have h1 := dist_le_pi_dist (x a) (x b) i
    rw [Real.dist_eq] at h1
    exact h1.trans (hr a b)
  have key : ∀ a b, |∑ k, (slope2 x (fun a => u (x a)) k - partial2 u k y) * (x b k - x a k)| ≤ 2 * δ * r := by
    intro a b
    obtain ⟨s, hs, h⟩ := mean_value hu (x a) (x b)
    have h1 := linear_add x (fun a => u (x a)) (x b) (x a)
    rw [linear_node hx.ne', linear_node hx.ne'] at h1
    have e : ∑ k, (slope2 x (fun a => u (x a)) k - partial2 u k y) * (x b k - x a k) =
        ∑ k, (partial2 u k (fun i => x a i + s * (x b i - x a i)) - partial2 u k y) * (x b k - x a k) := by
      simp only [sub_mul, Finset.sum_sub_distrib]
      rw [← h]
      linarith
    rw [e]
    refine (Finset.abs_sum_le_sum_abs _ _).trans ?_
    have : ∀ k ∈ Finset.univ, |(partial2 u k (fun i => x a i + s * (x b i - x a i)) - partial2 u k y) * (x b k - x a k)| ≤ δ * r := by
      intro k _
      rw [abs_mul]
      exact mul_le_mul (hδ k _ (segment_hull (node_hull x a) (node_hull x b) hs) y hy) (hcoord b a k) (abs_nonneg _) hδ0
    refine (Finset.sum_le_sum this).trans ?_
    simp
    linarith
  have k1 := key 2 0
  have k2 := key 2 1
  simp only [Fin.sum_univ_two] at k1 k2
  set e0 := slope2 x (fun a => u (x a)) 0 - partial2 u 0 y with he0
  set e1 := slope2 x (fun a => u (x a)) 1 - partial2 u 1 y with he1
  have hdet : (x 0 0 - x 2 0) * (x 1 1 - x 2 1) - (x 0 1 - x 2 1) * (x 1 0 - x 2 0) = 2 * triangleArea x := by
    unfold triangleArea; ring
  have d0 : e0 * (2 * triangleArea x) = (e0 * (x 0 0 - x 2 0) + e1 * (x 0 1 - x 2 1)) * (x 1 1 - x 2 1) -
      (e0 * (x 1 0 - x 2 0) + e1 * (x 1 1 - x 2 1)) * (x 0 1 - x 2 1) := by rw [← hdet]; ring
  have d1 : e1 * (2 * triangleArea x) = (e0 * (x 1 0 - x 2 0) + e1 * (x 1 1 - x 2 1)) * (x 0 0 - x 2 0) -
      (e0 * (x 0 0 - x 2 0) + e1 * (x 0 1 - x 2 1)) * (x 1 0 - x 2 0) := by rw [← hdet]; ring
  have bound : ∀ p q a b : ℝ, |p| ≤ 2 * δ * r → |q| ≤ 2 * δ * r → |a| ≤ r → |b| ≤ r → |p * a - q * b| ≤ 4 * δ * r ^ 2 := by
    intro p q a b hp hq ha hb
    have h1 : |p * a| ≤ 2 * δ * r * r := by rw [abs_mul]; exact mul_le_mul hp ha (abs_nonneg _) (by positivity)
    have h2 : |q * b| ≤ 2 * δ * r * r := by rw [abs_mul]; exact mul_le_mul hq hb (abs_nonneg _) (by positivity)
    have := abs_sub (p * a) (q * b)
    nlinarith
  have fin : ∀ e : ℝ, |e * (2 * triangleArea x)| ≤ 4 * δ * r ^ 2 → |e| ≤ 2 * κ * δ := by
    intro e he
    rw [abs_mul, abs_of_pos (by positivity : 0 < 2 * triangleArea x)] at he
    have h1 : 4 * δ * r ^ 2 ≤ 4 * δ * (κ * triangleArea x) := mul_le_mul_of_nonneg_left hκ (by positivity)
    have h2 : |e| * (2 * triangleArea x) ≤ 2 * κ * δ * (2 * triangleArea x) := by linarith
    exact le_of_mul_le_mul_right h2 (by positivity)
  fin_cases k
  · exact fin _ (d0 ▸ bound _ _ _ _ k1 k2 (hcoord _ _ _) (hcoord _ _ _))
  · exact fin _ (d1 ▸ bound _ _ _ _ k2 k1 (hcoord _ _ _) (hcoord _ _ _))

/-- the interpolating function -/
theorem linear_error {u : (Fin 2 → ℝ) → ℝ} (hu : Differentiable ℝ u) {x : Fin 3 → Fin 2 → ℝ} (hx : 0 < triangleArea x) {r e : ℝ}
    (hr : ∀ a b, dist (x a) (x b) ≤ r)
    (he : ∀ k, ∀ y ∈ convexHull ℝ (Set.range x), |slope2 x (fun a => u (x a)) k - partial2 u k y| ≤ e)
    {y : Fin 2 → ℝ} (hy : y ∈ convexHull ℝ (Set.range x)) : |linear x (fun a => u (x a)) y - u y| ≤ 2 * e * r := by
  have hr0 : 0 ≤ r := dist_nonneg.trans (hr 0 0)
  have he0 : 0 ≤ e := (abs_nonneg _).trans (he 0 y hy)
  obtain ⟨s, hs, h⟩ := mean_value hu (x 0) y
  have h1 := linear_add x (fun a => u (x a)) y (x 0)
  rw [linear_node hx.ne'] at h1
  have hseg := segment_hull (node_hull x 0) hy hs
  have hd : dist y (x 0) ≤ r := hull_dist hr hy (node_hull x 0)
  have e1 : linear x (fun a => u (x a)) y - u y =
      ∑ k, (slope2 x (fun a => u (x a)) k - partial2 u k (fun i => x 0 i + s * (y i - x 0 i))) * (y k - x 0 k) := by
    simp only [sub_mul, Finset.sum_sub_distrib]
    rw [← h]
    linarith
  rw [e1]
  refine (Finset.abs_sum_le_sum_abs _ _).trans ?_
  have : ∀ k ∈ Finset.univ, |(slope2 x (fun a => u (x a)) k - partial2 u k (fun i => x 0 i + s * (y i - x 0 i))) * (y k - x 0 k)| ≤ e * r := by
    intro k _
    rw [abs_mul]
    have h1 := dist_le_pi_dist y (x 0) k
    rw [Real.dist_eq] at h1
    exact mul_le_mul (he k _ hseg) (h1.trans hd) (abs_nonneg _) he0
  refine (Finset.sum_le_sum this).trans ?_
  simp
  linarith

/-- the variation of a linear function -/
theorem linear_variation {x : Fin 3 → Fin 2 → ℝ} {r : ℝ} (hr : ∀ a b, dist (x a) (x b) ≤ r) (v : Fin 3 → ℝ)
    {y z : Fin 2 → ℝ} (hy : y ∈ convexHull ℝ (Set.range x)) (hz : z ∈ convexHull ℝ (Set.range x)) :
    |linear x v y - linear x v z| ≤ r * ∑ k, |slope2 x v k| := by
  have hd : dist y z ≤ r := hull_dist hr hy hz
  rw [linear_add x v y z, add_sub_cancel_left]
  refine (Finset.abs_sum_le_sum_abs _ _).trans ?_
  rw [Finset.mul_sum]
  refine Finset.sum_le_sum fun k _ => ?_
  have h1 := dist_le_pi_dist y z k
  rw [Real.dist_eq] at h1
  rw [abs_mul, mul_comm]
  exact mul_le_mul_of_nonneg_right (h1.trans hd) (abs_nonneg _)

end Mito.Fem
