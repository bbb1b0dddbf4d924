import Verif.Quadrature.IntegratorLemmas
import Verif.Quadrature.SimplexIntegral
import Verif.Spec.PoissonConvergence
import Mathlib.Analysis.Calculus.ContDiff.Basic
import Mathlib.Analysis.Calculus.ContDiff.RCLike
import Mathlib.MeasureTheory.Integral.IntervalIntegral.FundThmCalculus

/-! # The divergence theorem on a triangle -/

namespace Mito.Fem

open Mito.Functions Mito.Geometry Mito.Quadrature MeasureTheory

/-- the mean of a function along a segment -/
noncomputable def along (G : (Fin 2 → ℝ) → ℝ) (a b : Fin 2 → ℝ) : ℝ := ∫ s in (0 : ℝ)..1, G (fun k => a k + s * (b k - a k))

theorem along_comm (G : (Fin 2 → ℝ) → ℝ) (a b : Fin 2 → ℝ) : along G a b = along G b a := by
  unfold along
  have := intervalIntegral.integral_comp_sub_left (a := 0) (b := 1) (fun s : ℝ => G (fun k => b k + s * (a k - b k))) 1
  simp only [sub_self, sub_zero] at this
  rw [← this]
  congr 1
  funext s
  congr 1
  funext k
  ring

theorem tri_param (x : Fin 3 → Fin 2 → ℝ) (ξ : Fin 2 → ℝ) (k : Fin 2) :
    (parametrization x).eval ξ k = x 2 k + (ξ 0 * (x 0 k - x 2 k) + ξ 1 * (x 1 k - x 2 k)) := by
  rw [parametrization_edges]
  simp [edges, Matrix.mulVec, dotProduct, Fin.sum_univ_two, Fin.last]
  ring

theorem hasFDerivAt_affine (c p q : Fin 2 → ℝ) (t s : ℝ) :
    HasDerivAt (fun t : ℝ => (fun k => c k + (s * p k + t * q k) : Fin 2 → ℝ)) q t := by
  rw [hasDerivAt_pi]
  intro k
  have := ((hasDerivAt_id t).mul_const (q k)).const_add (s * p k) |>.const_add (c k)
  simpa using this

/-- the derivative along one edge -/
theorem integral_edge {G : (Fin 2 → ℝ) → ℝ} (hG : ContDiff ℝ 1 G) (x : Fin 3 → Fin 2 → ℝ) :
    ∫ y in convexHull ℝ (Set.range x), fderiv ℝ G y (fun k => x 1 k - x 2 k) =
      2 * |simplexVolume x| * (along G (x 1) (x 0) - along G (x 2) (x 0)) := by
  have hd : Continuous (fderiv ℝ G) := hG.continuous_fderiv one_ne_zero
  have hφ : Continuous fun ξ : Fin 2 → ℝ => (parametrization x).eval ξ := by
    have : (fun ξ : Fin 2 → ℝ => (parametrization x).eval ξ) =
        fun ξ => (fun k => x 2 k + (ξ 0 * (x 0 k - x 2 k) + ξ 1 * (x 1 k - x 2 k))) := by
      funext ξ k; exact tri_param x ξ k
    rw [this]
    fun_prop
  rw [integral_hull, meanOver, integral_simplex_two zero_le_one]
  · have hin : ∀ s : ℝ, s ∈ Set.uIcc (0 : ℝ) 1 → ∫ t in (0 : ℝ)..1 - s, fderiv ℝ G ((parametrization x).eval ![s, t]) (fun k => x 1 k - x 2 k) =
        G (fun k => x 1 k + s * (x 0 k - x 1 k)) - G (fun k => x 2 k + s * (x 0 k - x 2 k)) := by
      intro s _
      have hderiv : ∀ t ∈ Set.uIcc (0 : ℝ) (1 - s), HasDerivAt
          (fun t : ℝ => G (fun k => x 2 k + (s * (x 0 k - x 2 k) + t * (x 1 k - x 2 k))))
          (fderiv ℝ G ((parametrization x).eval ![s, t]) (fun k => x 1 k - x 2 k)) t := by
        intro t _
        have e : (parametrization x).eval ![s, t] = fun k => x 2 k + (s * (x 0 k - x 2 k) + t * (x 1 k - x 2 k)) := by
          funext k; rw [tri_param]; simp
        rw [e]
        exact ((hG.differentiable one_ne_zero) _).hasFDerivAt.comp_hasDerivAt t
          (hasFDerivAt_affine (x 2) (fun k => x 0 k - x 2 k) (fun k => x 1 k - x 2 k) t s)
      rw [intervalIntegral.integral_eq_sub_of_hasDerivAt hderiv]
      · congr 2
        · funext k; ring
        · funext k; ring
      · refine Continuous.intervalIntegrable ?_ _ _
        have hc : Continuous fun t : ℝ => (![s, t] : Fin 2 → ℝ) := by
          refine continuous_pi fun k => ?_
          fin_cases k
          · exact continuous_const
          · exact continuous_id
        exact ((hd.comp (hφ.comp hc)).clm_apply continuous_const)
    rw [intervalIntegral.integral_congr hin, intervalIntegral.integral_sub]
    · simp [along, Nat.factorial]
      ring
    all_goals
      refine Continuous.intervalIntegrable ?_ _ _
      refine hG.continuous.comp ?_
      fun_prop
  · exact (hd.comp hφ).clm_apply continuous_const

theorem simplexVolume_area (x : Fin 3 → Fin 2 → ℝ) : simplexVolume x = triangleArea x := by
  simp [triangleArea, simplexVolume, Matrix.det_fin_two, Nat.factorial]
  ring

theorem area_hull (x : Fin 3 → Fin 2 → ℝ) (hx : 0 ≤ triangleArea x) : volume.real (convexHull ℝ (Set.range x)) = triangleArea x := by
  rw [volume_hull, simplexVolume_area, abs_of_nonneg hx]

/-- the divergence theorem on a triangle with counterclockwise nodes -/
theorem divergence_triangle {F : Fin 2 → (Fin 2 → ℝ) → ℝ} (hF : ∀ k, ContDiff ℝ 1 (F k)) (x : Fin 3 → Fin 2 → ℝ) (hx : 0 < triangleArea x) :
    ∫ y in convexHull ℝ (Set.range x), ∑ k, fderiv ℝ (F k) y (Pi.single k 1) =
      flux F (x 0) (x 1) + flux F (x 1) (x 2) + flux F (x 2) (x 0) := by
  have hflux : ∀ a b : Fin 2 → ℝ, flux F a b = along (F 0) a b * (b 1 - a 1) - along (F 1) a b * (b 0 - a 0) := by
    intro a b
    unfold flux along
    rw [← intervalIntegral.integral_mul_const, ← intervalIntegral.integral_mul_const, intervalIntegral.integral_sub]
    all_goals
      refine Continuous.intervalIntegrable ?_ _ _
      refine Continuous.mul ((hF _).continuous.comp ?_) continuous_const
      fun_prop
  have hd : ∀ k, Continuous (fderiv ℝ (F k)) := fun k => (hF k).continuous_fderiv one_ne_zero
  let p : Fin 2 → ℝ := fun k => x 0 k - x 2 k
  let q : Fin 2 → ℝ := fun k => x 1 k - x 2 k
  have hdet : p 0 * q 1 - p 1 * q 0 = 2 * triangleArea x := by simp only [p, q, triangleArea]; ring
  have hq : ∀ k, ∫ y in convexHull ℝ (Set.range x), fderiv ℝ (F k) y q =
      2 * triangleArea x * (along (F k) (x 0) (x 1) - along (F k) (x 2) (x 0)) := by
    intro k
    rw [integral_edge (hF k) x, simplexVolume_area, abs_of_pos hx, along_comm (F k) (x 1)]
  have hp : ∀ k, ∫ y in convexHull ℝ (Set.range x), fderiv ℝ (F k) y p =
      2 * triangleArea x * (along (F k) (x 0) (x 1) - along (F k) (x 1) (x 2)) := by
    intro k
    have h := integral_edge (hF k) (x ∘ Equiv.swap 0 1)
    have hr : Set.range (x ∘ Equiv.swap (0 : Fin 3) 1) = Set.range x := (Equiv.swap (0 : Fin 3) 1).surjective.range_comp x
    have hv : |simplexVolume (x ∘ Equiv.swap (0 : Fin 3) 1)| = triangleArea x := by
      rw [simplexVolume_area, ← abs_of_pos hx, ← abs_neg (triangleArea x)]
      congr 1
      simp [triangleArea, Equiv.swap_apply_of_ne_of_ne]
      ring
    rw [hr, hv] at h
    have e2 : (Equiv.swap (0 : Fin 3) 1) 2 = 2 := by decide
    simp only [Function.comp_apply, Equiv.swap_apply_left, Equiv.swap_apply_right, e2] at h
    rw [h, along_comm (F k) (x 2)]
  have hsum : ∀ y, ∑ k, fderiv ℝ (F k) y (Pi.single k 1) = (2 * triangleArea x)⁻¹ *
      (q 1 * fderiv ℝ (F 0) y p - p 1 * fderiv ℝ (F 0) y q - q 0 * fderiv ℝ (F 1) y p + p 0 * fderiv ℝ (F 1) y q) := by
    intro y
    have hv : ∀ (L : (Fin 2 → ℝ) →L[ℝ] ℝ) (v : Fin 2 → ℝ), L v = v 0 * L (Pi.single 0 1) + v 1 * L (Pi.single 1 1) := by
      intro L v
      conv_lhs => rw [show v = v 0 • Pi.single 0 1 + v 1 • Pi.single 1 1 by funext k; fin_cases k <;> simp]
      simp
    rw [hv _ p, hv _ q, hv (fderiv ℝ (F 1) y) p, hv (fderiv ℝ (F 1) y) q, Fin.sum_univ_two, ← hdet]
    have : p 0 * q 1 - p 1 * q 0 ≠ 0 := by rw [hdet]; positivity
    field_simp
    ring
  simp only [hsum]
  have hi : ∀ (k : Fin 2) (v : Fin 2 → ℝ) (c : ℝ), Integrable (fun y => c * fderiv ℝ (F k) y v)
      (volume.restrict (convexHull ℝ (Set.range x))) := by
    intro k v c
    have hc : Continuous fun y => c * fderiv ℝ (F k) y v := continuous_const.mul ((hd k).clm_apply continuous_const)
    exact hc.continuousOn.integrableOn_compact ((Set.finite_range x).isCompact_convexHull ℝ)
  have hsplit : ∀ f g h k : (Fin 2 → ℝ) → ℝ, Integrable f (volume.restrict (convexHull ℝ (Set.range x))) →
      Integrable g (volume.restrict (convexHull ℝ (Set.range x))) → Integrable h (volume.restrict (convexHull ℝ (Set.range x))) →
      Integrable k (volume.restrict (convexHull ℝ (Set.range x))) →
      ∫ y in convexHull ℝ (Set.range x), f y - g y - h y + k y = (∫ y in convexHull ℝ (Set.range x), f y) -
        (∫ y in convexHull ℝ (Set.range x), g y) - (∫ y in convexHull ℝ (Set.range x), h y) + ∫ y in convexHull ℝ (Set.range x), k y := by
    intro f g h k h1 h2 h3 h4
    have e1 : Integrable (fun y => f y - g y) (volume.restrict (convexHull ℝ (Set.range x))) := h1.sub h2
    have e2 : Integrable (fun y => f y - g y - h y) (volume.restrict (convexHull ℝ (Set.range x))) := e1.sub h3
    rw [integral_add e2 h4, integral_sub e1 h3, integral_sub h1 h2]
  rw [integral_const_mul, hsplit _ _ _ _ (hi 0 p _) (hi 0 q _) (hi 1 p _) (hi 1 q _)]
  simp only [integral_const_mul, hp, hq, hflux, p, q]
  have h0 : triangleArea x ≠ 0 := hx.ne'
  generalize triangleArea x = A at h0
  field_simp
  ring

end Mito.Fem
