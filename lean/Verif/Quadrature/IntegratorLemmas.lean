import Verif.Quadrature.SimplexIntegral
import Verif.Props.Parametrization
import Verif.Props.Coordinates
import Mathlib.MeasureTheory.Function.Jacobian
import Mathlib.MeasureTheory.Measure.Lebesgue.EqHaar

/-! # Integrals over cells -/

namespace Mito.Quadrature

open Mito.Functions Mito.Geometry MeasureTheory

variable {n d : Nat}

/-- the linear part of the parametrization -/
noncomputable def edges (x : Fin (n + 2) → Val (.vec (n + 1))) : Matrix (Fin (n + 1)) (Fin (n + 1)) ℝ :=
  Matrix.of fun i a => x a.castSucc i - x (Fin.last (n + 1)) i

theorem parametrization_edges (x : Fin (n + 2) → Val (.vec (n + 1))) (ξ : Val (.vec (n + 1))) :
    (parametrization x).eval ξ = x (Fin.last (n + 1)) + (edges x).mulVec ξ := by
  rw [parametrization_barycentric, Fin.sum_univ_castSucc]
  funext i
  simp [barycentric, edges, Matrix.mulVec, dotProduct, Finset.sum_apply, sub_mul, Finset.sum_sub_distrib, ← Finset.mul_sum]
  rw [show ∑ a, ξ a * x a.castSucc i = ∑ a, x a.castSucc i * ξ a from Finset.sum_congr rfl fun a _ => mul_comm _ _]
  ring

theorem edges_det (x : Fin (n + 2) → Val (.vec (n + 1))) : |(edges x).det| = ((n + 1).factorial : ℝ) * |simplexVolume x| := by
  have h1 := volume_permutation x (finRotate (n + 2)).symm
  have h2 : simplexVolume (fun a => x ((finRotate (n + 2)).symm a)) = ((n + 1).factorial : ℝ)⁻¹ * (edges x).det := by
    rw [simplexVolume, ← Matrix.det_transpose (edges x)]
    congr 2
    ext a i
    have h3 : (finRotate (n + 2)).symm 0 = Fin.last (n + 1) := by
      rw [Equiv.symm_apply_eq, finRotate_last]
    have h4 : (finRotate (n + 2)).symm a.succ = a.castSucc := by
      rw [Equiv.symm_apply_eq, finRotate_succ_apply]
      exact (Fin.coeSucc_eq_succ).symm
    simp only [Matrix.of_apply, Pi.sub_apply, edges, Matrix.transpose_apply, h3, h4]
  rw [h2] at h1
  have hn : (0 : ℝ) < ((n + 1).factorial : ℝ) := by exact_mod_cast (n + 1).factorial_pos
  have h5 : (edges x).det = ((n + 1).factorial : ℝ) * (((Equiv.Perm.sign (finRotate (n + 2)).symm : ℤ) : ℝ) * simplexVolume x) := by
    rw [← h1, mul_inv_cancel_left₀ hn.ne']
  rw [h5, abs_mul, abs_mul, abs_of_pos hn]
  rcases Int.units_eq_one_or (Equiv.Perm.sign (finRotate (n + 2)).symm) with h | h <;> rw [h] <;> simp

theorem image_edges (x : Fin (n + 2) → Val (.vec (n + 1))) :
    convexHull ℝ (Set.range x) = (fun ξ => x (Fin.last (n + 1)) + (edges x).mulVec ξ) '' Simplex (n + 1) 1 := by
  rw [← parametrization_image]
  congr 1
  funext ξ
  exact parametrization_edges x ξ

theorem hull_null {x : Fin (n + 2) → Val (.vec (n + 1))} (h : (edges x).det = 0) : volume (convexHull ℝ (Set.range x)) = 0 := by
  have h1 : (fun ξ => x (Fin.last (n + 1)) + (edges x).mulVec ξ) '' Simplex (n + 1) 1 =
      (fun y => x (Fin.last (n + 1)) + y) '' ((Matrix.toLin' (edges x)) '' Simplex (n + 1) 1) := by
    rw [Set.image_image]
    rfl
  rw [image_edges, h1, Set.image_add_left, measure_preimage_add, Measure.addHaar_image_linearMap, LinearMap.det_toLin', h]
  simp

/-- the transformation to the reference simplex -/
theorem integral_hull (x : Fin (n + 2) → Val (.vec (n + 1))) (f : Val (.vec (n + 1)) → ℝ) :
    ∫ y in convexHull ℝ (Set.range x), f y = |simplexVolume x| * meanOver (n + 1) fun ξ => f ((parametrization x).eval ξ) := by
  have hd := edges_det x
  by_cases h : (edges x).det = 0
  · have h0 : |simplexVolume x| = 0 := by
      have hn : ((n + 1).factorial : ℝ) ≠ 0 := by exact_mod_cast (n + 1).factorial_ne_zero
      rw [h, abs_zero] at hd
      exact (mul_eq_zero.mp hd.symm).resolve_left hn
    rw [Measure.restrict_eq_zero.mpr (hull_null h), integral_zero_measure, h0, zero_mul]
  · have hinj : Function.Injective fun ξ => x (Fin.last (n + 1)) + (edges x).mulVec ξ := by
      intro ξ η hh
      have h2 := add_left_cancel hh
      exact Matrix.mulVec_injective_of_isUnit ((Matrix.isUnit_iff_isUnit_det _).mpr (isUnit_iff_ne_zero.mpr h)) h2
    have hder : ∀ ξ ∈ Simplex (n + 1) 1, HasFDerivWithinAt (fun ξ => x (Fin.last (n + 1)) + (edges x).mulVec ξ)
        (LinearMap.toContinuousLinearMap (Matrix.toLin' (edges x))) (Simplex (n + 1) 1) ξ := by
      intro ξ _
      exact ((LinearMap.toContinuousLinearMap (Matrix.toLin' (edges x))).hasFDerivAt.const_add _).hasFDerivWithinAt
    rw [image_edges, integral_image_eq_integral_abs_det_fderiv_smul volume (simplex_measurable _ _) hder hinj.injOn]
    rw [integral_smul, meanOver, smul_eq_mul, ← mul_assoc, mul_comm |simplexVolume x|, ← hd]
    congr 2
    · rw [ContinuousLinearMap.det, LinearMap.coe_toContinuousLinearMap, LinearMap.det_toLin']
    · funext ξ
      rw [parametrization_edges]

/-- the volume of a cell is its Lebesgue measure -/
theorem volume_hull (x : Fin (n + 2) → Val (.vec (n + 1))) : volume.real (convexHull ℝ (Set.range x)) = |simplexVolume x| := by
  have h := integral_hull x fun _ => 1
  rw [integral_const, smul_eq_mul, mul_one, measureReal_restrict_apply_univ, meanOver, simplex_volume (n + 1) zero_le_one] at h
  rw [h]
  have hn : ((n + 1).factorial : ℝ) ≠ 0 := by exact_mod_cast (n + 1).factorial_ne_zero
  field_simp
  simp

theorem pullback_eval (c : Cell n d) (p : MvPolynomial (Fin d) ℝ) (ξ : Fin (n + 1) → ℝ) :
    MvPolynomial.eval ξ (c.pullback p) = MvPolynomial.eval ((parametrization c.nodes).eval ξ) p := by
  rw [Cell.pullback, MvPolynomial.eval, MvPolynomial.eval₂Hom_bind₁]
  congr 2
  funext i
  have h : (parametrization c.nodes).eval ξ i =
      ∑ a : Fin (n + 1), ξ a * c.nodes a.castSucc i + (1 - ∑ a, ξ a) * c.nodes (Fin.last (n + 1)) i := by
    rw [parametrization_barycentric, Fin.sum_univ_castSucc]
    simp [barycentric, Finset.sum_apply]
  rw [h]
  simp [sub_mul, Finset.sum_sub_distrib, ← Finset.mul_sum]
  rw [show ∑ a, ξ a * c.nodes a.castSucc i = ∑ a, c.nodes a.castSucc i * ξ a from Finset.sum_congr rfl fun a _ => mul_comm _ _]
  ring

theorem totalDegree_bind₁ {σ τ : Type} (f : σ → MvPolynomial τ ℝ) (hf : ∀ i, (f i).totalDegree ≤ 1) (p : MvPolynomial σ ℝ) :
    (MvPolynomial.bind₁ f p).totalDegree ≤ p.totalDegree := by
  rw [MvPolynomial.bind₁, MvPolynomial.aeval_def, MvPolynomial.eval₂_eq]
  refine MvPolynomial.totalDegree_finsetSum_le fun m hm => ?_
  refine (MvPolynomial.totalDegree_mul _ _).trans ?_
  rw [MvPolynomial.algebraMap_eq, MvPolynomial.totalDegree_C, zero_add]
  refine (MvPolynomial.totalDegree_finsetProd _ _).trans ?_
  refine le_trans (Finset.sum_le_sum fun i _ => ?_) (MvPolynomial.le_totalDegree hm)
  refine (MvPolynomial.totalDegree_pow _ _).trans ?_
  calc m i * (f i).totalDegree ≤ m i * 1 := Nat.mul_le_mul_left _ (hf i)
    _ = m i := mul_one _

theorem pullback_degree (c : Cell n d) (p : MvPolynomial (Fin d) ℝ) : (c.pullback p).totalDegree ≤ p.totalDegree := by
  refine totalDegree_bind₁ _ (fun i => ?_) p
  refine (MvPolynomial.totalDegree_add _ _).trans (max_le ?_ ?_)
  · rw [MvPolynomial.totalDegree_C]
    exact zero_le_one
  · refine MvPolynomial.totalDegree_finsetSum_le fun a _ => ?_
    refine (MvPolynomial.totalDegree_mul _ _).trans ?_
    rw [MvPolynomial.totalDegree_C, MvPolynomial.totalDegree_X]

end Mito.Quadrature
