import Verif.Materials.Materials
import Verif.Spec.Materials
import Mathlib.Algebra.Order.Star.Real
import Mathlib.Analysis.Matrix.PosDef
import Mathlib.Analysis.SpecialFunctions.Log.Basic
import Mathlib.Tactic.Linarith
import Mathlib.Tactic.Positivity

/-! # Helper lemmas on the right Cauchy-Green tensor -/

namespace Mito.Materials

theorem cauchyGreen_posDef {F : Mat3} (h : F.det ≠ 0) : (F.transpose * F).PosDef := by
  have := Matrix.PosDef.conjTranspose_mul_self F (Matrix.mulVec_injective_iff_isUnit.mpr ((Matrix.isUnit_iff_isUnit_det F).mpr h.isUnit))
  rwa [Matrix.conjTranspose_eq_transpose_of_trivial] at this

/-- the eigenvalues of the right Cauchy-Green tensor -/
theorem cauchyGreen_eigenvalues {F : Mat3} (h : F.det ≠ 0) : ∃ l : Fin 3 → ℝ, (∀ i, 0 < l i) ∧ (F.transpose * F).trace = ∑ i, l i ∧
    F.det ^ 2 = ∏ i, l i ∧ ((∀ i, l i = 1) → F.transpose * F = 1) := by
  have hp := cauchyGreen_posDef h
  refine ⟨hp.1.eigenvalues, hp.eigenvalues_pos, ?_, ?_, ?_⟩
  · simpa using hp.1.trace_eq_sum_eigenvalues
  · have := hp.1.det_eq_prod_eigenvalues
    rw [Matrix.det_mul, Matrix.det_transpose] at this
    simpa [sq] using this
  · intro h1
    have hs := hp.1.spectral_theorem
    have e : Matrix.diagonal ((RCLike.ofReal : ℝ → ℝ) ∘ hp.1.eigenvalues) = 1 := by
      rw [← Matrix.diagonal_one]
      congr 1
      funext i
      simp [h1 i]
    rw [e, map_one] at hs
    exact hs

/-- the trace bounds the determinant -/
theorem log_det_le {F : Mat3} (h : 0 < F.det) : 2 * Real.log F.det ≤ (F.transpose * F).trace - 3 := by
  obtain ⟨l, hl, ht, hd, -⟩ := cauchyGreen_eigenvalues h.ne'
  have e : 2 * Real.log F.det = ∑ i, Real.log (l i) := by
    rw [← Real.log_prod (fun i _ => (hl i).ne'), ← hd, Real.log_pow]
    norm_num
  rw [e, ht, Fin.sum_univ_three, Fin.sum_univ_three]
  have := fun i => Real.log_le_sub_one_of_pos (hl i)
  linarith [this 0, this 1, this 2]

/-- and equality holds only for rotations -/
theorem log_det_eq {F : Mat3} (h : 0 < F.det) (he : 2 * Real.log F.det = (F.transpose * F).trace - 3) : F.transpose * F = 1 := by
  obtain ⟨l, hl, ht, hd, h1⟩ := cauchyGreen_eigenvalues h.ne'
  have e : 2 * Real.log F.det = ∑ i, Real.log (l i) := by
    rw [← Real.log_prod (fun i _ => (hl i).ne'), ← hd, Real.log_pow]
    norm_num
  rw [e, ht, Fin.sum_univ_three, Fin.sum_univ_three] at he
  have hle := fun i => Real.log_le_sub_one_of_pos (hl i)
  refine h1 fun i => ?_
  by_contra hi
  have hlt := Real.log_lt_sub_one_of_pos (hl i) hi
  fin_cases i <;> simp at hlt <;> linarith [hle 0, hle 1, hle 2]

end Mito.Materials
