import Verif.Functions.Benchmarks
import Verif.Spec.Materials
import Mathlib.LinearAlgebra.Matrix.Adjugate
import Mathlib.Tactic.LinearCombination

/-! # The two versions of each benchmark compute the same (C130) -/

namespace Mito.Benchmarks

open Mito.Functions Mito.Materials Mito.Tensor

theorem arrayDet_eq (F : Mat3) : arrayDet (rowMajor F) = F.det := by
  rw [Matrix.det_fin_three]
  simp [arrayDet, rowMajor]
  ring

/-- the inverse of the array is the inverse of the matrix -/
theorem arrayInverse_eq (F : Mat3) : arrayInverse (rowMajor F) = rowMajor F⁻¹ := by
  have h : F⁻¹ = (1 / F.det) • F.adjugate := by
    rw [Matrix.inv_def, Ring.inverse_eq_inv', one_div]
  rw [h, Matrix.adjugate_fin_three, ← arrayDet_eq]
  simp only [arrayInverse]
  generalize arrayDet (rowMajor F) = d
  funext i
  fin_cases i <;> simp [rowMajor] <;> norm_num

/-- **C130.**  The stress on arrays is the stress of the material, for every material and every deformation gradient. -/
theorem gent_eq (m : Gent) (F : Mat3) : gentArray m (rowMajor F) = rowMajor (m.stress F) := by
  have ht : (F.transpose * F).trace = F 0 0 * F 0 0 + F 0 1 * F 0 1 + F 0 2 * F 0 2 + F 1 0 * F 1 0 + F 1 1 * F 1 1 + F 1 2 * F 1 2 +
      F 2 0 * F 2 0 + F 2 1 * F 2 1 + F 2 2 * F 2 2 := by
    simp [Matrix.trace_fin_three, Matrix.mul_apply, Fin.sum_univ_three]
    ring
  simp only [gentArray, Gent.stress, arrayDet_eq, arrayInverse_eq, ht]
  generalize F.det = d
  generalize F⁻¹ = G
  funext i
  fin_cases i <;> simp [rowMajor]

/-- **C130.**  The benchmark of the materials: both versions compute the same stress for the same random number. -/
theorem gent_benchmark (e : ℝ) : gentArray material (arrayF e) = rowMajor (gentMito e) := by
  rw [gentMito, ← gent_eq]
  congr 1

theorem epsilon_bound (rand : Nat) : |epsilon rand| ≤ 1 / 100 := by
  have h : (rand % 20001 : Nat) ≤ 20000 := by have := Nat.mod_lt rand (show 0 < 20001 by norm_num); omega
  have h1 : ((rand % 20001 : Nat) : ℝ) ≤ 20000 := by exact_mod_cast h
  have h0 : (0 : ℝ) ≤ ((rand % 20001 : Nat) : ℝ) := Nat.cast_nonneg _
  rw [epsilon, abs_le]
  generalize ((rand % 20001 : Nat) : ℝ) = r at h0 h1
  norm_num
  constructor <;> linarith

/-- **C130.**  For every random number the deformation gradient is in the domain of the material. -/
theorem gent_defined (rand : Nat) : material.Defined (matrixF (epsilon rand)) := by
  obtain ⟨h1, h2⟩ := abs_le.mp (epsilon_bound rand)
  generalize epsilon rand = e at h1 h2
  refine ⟨?_, by simp [material], ?_⟩
  · rw [Matrix.det_fin_three]
    simp [matrixF]
    nlinarith
  · simp only [Matrix.trace_fin_three, Matrix.mul_apply, Fin.sum_univ_three, matrixF, material, Matrix.transpose_apply]
    simp
    nlinarith

/-- **C130.**  The benchmark of the wedge product: both versions compute the same for all vectors. -/
theorem wedge_eq (a b xi1 xi2 : Fin 3 → ℝ) : wedgeArray a b xi1 xi2 = wedgeMito a b xi1 xi2 := by
  simp only [wedgeArray, wedgeMito, wedge2, sub2, add2, scale2, tensor2, oneForm, Matrix.one_mulVec, dotProduct, Fin.sum_univ_three]
  norm_num
  ring

/-- **C130.**  The benchmark of the laplacian: both versions compute the same at all points. -/
theorem laplacian_eq (x : Val (.vec 2)) : laplacianMito x = laplacianBaseline x := by
  simp only [laplacianMito, divergence, gradient, quartic]
  simp [List.finRange, Expr.derivative, Expr.eval, sumList, mul, Prim.eval, Prim.derivative, power, unitVec, laplacianBaseline, Expr.mul, Expr.smul, sc]
  ring

/-- **C130.**  The points of the benchmark are on the diagonal only, where the two terms of the laplacian agree. -/
theorem laplacian_diagonal (rand : ℝ) : laplacianMito (randomCoordinate rand) = 24 * rand ^ 6 := by
  rw [laplacian_eq, laplacianBaseline]
  simp [randomCoordinate]
  ring

/-- so the benchmark could not tell this wrong laplacian from the right one -/
example : ∃ x : Val (.vec 2), (∀ rand, 24 * (randomCoordinate rand 0) ^ 6 = laplacianMito (randomCoordinate rand)) ∧ 24 * x 0 ^ 6 ≠ laplacianMito x := by
  refine ⟨![1, 0], fun rand => by rw [laplacian_diagonal]; simp [randomCoordinate], ?_⟩
  rw [laplacian_eq]
  simp [laplacianBaseline]

end Mito.Benchmarks
