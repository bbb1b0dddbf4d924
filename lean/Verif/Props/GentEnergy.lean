import Verif.Materials.GentEnergyLemmas
import Verif.Props.Materials

/-! # C145: the energy of a Gent material -/

namespace Mito.Materials.Gent

variable (m : Gent)

/-- the logarithm that limits the stretch costs at least what a neo-Hookean material costs -/
theorem locking_term (hJ : 0 < m.Jm) {F : Mat3} (h : m.Defined F) :
    (F.transpose * F).trace - 3 ≤ -(m.Jm * Real.log (1 - ((F.transpose * F).trace - 3) / m.Jm)) := by
  have := mul_le_mul_of_nonneg_left (Real.log_le_sub_one_of_pos h.2.2) hJ.le
  have e : m.Jm * (1 - ((F.transpose * F).trace - 3) / m.Jm - 1) = -((F.transpose * F).trace - 3) := by
    field_simp
    ring
  linarith

/-- the energy is at least the one of a neo-Hookean material -/
theorem neoHookean_le (hJ : 0 < m.Jm) (hk : 0 ≤ m.kappa) (hm : 0 ≤ m.mu) {F : Mat3} (h : m.Defined F) :
    1 / 2 * m.mu * ((F.transpose * F).trace - 3 - 2 * Real.log F.det) ≤ m.energy F := by
  rw [energy_eq, litm, lit5]
  have h1 := mul_le_mul_of_nonneg_left (m.locking_term hJ h) hm
  have h2 : 0 ≤ 1 / 2 * m.kappa * volumetric F.det ^ 4 := by positivity
  nlinarith

/-- the energy is not negative -/
theorem energy_nonneg (hJ : 0 < m.Jm) (hk : 0 ≤ m.kappa) (hm : 0 ≤ m.mu) {F : Mat3} (h : m.Defined F) : 0 ≤ m.energy F := by
  refine le_trans ?_ (m.neoHookean_le hJ hk hm h)
  have := log_det_le h.1
  have : 0 ≤ (F.transpose * F).trace - 3 - 2 * Real.log F.det := by linarith
  positivity

/-- the energy vanishes exactly for rotations -/
theorem energy_eq_zero_iff (hJ : 0 < m.Jm) (hk : 0 ≤ m.kappa) (hm : 0 < m.mu) {F : Mat3} (h : m.Defined F) :
    m.energy F = 0 ↔ F.transpose * F = 1 := by
  constructor
  · intro he
    have h1 := m.neoHookean_le hJ hk hm.le h
    have h2 := log_det_le h.1
    rw [he] at h1
    refine log_det_eq h.1 (le_antisymm h2 ?_)
    by_contra hlt
    have : 0 < 1 / 2 * m.mu * ((F.transpose * F).trace - 3 - 2 * Real.log F.det) := by
      have : 0 < (F.transpose * F).trace - 3 - 2 * Real.log F.det := by linarith [not_le.mp hlt]
      positivity
    linarith
  · intro hF
    have hd : F.det = 1 := by
      have := congrArg Matrix.det hF
      rw [Matrix.det_mul, Matrix.det_transpose, Matrix.det_one] at this
      nlinarith [h.1]
    have := (m.frame_indifferent 1 F hF hd).1
    rw [mul_one] at this
    rw [this, (m.undeformed h.2.1).2]

/-- the stress of a rotation is zero -/
theorem stress_rotation (hJ : m.Jm ≠ 0) {Q : Mat3} (hQ : Q.transpose * Q = 1) (hd : Q.det = 1) : m.stress Q = 0 := by
  have := (m.frame_indifferent 1 Q hQ hd).2.2
  rwa [mul_one, (m.undeformed hJ).1, mul_zero] at this

/-- the Kirchhoff stress `P Fᵀ` is symmetric: no moments -/
theorem kirchhoff_symmetric {F : Mat3} (h : F.det ≠ 0) : (m.stress F * F.transpose).transpose = m.stress F * F.transpose := by
  have hi : F⁻¹.transpose * F.transpose = 1 := by
    rw [← Matrix.transpose_mul, Matrix.mul_nonsing_inv F h.isUnit, Matrix.transpose_one]
  simp only [stress, Matrix.add_mul, Matrix.smul_mul, hi, Matrix.transpose_add, Matrix.transpose_smul, Matrix.transpose_mul,
    Matrix.transpose_transpose, Matrix.transpose_one]

/-- the energy grows beyond every bound towards the limit of the stretch -/
theorem energy_limit (hJ : 0 < m.Jm) (hk : 0 ≤ m.kappa) (hm : 0 < m.mu) {F : Mat3} (h : m.Defined F) (M : ℝ)
    (hF : 1 - ((F.transpose * F).trace - 3) / m.Jm ≤ Real.exp (-(1 + 2 * M / (m.mu * m.Jm)))) : M ≤ m.energy F := by
  have h1 := (Real.log_le_log h.2.2 hF)
  rw [Real.log_exp] at h1
  have h2 := log_det_le h.1
  have h3 : (F.transpose * F).trace - 3 < m.Jm := by
    have := h.2.2
    rw [sub_pos, div_lt_one hJ] at this
    exact this
  have h4 : 0 ≤ 1 / 2 * m.kappa * volumetric F.det ^ 4 := by positivity
  rw [energy_eq, litm, lit5]
  have hp : 0 < m.mu * m.Jm := mul_pos hm hJ
  have h5 := mul_le_mul_of_nonneg_left h1 hp.le
  have e : m.mu * m.Jm * -(1 + 2 * M / (m.mu * m.Jm)) = -(m.mu * m.Jm) - 2 * M := by
    field_simp
    ring
  rw [e] at h5
  have h6 := mul_le_mul_of_nonneg_left (h2.trans h3.le) hm.le
  nlinarith

/-- and towards vanishing volume -/
theorem energy_collapse (hJ : 0 < m.Jm) (hk : 0 ≤ m.kappa) (hm : 0 < m.mu) {F : Mat3} (h : m.Defined F) (M : ℝ)
    (hF : F.det ≤ Real.exp (-(3 / 2 + M / m.mu))) : M ≤ m.energy F := by
  have h1 := Real.log_le_log h.1 hF
  rw [Real.log_exp] at h1
  have h2 := m.neoHookean_le hJ hk hm.le h
  have h3 : 0 ≤ (F.transpose * F).trace := (cauchyGreen_posDef h.1.ne').posSemidef.trace_nonneg
  have h4 := mul_le_mul_of_nonneg_left h1 hm.le
  have e : m.mu * -(3 / 2 + M / m.mu) = -(3 / 2 * m.mu) - M := by
    field_simp
    ring
  rw [e] at h4
  have h5 := mul_nonneg hm.le h3
  nlinarith

/-! ## Outside the domain -/

/-- a stretch beyond the limit -/
def twice : Mat3 := Matrix.diagonal fun _ => 2

/-- Beyond the limit of the stretch the energy is the logarithm of a negative number, but the stress is computed: pulling the
material apart gives compression. -/
theorem stress_beyond : let m : Gent := ⟨0, 5, 2⟩
    1 - ((twice.transpose * twice).trace - 3) / m.Jm < 0 ∧ m.stress twice 0 0 < 0 := by
  have ht : (twice.transpose * twice).trace = 12 := by
    simp [twice, Matrix.trace_fin_three, Matrix.diagonal_transpose, Matrix.diagonal_mul_diagonal]
    norm_num
  have hi : (twice⁻¹) 0 0 = 1 / 2 := by
    have : twice⁻¹ = Matrix.diagonal fun _ => (1 / 2 : ℝ) := by
      refine Matrix.inv_eq_right_inv ?_
      rw [twice, Matrix.diagonal_mul_diagonal, ← Matrix.diagonal_one]
      congr 1
      funext i
      norm_num
    rw [this, Matrix.diagonal_apply_eq]
  refine ⟨?_, ?_⟩
  · rw [ht]
    norm_num
  · rw [stress_eq, ht, hi]
    simp [twice]
    norm_num

/-- a stretch in two directions -/
def plane : Mat3 := Matrix.diagonal ![2, 2, 1]

/-- The constructor takes a negative `Jm`, and then the energy is negative for some stretches. -/
theorem negative_Jm : let m : Gent := ⟨0, 1, -1⟩
    m.Defined plane ∧ m.energy plane < 0 := by
  have ht : (plane.transpose * plane).trace = 9 := by
    simp [plane, Fin.sum_univ_three, Matrix.diagonal_transpose, Matrix.diagonal_mul_diagonal]
    norm_num
  have hd : plane.det = 4 := by
    simp [plane, Fin.prod_univ_three]
    norm_num
  refine ⟨⟨by rw [hd]; norm_num, by norm_num, by rw [ht]; norm_num⟩, ?_⟩
  rw [energy_eq, ht, hd, litm, lit5]
  have h1 : Real.log 7 < 2 * Real.log 4 := by
    have : 2 * Real.log 4 = Real.log 16 := by
      rw [show (16 : ℝ) = 4 ^ 2 by norm_num, Real.log_pow]
      norm_num
    rw [this]
    exact Real.log_lt_log (by norm_num) (by norm_num)
  norm_num
  linarith

/-- the material of tests/mito.lib/materials/gent.cc:17-20 at the undeformed state -/
example : let m : Gent := ⟨1.5, 5, 2⟩
    0 < m.Jm ∧ 0 ≤ m.kappa ∧ 0 < m.mu ∧ m.Defined 1 ∧ m.Defined (Matrix.diagonal ![1, 1, 3 / 2]) ∧
      (Matrix.diagonal ![1, 1, 3 / 2] : Mat3).transpose * Matrix.diagonal ![1, 1, 3 / 2] ≠ 1 := by
  refine ⟨by norm_num, by norm_num, by norm_num, ⟨by simp, by norm_num, by simp⟩, ⟨?_, by norm_num, ?_⟩, ?_⟩
  · simp [Fin.prod_univ_three]
  · simp [Fin.sum_univ_three, Matrix.diagonal_transpose, Matrix.diagonal_mul_diagonal]
    norm_num
  · intro h
    have := congrFun (congrFun h 2) 2
    simp [Matrix.diagonal_transpose, Matrix.diagonal_mul_diagonal] at this
    norm_num at this

end Mito.Materials.Gent
