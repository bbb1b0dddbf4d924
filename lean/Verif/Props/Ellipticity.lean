import Verif.Spec.Ellipticity
import Verif.Props.Materials
import Mathlib.Tactic.Linarith
import Mathlib.Tactic.Positivity
import Mathlib.Tactic.FieldSimp

/-! # C146: stable materials -/

namespace Mito.Materials

theorem sq_pos_of_ne {a : Fin 3 → ℝ} (h : a ≠ 0) : 0 < a 0 ^ 2 + a 1 ^ 2 + a 2 ^ 2 := by
  by_contra hn
  refine h (funext fun i => ?_)
  have h0 := sq_nonneg (a 0)
  have h1 := sq_nonneg (a 1)
  have h2 := sq_nonneg (a 2)
  have z : ∀ x : ℝ, x ^ 2 ≤ 0 → x = 0 := fun x h => (pow_eq_zero_iff two_ne_zero).mp (le_antisymm h (sq_nonneg x))
  have e0 := z (a 0) (by linarith)
  have e1 := z (a 1) (by linarith)
  have e2 := z (a 2) (by linarith)
  fin_cases i
  · exact e0
  · exact e1
  · exact e2

/-! ## Linear elasticity -/

namespace LinearElastic

variable (m : LinearElastic)

/-- the quadratic form of the acoustic tensor -/
theorem wave_form (F : Mat3) (a b : Fin 3 → ℝ) : ∑ i, ∑ j, ∑ k, ∑ l, m.tangents F i j k l * a i * b j * a k * b l =
    (m.lambda + 2 * m.mu) * (a 0 * b 0 + a 1 * b 1 + a 2 * b 2) ^ 2 +
      m.mu * ((a 0 * b 1 - a 1 * b 0) ^ 2 + (a 1 * b 2 - a 2 * b 1) ^ 2 + (a 2 * b 0 - a 0 * b 2) ^ 2) := by
  simp only [tangents_apply, Fin.sum_univ_three]
  simp
  ring

/-- the tangents are elliptic iff the moduli of shear and of waves are positive -/
theorem elliptic_iff (F : Mat3) : Elliptic (m.tangents F) ↔ 0 < m.mu ∧ 0 < m.lambda + 2 * m.mu := by
  constructor
  · intro h
    refine ⟨?_, ?_⟩
    · have := h ![1, 0, 0] ![0, 1, 0] (fun e => by simpa using congrFun e 0) (fun e => by simpa using congrFun e 1)
      rw [wave_form] at this
      simpa using this
    · have := h ![1, 0, 0] ![1, 0, 0] (fun e => by simpa using congrFun e 0) (fun e => by simpa using congrFun e 0)
      rw [wave_form] at this
      simpa using this
  · rintro ⟨hm, hl⟩ a b ha hb
    rw [wave_form]
    have hab := mul_pos (sq_pos_of_ne ha) (sq_pos_of_ne hb)
    have e : (a 0 ^ 2 + a 1 ^ 2 + a 2 ^ 2) * (b 0 ^ 2 + b 1 ^ 2 + b 2 ^ 2) = (a 0 * b 0 + a 1 * b 1 + a 2 * b 2) ^ 2 +
        ((a 0 * b 1 - a 1 * b 0) ^ 2 + (a 1 * b 2 - a 2 * b 1) ^ 2 + (a 2 * b 0 - a 0 * b 2) ^ 2) := by ring
    rw [e] at hab
    have hx := sq_nonneg (a 0 * b 0 + a 1 * b 1 + a 2 * b 2)
    have hy : 0 ≤ (a 0 * b 1 - a 1 * b 0) ^ 2 + (a 1 * b 2 - a 2 * b 1) ^ 2 + (a 2 * b 0 - a 0 * b 2) ^ 2 := by positivity
    generalize (a 0 * b 0 + a 1 * b 1 + a 2 * b 2) ^ 2 = x at *
    generalize (a 0 * b 1 - a 1 * b 0) ^ 2 + (a 1 * b 2 - a 2 * b 1) ^ 2 + (a 2 * b 0 - a 0 * b 2) ^ 2 = y at *
    rcases hx.lt_or_eq with h | h
    · have := mul_pos hl h
      have := mul_nonneg hm.le hy
      linarith
    · subst h
      have := mul_pos hm (by linarith : 0 < y)
      linarith

/-- the moduli in terms of the parameters -/
theorem moduli (h1 : m.nu ≠ -1) (h2 : m.nu ≠ 1 / 2) : m.mu = m.E / (2 * (1 + m.nu)) ∧
    3 * m.lambda + 2 * m.mu = m.E / (1 - 2 * m.nu) ∧ m.lambda + 2 * m.mu = m.E * (1 - m.nu) / ((1 + m.nu) * (1 - 2 * m.nu)) := by
  have a : 1 + m.nu ≠ 0 := fun h => h1 (by linarith)
  have b : 1 - 2 * m.nu ≠ 0 := fun h => h2 (by linarith)
  have l1 : (1.0 : ℝ) = 1 := by norm_num
  unfold lambda mu
  rw [l1, lit2]
  refine ⟨rfl, ?_, ?_⟩
  · rw [eq_div_iff b]
    have e1 : m.E * m.nu / ((1 + m.nu) * (1 - 2 * m.nu)) * (1 - 2 * m.nu) = m.E * m.nu / (1 + m.nu) := by
      rw [div_mul_eq_mul_div, mul_div_mul_right _ _ b]
    have e2 : 2 * (m.E / (2 * (1 + m.nu))) = m.E / (1 + m.nu) := by
      rw [mul_div_assoc', mul_div_mul_left _ _ two_ne_zero]
    rw [e2, add_mul, mul_assoc, e1]
    field_simp
    ring
  · have e2 : 2 * (m.E / (2 * (1 + m.nu))) = m.E / (1 + m.nu) := by
      rw [mul_div_assoc', mul_div_mul_left _ _ two_ne_zero]
    have e3 : m.E / (1 + m.nu) = m.E * (1 - 2 * m.nu) / ((1 + m.nu) * (1 - 2 * m.nu)) := by
      rw [mul_div_mul_right _ _ b]
    rw [e2, e3, ← add_div]
    congr 1
    ring

/-- for which ratios of Poisson the tangents are elliptic -/
theorem elliptic_range (hE : 0 < m.E) (h1 : m.nu ≠ -1) (h2 : m.nu ≠ 1 / 2) (F : Mat3) :
    Elliptic (m.tangents F) ↔ -1 < m.nu ∧ (m.nu < 1 / 2 ∨ 1 < m.nu) := by
  obtain ⟨e1, -, e3⟩ := m.moduli h1 h2
  rw [elliptic_iff, e3, e1]
  have hmu : 0 < m.E / (2 * (1 + m.nu)) ↔ -1 < m.nu := by
    rw [div_pos_iff_of_pos_left hE]
    constructor <;> intro h <;> linarith
  rw [hmu]
  refine and_congr_right fun hn => ?_
  have hp : 0 < 1 + m.nu := by linarith
  rw [mul_div_mul_comm, mul_pos_iff_of_pos_left (div_pos hE hp), div_pos_iff]
  constructor
  · rintro (⟨a, b⟩ | ⟨a, b⟩)
    · left; linarith
    · right; linarith
  · rintro (h | h)
    · left; constructor <;> linarith
    · right; constructor <;> linarith

/-- for which ratios of Poisson no energy is negative -/
theorem energy_nonneg_range (hE : 0 < m.E) (h1 : m.nu ≠ -1) (h2 : m.nu ≠ 1 / 2) :
    (∀ F, 0 ≤ m.energy F) ↔ -1 < m.nu ∧ m.nu < 1 / 2 := by
  constructor
  · intro h
    obtain ⟨e1, e2, -⟩ := m.moduli h1 h2
    have hs := h (1 + Matrix.single 0 1 1)
    have hv := h (1 + 1)
    have s1 : m.energy (1 + Matrix.single 0 1 1) = 1 / 2 * m.mu := by
      simp only [energy, stress, dot, symmetric, Matrix.trace_fin_three, Fin.sum_univ_three, lit2, lit5]
      simp [Matrix.single_apply]
      ring
    have v1 : m.energy (1 + 1) = 3 / 2 * (3 * m.lambda + 2 * m.mu) := by
      simp only [energy, stress, dot, symmetric, Matrix.trace_fin_three, Fin.sum_univ_three, lit2, lit5]
      simp
      ring
    rw [s1, e1] at hs
    rw [v1, e2] at hv
    constructor
    · by_contra hn
      have : m.E / (2 * (1 + m.nu)) < 0 := div_neg_of_pos_of_neg hE (by
        have := lt_of_le_of_ne (not_lt.mp hn) h1
        linarith)
      linarith
    · by_contra hn
      have : m.E / (1 - 2 * m.nu) < 0 := div_neg_of_pos_of_neg hE (by
        have := lt_of_le_of_ne (not_lt.mp hn) h2.symm
        linarith)
      linarith
  · rintro ⟨a, b⟩ F
    exact (m.energy_pos hE a b F).1

/-- waves do not tell that the energy can be negative -/
theorem elliptic_unstable : let m : LinearElastic := ⟨1, 2⟩
    (∀ F, Elliptic (m.tangents F)) ∧ ¬ ∀ F, 0 ≤ m.energy F := by
  refine ⟨fun F => (elliptic_range _ (by norm_num) (by norm_num) (by norm_num) F).mpr ⟨by norm_num, Or.inr (by norm_num)⟩, fun h => ?_⟩
  have := ((energy_nonneg_range _ (by norm_num) (by norm_num) (by norm_num)).mp h).2
  norm_num at this

/-- the material of tests/mito.lib/materials/linear_elastic.cc:17-19 is stable -/
example (F : Mat3) : Elliptic ((⟨1, 3 / 10⟩ : LinearElastic).tangents F) :=
  (elliptic_range _ (by norm_num) (by norm_num) (by norm_num) F).mpr ⟨by norm_num, Or.inl (by norm_num)⟩

end LinearElastic

/-! ## Gent materials -/

namespace Gent

variable (m : Gent)

/-- the volumetric part is not negative -/
theorem volumetric_nonneg {J : ℝ} (h : 0 < J) : 0 ≤ volumetric J := by
  have h1 := Real.log_le_sub_one_of_pos (show 0 < J ^ 2 by positivity)
  rw [Real.log_pow] at h1
  push_cast at h1
  unfold volumetric
  rw [lit5]
  nlinarith

/-- the quadratic form of the acoustic tensor -/
theorem wave_form (F : Mat3) (a b : Fin 3 → ℝ) : ∑ i, ∑ j, ∑ k, ∑ l, m.tangents F i j k l * a i * b j * a k * b l =
    m.mu * (m.Jm / (m.Jm - (F.transpose * F).trace + 3)) * ((a 0 ^ 2 + a 1 ^ 2 + a 2 ^ 2) * (b 0 ^ 2 + b 1 ^ 2 + b 2 ^ 2)) +
      2 * m.mu * m.Jm / (m.Jm - (F.transpose * F).trace + 3) ^ 2 * (∑ i, ∑ j, F i j * a i * b j) ^ 2 +
      (m.mu + 2 * m.kappa * volumetric F.det ^ 2 * (3 * (F.det ^ 2 - 1) ^ 2 + volumetric F.det * (F.det ^ 2 + 1))) *
        (∑ i, ∑ j, F⁻¹ j i * a i * b j) ^ 2 := by
  have hv : 0.5 * (F.det * F.det - 1) - Real.log F.det = volumetric F.det := rfl
  simp only [tangents, hv, lit2, lit3, Fin.sum_univ_three]
  generalize F⁻¹ = G
  generalize volumetric F.det = A
  generalize m.Jm - (F.transpose * F).trace + 3 = C
  simp
  ring

/-- the tangents are elliptic wherever the material is defined -/
theorem elliptic (hJ : 0 < m.Jm) (hk : 0 ≤ m.kappa) (hm : 0 < m.mu) {F : Mat3} (h : m.Defined F) : Elliptic (m.tangents F) := by
  intro a b ha hb
  rw [wave_form]
  have hC : 0 < m.Jm - (F.transpose * F).trace + 3 := by
    have := h.2.2
    rw [sub_pos, div_lt_one hJ] at this
    linarith
  have hA := volumetric_nonneg h.1
  have p1 := mul_pos (mul_pos hm (div_pos hJ hC)) (mul_pos (sq_pos_of_ne ha) (sq_pos_of_ne hb))
  have p2 : 0 ≤ 2 * m.mu * m.Jm / (m.Jm - (F.transpose * F).trace + 3) ^ 2 * (∑ i, ∑ j, F i j * a i * b j) ^ 2 := by positivity
  have p3 : 0 ≤ (m.mu + 2 * m.kappa * volumetric F.det ^ 2 * (3 * (F.det ^ 2 - 1) ^ 2 + volumetric F.det * (F.det ^ 2 + 1))) *
      (∑ i, ∑ j, F⁻¹ j i * a i * b j) ^ 2 := by positivity
  linarith

/-- beyond the limit of the stretch the tangents are computed and are not elliptic -/
theorem not_elliptic_beyond (hJ : 0 < m.Jm) (hm : 0 < m.mu) :
    ∃ F, 0 < F.det ∧ 1 - ((F.transpose * F).trace - 3) / m.Jm < 0 ∧ ¬ Elliptic (m.tangents F) := by
  set t : ℝ := m.Jm + 2 with ht
  have ht0 : 0 < t := by linarith
  set F : Mat3 := Matrix.diagonal fun _ => t with hF
  have htr : (F.transpose * F).trace = 3 * t ^ 2 := by
    simp [hF, Matrix.diagonal_transpose, Matrix.diagonal_mul_diagonal]
    ring
  have hi : F⁻¹ = Matrix.diagonal fun _ => t⁻¹ := by
    refine Matrix.inv_eq_right_inv ?_
    rw [hF, Matrix.diagonal_mul_diagonal, ← Matrix.diagonal_one]
    congr 1
    funext i
    exact mul_inv_cancel₀ ht0.ne'
  have hC : m.Jm - 3 * t ^ 2 + 3 < 0 := by nlinarith
  refine ⟨F, ?_, ?_, fun h => ?_⟩
  · rw [hF, Matrix.det_diagonal]
    exact Finset.prod_pos fun _ _ => ht0
  · rw [htr, sub_neg, lt_div_iff₀ hJ]
    linarith
  · have := h ![1, 0, 0] ![0, 1, 0] (fun e => by simpa using congrFun e 0) (fun e => by simpa using congrFun e 1)
    rw [wave_form, htr, hi] at this
    simp only [Fin.sum_univ_three] at this
    simp [hF] at this
    have hn := mul_neg_of_pos_of_neg hm (div_neg_of_pos_of_neg hJ hC)
    linarith

/-- the material of tests/mito.lib/materials/gent.cc:17-20 at the undeformed state -/
example : Elliptic ((⟨1.5, 5, 2⟩ : Gent).tangents 1) :=
  elliptic _ (by norm_num) (by norm_num) (by norm_num) ⟨by simp, by norm_num, by simp⟩

end Gent

end Mito.Materials
