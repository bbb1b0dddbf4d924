import Verif.Props.Rounding

/-! # Lemmas on rounding to the nearest number -/

namespace Mito

theorem nearestEven_int (k : ℤ) : nearestEven (k : ℝ) = k := by
  simp [nearestEven]

/-- the rounding error is at most half the distance of neighbours -/
theorem nearest_error (x : ℝ) : |nearest x - x| ≤ 2 ^ (Int.log 2 |x| - 53) := by
  rw [nearest]
  set s : ℝ := 2 ^ (Int.log 2 |x| - 52) with hs
  have hs0 : 0 < s := by positivity
  have h := nearestEven_error (x / s)
  have e : s * (nearestEven (x / s) : ℝ) - x = s * ((nearestEven (x / s) : ℝ) - x / s) := by
    rw [mul_sub, mul_div_cancel₀ _ hs0.ne']
  have h3 : s * (1 / 2) = 2 ^ (Int.log 2 |x| - 53) := by
    rw [hs, show (1 / 2 : ℝ) = 2 ^ (-1 : ℤ) by norm_num, ← zpow_add₀ (by norm_num : (2 : ℝ) ≠ 0)]
    congr 1
    ring
  rw [e, abs_mul, abs_of_pos hs0, ← h3]
  exact mul_le_mul_of_nonneg_left h hs0.le

/-- the negative of a number is a number -/
theorem nearest_neg {x : ℝ} (h : nearest x = x) : nearest (-x) = -x := by
  rw [nearest] at h ⊢
  rw [abs_neg]
  set s : ℝ := 2 ^ (Int.log 2 |x| - 52) with hs
  have hs0 : s ≠ 0 := by positivity
  have h1 : x / s = (nearestEven (x / s) : ℤ) := by
    rw [div_eq_iff hs0, mul_comm]
    exact h.symm
  rw [neg_div, h1]
  rw [show (-((nearestEven (x / s) : ℤ) : ℝ)) = ((-(nearestEven (x / s)) : ℤ) : ℝ) by push_cast; rfl, nearestEven_int]
  push_cast
  rw [mul_neg, h]

/-- numbers between zero and one are rounded with an error of at most `2⁻⁵⁴` -/
theorem nearest_error_unit {y : ℝ} (h0 : 0 ≤ y) (h1 : y ≤ 1) : |nearest y - y| ≤ 2 ^ (-54 : ℤ) := by
  rcases eq_or_lt_of_le h0 with rfl | h0
  · simp [nearest, nearestEven]
  rcases eq_or_lt_of_le h1 with rfl | h1
  · have : nearest 1 = 1 := by
      rw [nearest, abs_one, Int.log_one_right]
      rw [show (1 : ℝ) / 2 ^ ((0 : ℤ) - 52) = ((2 ^ 52 : ℤ) : ℝ) by norm_num, nearestEven_int]
      norm_num
    rw [this]
    norm_num
  refine (nearest_error y).trans ?_
  apply zpow_le_zpow_right₀ (by norm_num)
  have h2 := Int.zpow_log_le_self (b := 2) (by norm_num) (abs_pos.mpr h0.ne')
  rw [abs_of_pos h0] at h2 ⊢
  have h3 : (2 : ℝ) ^ Int.log 2 y < 2 ^ (0 : ℤ) := by
    have := h2.trans_lt h1
    simpa using this
  have := (zpow_lt_zpow_iff_right₀ (by norm_num : (1 : ℝ) < 2)).mp h3
  omega

/-- numbers very near to one are rounded to one -/
theorem nearest_eq_one {z : ℝ} (h : |z - 1| ≤ 2 ^ (-54 : ℤ)) : nearest z = 1 := by
  rw [abs_le] at h
  have e : (2 : ℝ) ^ (-54 : ℤ) = 1 / 18014398509481984 := by norm_num
  rw [e] at h
  have hz : 0 < z := by linarith
  rw [nearest, abs_of_pos hz]
  rcases le_or_gt 1 z with h1 | h1
  · have hl : Int.log 2 z = 0 := by
      have a : (0 : ℤ) ≤ Int.log 2 z := (Int.zpow_le_iff_le_log (b := 2) (by norm_num) hz).mp (by simpa using h1)
      have b : Int.log 2 z < 1 := (Int.lt_zpow_iff_log_lt (b := 2) (by norm_num) hz).mp (by norm_num; linarith)
      omega
    rw [hl]
    have hf : ⌊z / 2 ^ ((0 : ℤ) - 52)⌋ = 2 ^ 52 := by
      rw [Int.floor_eq_iff]
      constructor <;> norm_num <;> linarith
    have : nearestEven (z / 2 ^ ((0 : ℤ) - 52)) = 2 ^ 52 := by
      rw [nearestEven, Int.fract, hf, if_pos]
      norm_num
      linarith
    rw [this]
    norm_num
  · have hl : Int.log 2 z = -1 := by
      have a : (-1 : ℤ) ≤ Int.log 2 z := (Int.zpow_le_iff_le_log (b := 2) (by norm_num) hz).mp (by norm_num; linarith)
      have b : Int.log 2 z < 0 := (Int.lt_zpow_iff_log_lt (b := 2) (by norm_num) hz).mp (by simpa using h1)
      omega
    rw [hl]
    have hf : ⌊z / 2 ^ ((-1 : ℤ) - 52)⌋ = 2 ^ 53 - 1 := by
      rw [Int.floor_eq_iff]
      constructor <;> norm_num <;> linarith
    have : nearestEven (z / 2 ^ ((-1 : ℤ) - 52)) = 2 ^ 53 := by
      rw [nearestEven, Int.fract, hf, if_neg]
      · have : ¬ Even ((2 : ℤ) ^ 53 - 1) := by decide
        rw [if_neg this]
        norm_num
      · norm_num
        linarith
    rw [this]
    norm_num

end Mito
