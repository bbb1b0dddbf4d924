import Verif.Functions.Functors
import Verif.Functions.NearestLemmas

/-!
# Functions made from functors in double arithmetic (C136)

The test asserts at one number that the square root of the square is the number, and that the square of the square root is.  The first
is so for all numbers.  The second is so for the number of the test, and not in general.
-/

namespace Mito.Functions

/-- **C136.**  In every arithmetic with 53 binary digits and rounding to a nearest number the square root of the square of a number is
its magnitude, without error. -/
theorem sqrt_of_square {fl : ℝ → ℝ} (hfl : Nearest fl) {x : ℝ} (hx : IsDouble x) : sqrtOfPow2 fl x = |x| := by
  change fl (√(fl (x * x))) = |x|
  rw [← abs_mul_abs_self x]
  have hx' : IsDouble |x| := by
    rcases abs_choice x with h | h <;> rw [h]
    · exact hx
    · exact hx.neg
  have h0 := abs_nonneg x
  generalize |x| = x at hx' h0
  clear hx
  rcases h0.eq_or_lt with rfl | h0
  · rw [mul_zero, hfl.self .zero, Real.sqrt_zero, hfl.self .zero]
  obtain ⟨m, q, h1, h2, rfl⟩ := hx'.digits h0
  have hq := two_pos q
  have hqq : (2 : ℝ) ^ (q + q) = 2 ^ q * 2 ^ q := zpow_add₀ (by norm_num) _ _
  rcases h1.eq_or_lt with rfl | h1
  · -- a power of two
    have : IsDouble (((2 ^ 52 : ℤ) : ℝ) * 2 ^ q * (((2 ^ 52 : ℤ) : ℝ) * 2 ^ q)) := by
      refine ⟨1, 104 + (q + q), by norm_num, ?_⟩
      rw [zpow_add₀ (by norm_num), hqq]
      norm_num
      ring
    rw [hfl.self this, Real.sqrt_mul_self h0.le, hfl.self hx']
  · refine hfl.eq_of_near h1 h2 ?_
    have hm1 : (2 : ℝ) ^ 52 + 1 ≤ m := by exact_mod_cast h1
    have hm2 : (m : ℝ) ≤ 2 ^ 53 := by exact_mod_cast h2.le
    have e53 : (2 : ℝ) ^ (53 + (q + q)) = 2 ^ 53 * (2 ^ q * 2 ^ q) := by
      rw [zpow_add₀ (by norm_num), hqq]
      norm_num
    have herr := hfl.error (y := m * 2 ^ q * (m * 2 ^ q)) (q := 53 + (q + q)) (by
      rw [abs_of_pos (by positivity), e53]
      have : (m : ℝ) * m ≤ 2 ^ 53 * 2 ^ 53 := by nlinarith
      nlinarith [mul_pos hq hq])
    rw [e53] at herr
    generalize fl (m * 2 ^ q * (m * 2 ^ q)) = Y at herr
    generalize (2 : ℝ) ^ q = w at hq herr
    obtain ⟨l, u⟩ := abs_le.mp herr
    have hww := mul_pos hq hq
    have low : (m - 1 / 2) * w < √Y := by
      refine Real.lt_sqrt_of_sq_lt ?_
      have : 0 < (m - 1 / 4 - 2 ^ 52) * (w * w) := mul_pos (by linarith) hww
      nlinarith
    have high : √Y < (m + 1 / 2) * w := by
      have hpos : 0 < ((m : ℝ) + 1 / 2) * w := mul_pos (by linarith) hq
      rw [Real.sqrt_lt' hpos]
      have : 0 < (m + 1 / 4 - 2 ^ 52) * (w * w) := mul_pos (by linarith) hww
      nlinarith
    rw [abs_lt]
    constructor <;> linarith

/-- the square root of a number given by its digits -/
theorem Nearest.sqrt_eq {fl : ℝ → ℝ} (hfl : Nearest fl) {x : ℝ} {m q : ℤ} (h1 : 2 ^ 52 < m) (h2 : m < 2 ^ 53)
    (l : ((m - 1 / 2) * (2 : ℝ) ^ q) ^ 2 < x) (u : x < ((m + 1 / 2) * (2 : ℝ) ^ q) ^ 2) : fl √x = m * (2 : ℝ) ^ q := by
  have hq := two_pos q
  have hm : (2 : ℝ) ^ 52 < m := by exact_mod_cast h1
  refine hfl.eq_of_near h1 h2 ?_
  have low := Real.lt_sqrt_of_sq_lt l
  have high : √x < (m + 1 / 2) * 2 ^ q := by
    rw [Real.sqrt_lt' (mul_pos (by linarith [show (0 : ℝ) < 2 ^ 52 by norm_num]) hq)]
    exact u
  rw [abs_lt]
  constructor <;> linarith

/-- the number of the test -/
theorem functorPoint_eq {fl : ℝ → ℝ} (hfl : Nearest fl) : functorPoint fl = ((4953959590107546 : ℤ) : ℝ) * (2 : ℝ) ^ (-52 : ℤ) := by
  refine hfl.eq_of_near (by norm_num) (by norm_num) ?_
  rw [abs_lt]
  constructor <;> norm_num

/-- **C136.**  The test passes, whichever of two nearest numbers is taken. -/
theorem functor_test {fl : ℝ → ℝ} (hfl : Nearest fl) : functorPoint fl = sqrtOfPow2 fl (functorPoint fl) ∧ functorPoint fl = pow2OfSqrt fl (functorPoint fl) := by
  have hd : IsDouble (functorPoint fl) := (hfl _).1
  have e := functorPoint_eq hfl
  constructor
  · rw [sqrt_of_square hfl hd, abs_of_pos]
    rw [e]
    norm_num
  · rw [e]
    change _ = fl (fl √_ * fl √_)
    rw [hfl.sqrt_eq (m := 4723415137801974) (q := -52) (by norm_num) (by norm_num) (by norm_num) (by norm_num)]
    symm
    refine hfl.eq_of_near (by norm_num) (by norm_num) ?_
    rw [abs_lt]
    constructor <;> norm_num

/-- **C136 (finding).**  The second equation of the test is false at other numbers: the square of the square root of two is more than
two. -/
theorem square_of_sqrt_fails {fl : ℝ → ℝ} (hfl : Nearest fl) : IsDouble 2 ∧ pow2OfSqrt fl 2 = 2 + 2 / 2 ^ 52 ∧ pow2OfSqrt fl 2 ≠ 2 := by
  have : pow2OfSqrt fl 2 = 2 + 2 / 2 ^ 52 := by
    change fl (fl √2 * fl √2) = _
    rw [hfl.sqrt_eq (m := 6369051672525773) (q := -52) (by norm_num) (by norm_num) (by norm_num) (by norm_num)]
    rw [hfl.eq_of_near (m := 2 ^ 52 + 1) (q := -51) (by norm_num) (by norm_num)]
    · norm_num
    · rw [abs_lt]
      constructor <;> norm_num
  refine ⟨⟨2, 0, by norm_num, by norm_num⟩, this, ?_⟩
  rw [this]
  norm_num

/-- **C136.**  The square of the square root of a number has a relative error of two units in the last place at most. -/
theorem square_of_sqrt {fl : ℝ → ℝ} (hfl : Nearest fl) {x : ℝ} (hx : 0 ≤ x) : |pow2OfSqrt fl x - x| ≤ 2 / 2 ^ 52 * x := by
  change |fl (fl √x * fl √x) - x| ≤ _
  have hs := Real.sqrt_nonneg x
  have h1 := hfl.rounds √x
  have h2 := hfl.rounds (fl √x * fl √x)
  have hx2 : x = √x * √x := (Real.mul_self_sqrt hx).symm
  rw [abs_of_nonneg hs] at h1
  rw [abs_of_nonneg (mul_self_nonneg (fl √x))] at h2
  generalize √x = s at *
  generalize fl (fl s * fl s) = z at *
  generalize fl s = r at *
  subst hx2
  obtain ⟨a1, a2⟩ := abs_le.mp h1
  obtain ⟨b1, b2⟩ := abs_le.mp h2
  have r0 : (1 - 1 / 2 ^ 53) * s ≤ r := by linarith
  have r1 : r ≤ (1 + 1 / 2 ^ 53) * s := by linarith
  have rpos : 0 ≤ r := le_trans (mul_nonneg (by norm_num) hs) r0
  have q0 : ((1 - 1 / 2 ^ 53) * s) * ((1 - 1 / 2 ^ 53) * s) ≤ r * r := mul_self_le_mul_self (mul_nonneg (by norm_num) hs) r0
  have q1 : r * r ≤ ((1 + 1 / 2 ^ 53) * s) * ((1 + 1 / 2 ^ 53) * s) := mul_self_le_mul_self rpos r1
  have hss := mul_self_nonneg s
  have e0 : ((1 - 1 / 2 ^ 53) * s) * ((1 - 1 / 2 ^ 53) * s) = (1 - 1 / 2 ^ 53) * (1 - 1 / 2 ^ 53) * (s * s) := by ring
  have e1 : ((1 + 1 / 2 ^ 53) * s) * ((1 + 1 / 2 ^ 53) * s) = (1 + 1 / 2 ^ 53) * (1 + 1 / 2 ^ 53) * (s * s) := by ring
  rw [e0] at q0
  rw [e1] at q1
  rw [abs_le]
  norm_num at *
  constructor <;> linarith

/-- The rounding of IEEE 754 to the nearest number, and to the even one of two, is such a rounding: the theorems are not empty. -/
example : Nearest nearest ∧ sqrtOfPow2 nearest (-3) = 3 ∧ functorPoint nearest = pow2OfSqrt nearest (functorPoint nearest) :=
  ⟨nearest_nearest, by
    rw [sqrt_of_square nearest_nearest ⟨-3, 0, by norm_num, by norm_num⟩]
    norm_num, (functor_test nearest_nearest).2⟩

end Mito.Functions
