import Verif.Spec.Nearest
import Verif.Props.Rounding
import Mathlib.Analysis.SpecialFunctions.Sqrt
import Mathlib.Tactic.Linarith
import Mathlib.Tactic.Positivity
import Mathlib.Tactic.NormNum
import Mathlib.Tactic.Ring
import Mathlib.Tactic.FieldSimp

/-! # Lemmas on numbers with 53 binary digits -/

namespace Mito.Functions

theorem two_pos (e : ℤ) : (0 : ℝ) < 2 ^ e := zpow_pos (by norm_num) e

theorem IsDouble.zero : IsDouble 0 := ⟨0, 0, by norm_num, by simp⟩

theorem IsDouble.neg {x : ℝ} (h : IsDouble x) : IsDouble (-x) := by
  obtain ⟨m, e, hm, rfl⟩ := h
  exact ⟨-m, e, by rwa [abs_neg], by push_cast; ring⟩

/-- the bound for the digits may be reached -/
theorem IsDouble.of_le {n : ℤ} (hn : |n| ≤ 2 ^ 53) (e : ℤ) : IsDouble (n * (2 : ℝ) ^ e) := by
  rcases hn.lt_or_eq with h | h
  · exact ⟨n, e, h, rfl⟩
  · have h2 : (2 : ℝ) ^ (e + 53) = 2 ^ 53 * 2 ^ e := by
      rw [zpow_add₀ (by norm_num), mul_comm]
      norm_num
    rcases abs_eq (by norm_num) |>.mp h with h | h
    · refine ⟨1, e + 53, by norm_num, ?_⟩
      rw [h2, h]
      push_cast
      ring
    · refine ⟨-1, e + 53, by norm_num, ?_⟩
      rw [h2, h]
      push_cast
      ring

/-- the digits of a positive number -/
theorem IsDouble.digits {x : ℝ} (h : IsDouble x) (hx : 0 < x) : ∃ m q : ℤ, 2 ^ 52 ≤ m ∧ m < 2 ^ 53 ∧ x = m * (2 : ℝ) ^ q := by
  obtain ⟨m, e, hm, rfl⟩ := h
  have hm0 : 0 < m := by
    have := (mul_pos_iff_of_pos_right (two_pos e)).mp hx
    exact_mod_cast this
  obtain ⟨n, rfl⟩ := Int.eq_ofNat_of_zero_le hm0.le
  rw [abs_of_pos hm0] at hm
  have hn0 : n ≠ 0 := by rintro rfl; simp at hm0
  have hn : n < 2 ^ 53 := by exact_mod_cast hm
  have hl1 : 2 ^ Nat.log 2 n ≤ n := Nat.pow_log_le_self 2 hn0
  have hl2 : n < 2 ^ (Nat.log 2 n + 1) := Nat.lt_pow_succ_log_self (by norm_num) n
  have hlog : Nat.log 2 n < 53 := Nat.log_lt_of_lt_pow hn0 hn
  refine ⟨(n * 2 ^ (52 - Nat.log 2 n) : ℕ), e - (52 - Nat.log 2 n : ℕ), ?_, ?_, ?_⟩
  · have : 2 ^ 52 ≤ n * 2 ^ (52 - Nat.log 2 n) := by
      calc 2 ^ 52 = 2 ^ Nat.log 2 n * 2 ^ (52 - Nat.log 2 n) := by rw [← pow_add]; congr 1; omega
        _ ≤ _ := Nat.mul_le_mul_right _ hl1
    exact_mod_cast this
  · have : n * 2 ^ (52 - Nat.log 2 n) < 2 ^ 53 := by
      calc n * 2 ^ (52 - Nat.log 2 n) < 2 ^ (Nat.log 2 n + 1) * 2 ^ (52 - Nat.log 2 n) := Nat.mul_lt_mul_of_pos_right hl2 (by positivity)
        _ = 2 ^ 53 := by rw [← pow_add]; congr 1; omega
    exact_mod_cast this
  · rw [zpow_sub₀ (by norm_num), zpow_natCast]
    push_cast
    field_simp

/-- a number with an exponent below that of `x` is below `x` -/
theorem IsDouble.multiple {z : ℝ} (hz : IsDouble z) {k : ℤ} (h : (2 : ℝ) ^ k ≤ |z|) : ∃ n : ℤ, z = n * (2 : ℝ) ^ (k - 52) := by
  obtain ⟨m, e, hm, rfl⟩ := hz
  have he : k - 52 ≤ e := by
    by_contra hlt
    have h1 : |(m : ℝ) * 2 ^ e| < 2 ^ 53 * 2 ^ e := by
      rw [abs_mul, abs_of_pos (two_pos e)]
      refine mul_lt_mul_of_pos_right ?_ (two_pos e)
      exact_mod_cast hm
    have h2 : (2 : ℝ) ^ 53 * 2 ^ e = 2 ^ (e + 53) := by
      rw [zpow_add₀ (by norm_num), mul_comm]
      norm_num
    have h3 : (2 : ℝ) ^ (e + 53) ≤ 2 ^ k := zpow_le_zpow_right₀ (by norm_num) (by omega)
    linarith
  refine ⟨m * 2 ^ (e - (k - 52)).toNat, ?_⟩
  have : (2 : ℝ) ^ e = 2 ^ (e - (k - 52)).toNat * 2 ^ (k - 52) := by
    rw [← zpow_natCast, ← zpow_add₀ (by norm_num)]
    congr 1
    omega
  rw [this]
  push_cast
  ring

/-- the other numbers are at least a unit in the last place away, except at powers of two -/
theorem IsDouble.apart {m q : ℤ} (h1 : 2 ^ 52 < m) {z : ℝ} (hz : IsDouble z) (hne : z ≠ m * (2 : ℝ) ^ q) :
    (2 : ℝ) ^ q ≤ |z - m * (2 : ℝ) ^ q| := by
  have hq := two_pos q
  have hk : (2 : ℝ) ^ (q + 52) = 2 ^ 52 * 2 ^ q := by
    rw [zpow_add₀ (by norm_num), mul_comm]
    norm_num
  by_cases hzk : (2 : ℝ) ^ (q + 52) ≤ |z|
  · obtain ⟨n, rfl⟩ := hz.multiple hzk
    rw [show q + 52 - 52 = q by ring] at hne ⊢
    have hnm : n ≠ m := by rintro rfl; exact hne rfl
    rw [← sub_mul, abs_mul, abs_of_pos hq]
    have : (1 : ℝ) ≤ |(n : ℝ) - m| := by
      have := Int.one_le_abs (sub_ne_zero.mpr hnm)
      exact_mod_cast this
    nlinarith
  · rw [not_le, hk] at hzk
    have hm : ((2 : ℝ) ^ 52 + 1) * 2 ^ q ≤ m * 2 ^ q := mul_le_mul_of_nonneg_right (by exact_mod_cast h1) hq.le
    have := abs_lt.mp hzk
    rw [abs_sub_comm]
    exact le_trans (by linarith) (le_abs_self _)

section
variable {fl : ℝ → ℝ} (hfl : Nearest fl)
include hfl

/-- numbers with 53 digits are not changed -/
theorem Nearest.self {x : ℝ} (hx : IsDouble x) : fl x = x := by
  have := (hfl x).2 x hx
  rw [sub_self, abs_zero] at this
  exact sub_eq_zero.mp (abs_nonpos_iff.mp this)

/-- a number that is close to one with 53 digits is rounded to it -/
theorem Nearest.eq_of_near {m q : ℤ} (h1 : 2 ^ 52 < m) (h2 : m < 2 ^ 53) {y : ℝ} (h : |y - m * (2 : ℝ) ^ q| < 2 ^ q / 2) :
    fl y = m * (2 : ℝ) ^ q := by
  by_contra hne
  have hx : IsDouble (m * (2 : ℝ) ^ q) := ⟨m, q, by rw [abs_of_pos (by omega)]; exact h2, rfl⟩
  have h3 := IsDouble.apart h1 (hfl y).1 hne
  have h4 := (hfl y).2 _ hx
  rw [abs_sub_comm] at h
  have h5 : |fl y - m * (2 : ℝ) ^ q| ≤ |fl y - y| + |y - m * (2 : ℝ) ^ q| := abs_sub_le _ _ _
  rw [abs_sub_comm y] at h5
  linarith

/-- the error of a rounding to a multiple of a power of two is half of it at most -/
theorem Nearest.error {y : ℝ} {q : ℤ} (h : |y| ≤ 2 ^ 53 * (2 : ℝ) ^ q) : |fl y - y| ≤ 2 ^ q / 2 := by
  have hq := two_pos q
  have hb : |y / 2 ^ q| ≤ ((2 ^ 53 : ℤ) : ℝ) := by
    rw [abs_div, abs_of_pos hq, div_le_iff₀ hq]
    rw [show (((2 ^ 53 : ℤ) : ℝ)) = 2 ^ 53 by norm_num]
    exact h
  have hn : |round (y / (2 : ℝ) ^ q)| ≤ 2 ^ 53 := by
    obtain ⟨b1, b2⟩ := abs_le.mp hb
    have r := abs_le.mp (abs_sub_round (y / (2 : ℝ) ^ q))
    rw [abs_le]
    constructor
    · have : ((-2 ^ 53 - 1 : ℤ) : ℝ) < (round (y / (2 : ℝ) ^ q) : ℤ) := by
        push_cast at b1 ⊢
        linarith
      have := Int.cast_lt.mp this
      omega
    · have : ((round (y / (2 : ℝ) ^ q) : ℤ) : ℝ) < ((2 ^ 53 + 1 : ℤ) : ℝ) := by
        push_cast at b2 ⊢
        linarith
      have := Int.cast_lt.mp this
      omega
  refine ((hfl y).2 _ (IsDouble.of_le hn q)).trans ?_
  have e : (round (y / (2 : ℝ) ^ q) : ℝ) * 2 ^ q - y = -(y / 2 ^ q - round (y / (2 : ℝ) ^ q)) * 2 ^ q := by
    field_simp
    ring
  rw [e, abs_mul, abs_neg, abs_of_pos hq]
  have := abs_sub_round (y / (2 : ℝ) ^ q)
  nlinarith

/-- the relative error is half of a unit in the last place at most -/
theorem Nearest.rounds : Rounds (1 / 2 ^ 53) fl := by
  intro y
  by_cases hy : y = 0
  · subst hy
    rw [hfl.self IsDouble.zero]
    simp
  · have h1 : (2 : ℝ) ^ Int.log 2 |y| ≤ |y| := by exact_mod_cast Int.zpow_log_le_self (R := ℝ) (b := 2) (by norm_num) (abs_pos.mpr hy)
    have h2 : |y| < (2 : ℝ) ^ (Int.log 2 |y| + 1) := by exact_mod_cast Int.lt_zpow_succ_log_self (R := ℝ) (b := 2) (by norm_num) |y|
    generalize Int.log 2 |y| = k at h1 h2
    have e1 : (2 : ℝ) ^ (k + 1) = 2 ^ 53 * 2 ^ (k - 52) := by
      rw [show k + 1 = 53 + (k - 52) by ring, zpow_add₀ (by norm_num)]
      norm_num
    have e2 : (2 : ℝ) ^ k = 2 ^ 52 * 2 ^ (k - 52) := by
      conv_lhs => rw [show k = 52 + (k - 52) by ring, zpow_add₀ (by norm_num)]
      norm_num
    have := hfl.error (y := y) (q := k - 52) (by rw [← e1]; exact h2.le)
    rw [e2] at h1
    refine this.trans ?_
    rw [div_mul_eq_mul_div, one_mul, div_le_div_iff₀ (by norm_num) (by norm_num)]
    linarith

end

/-- the nearest integer is nearest -/
theorem nearestEven_le (x : ℝ) (n : ℤ) : |(nearestEven x : ℝ) - x| ≤ |(n : ℝ) - x| := by
  by_cases h : n = nearestEven x
  · rw [h]
  · have h1 : (1 : ℝ) ≤ |(n : ℝ) - nearestEven x| := by
      have := Int.one_le_abs (sub_ne_zero.mpr h)
      exact_mod_cast this
    have h2 := nearestEven_error x
    have h3 : |(n : ℝ) - nearestEven x| ≤ |(n : ℝ) - x| + |x - nearestEven x| := abs_sub_le _ _ _
    rw [abs_sub_comm x] at h3
    linarith

/-- the rounding to the nearest number of C95 is one to a nearest number -/
theorem nearest_nearest : Nearest nearest := by
  intro y
  by_cases hy : y = 0
  · have : nearest y = 0 := by simp [nearest, nearestEven, hy]
    rw [this, hy]
    exact ⟨IsDouble.zero, fun z _ => by simp⟩
  · rw [nearest]
    have h1 : (2 : ℝ) ^ Int.log 2 |y| ≤ |y| := by exact_mod_cast Int.zpow_log_le_self (R := ℝ) (b := 2) (by norm_num) (abs_pos.mpr hy)
    have h2 : |y| < (2 : ℝ) ^ (Int.log 2 |y| + 1) := by exact_mod_cast Int.lt_zpow_succ_log_self (R := ℝ) (b := 2) (by norm_num) |y|
    generalize Int.log 2 |y| = k at h1 h2
    have e1 : (2 : ℝ) ^ (k + 1) = 2 ^ 53 * 2 ^ (k - 52) := by
      rw [show k + 1 = 53 + (k - 52) by ring, zpow_add₀ (by norm_num)]
      norm_num
    have e2 : (2 : ℝ) ^ k = 2 ^ 52 * 2 ^ (k - 52) := by
      conv_lhs => rw [show k = 52 + (k - 52) by ring, zpow_add₀ (by norm_num)]
      norm_num
    rw [e1] at h2
    rw [e2] at h1
    have hq := two_pos (k - 52)
    have hmul : ∀ n : ℤ, |(2 : ℝ) ^ (k - 52) * nearestEven (y / 2 ^ (k - 52)) - y| ≤ |(n : ℝ) * 2 ^ (k - 52) - y| := by
      intro n
      have := nearestEven_le (y / 2 ^ (k - 52)) n
      have c : ∀ j : ℤ, |(j : ℝ) * 2 ^ (k - 52) - y| = |(j : ℝ) - y / 2 ^ (k - 52)| * 2 ^ (k - 52) := by
        intro j
        conv_rhs => rw [← abs_of_pos hq, ← abs_mul, abs_of_pos hq, sub_mul, div_mul_cancel₀ _ hq.ne']
      rw [mul_comm, c, c]
      exact mul_le_mul_of_nonneg_right this hq.le
    refine ⟨?_, fun z hd => ?_⟩
    · rw [mul_comm]
      refine IsDouble.of_le ?_ _
      have h3 := nearestEven_error (y / 2 ^ (k - 52))
      have h4 : |y / 2 ^ (k - 52)| < 2 ^ 53 := by
        rw [abs_div, abs_of_pos hq, div_lt_iff₀ hq]
        exact h2
      generalize y / 2 ^ (k - 52) = w at h3 h4
      obtain ⟨a1, a2⟩ := abs_le.mp h3
      obtain ⟨b1, b2⟩ := abs_lt.mp h4
      rw [abs_le]
      constructor
      · have : ((-2 ^ 53 - 1 : ℤ) : ℝ) < (nearestEven w : ℝ) := by
          push_cast
          linarith
        have := Int.cast_lt.mp this
        omega
      · have : (nearestEven w : ℝ) < ((2 ^ 53 + 1 : ℤ) : ℝ) := by
          push_cast
          linarith
        have := Int.cast_lt.mp this
        omega
    · rcases lt_or_ge |z| (2 ^ k) with h | h
      · rw [e2] at h
        rcases lt_or_gt_of_ne hy with hy' | hy'
        · refine (hmul (-2 ^ 52)).trans ?_
          push_cast
          rw [abs_of_neg hy'] at h1
          rw [abs_of_nonneg (by linarith), abs_of_nonneg] <;> have := abs_lt.mp h <;> linarith
        · refine (hmul (2 ^ 52)).trans ?_
          push_cast
          rw [abs_of_pos hy'] at h1
          rw [abs_of_nonpos (by linarith), abs_of_nonpos] <;> have := abs_lt.mp h <;> linarith
      · obtain ⟨n, rfl⟩ := hd.multiple h
        exact hmul n

end Mito.Functions
