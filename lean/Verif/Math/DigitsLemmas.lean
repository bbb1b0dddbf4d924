import Verif.Spec.Digits
import Mathlib.Algebra.Order.Round
import Mathlib.Data.Int.Log
import Mathlib.Data.Rat.Floor
import Mathlib.Tactic.Linarith
import Mathlib.Tactic.Positivity
import Mathlib.Tactic.NormNum
import Mathlib.Tactic.Ring
import Mathlib.Tactic.FieldSimp

/-! # Lemmas on numbers with a number of digits -/

namespace Mito.Printing

variable {b p : ℕ}

theorem HasDigits.zero (hb : 2 ≤ b) : HasDigits b p 0 := ⟨0, 0, by rw [abs_zero]; positivity, by simp⟩

theorem HasDigits.neg {x : ℚ} (h : HasDigits b p x) : HasDigits b p (-x) := by
  obtain ⟨m, e, hm, rfl⟩ := h
  exact ⟨-m, e, by rwa [abs_neg], by push_cast; ring⟩

/-- the bound for the digits may be reached -/
theorem HasDigits.of_le (hb : 2 ≤ b) (hp : 1 ≤ p) {n : ℤ} (hn : |n| ≤ (b : ℤ) ^ p) (e : ℤ) : HasDigits b p (n * (b : ℚ) ^ e) := by
  have hb0 : (b : ℚ) ≠ 0 := by positivity
  rcases hn.lt_or_eq with h | h
  · exact ⟨n, e, h, rfl⟩
  · have h2 : (b : ℚ) ^ (e + p) = (b : ℚ) ^ p * (b : ℚ) ^ e := by
      rw [zpow_add₀ hb0, mul_comm, zpow_natCast]
    have h1 : (1 : ℤ) < (b : ℤ) ^ p := one_lt_pow₀ (by exact_mod_cast hb) (by omega)
    rcases abs_eq (by positivity) |>.mp h with h | h
    · refine ⟨1, e + p, by simpa using h1, ?_⟩
      rw [h2, h]
      push_cast
      ring
    · refine ⟨-1, e + p, by simpa using h1, ?_⟩
      rw [h2, h]
      push_cast
      ring

/-- a number that is at least a power of the base is a multiple of the unit of the last place -/
theorem HasDigits.multiple (hb : 2 ≤ b) {z : ℚ} (hz : HasDigits b p z) {k : ℤ} (h : (b : ℚ) ^ k ≤ |z|) :
    ∃ n : ℤ, z = n * (b : ℚ) ^ (k + 1 - p) := by
  have hb0 : (0 : ℚ) < b := by positivity
  obtain ⟨m, e, hm, rfl⟩ := hz
  have he : k + 1 - p ≤ e := by
    by_contra hlt
    have h1 : |(m : ℚ) * (b : ℚ) ^ e| < (b : ℚ) ^ p * (b : ℚ) ^ e := by
      rw [abs_mul, abs_of_pos (zpow_pos hb0 e)]
      refine mul_lt_mul_of_pos_right ?_ (zpow_pos hb0 e)
      exact_mod_cast hm
    have h2 : (b : ℚ) ^ p * (b : ℚ) ^ e = (b : ℚ) ^ (e + p) := by
      rw [zpow_add₀ hb0.ne', mul_comm, zpow_natCast]
    have h3 : (b : ℚ) ^ (e + p) ≤ (b : ℚ) ^ k := zpow_le_zpow_right₀ (by exact_mod_cast (by omega : 1 ≤ b)) (by omega)
    linarith
  refine ⟨m * (b : ℤ) ^ (e - (k + 1 - p)).toNat, ?_⟩
  have : (b : ℚ) ^ e = (b : ℚ) ^ (e - (k + 1 - p)).toNat * (b : ℚ) ^ (k + 1 - p) := by
    rw [← zpow_natCast, ← zpow_add₀ hb0.ne']
    congr 1
    omega
  rw [this]
  push_cast
  ring

/-- the other numbers are at least a unit in the last place away -/
theorem HasDigits.apart (hb : 2 ≤ b) {x z : ℚ} (hx : HasDigits b p x) (hz : HasDigits b p z) (hne : z ≠ x) {k : ℤ}
    (hk : (b : ℚ) ^ k + (b : ℚ) ^ (k + 1 - p) ≤ |x|) : (b : ℚ) ^ (k + 1 - p) ≤ |z - x| := by
  have hb0 : (0 : ℚ) < b := by positivity
  have hq : (0 : ℚ) < (b : ℚ) ^ (k + 1 - p) := zpow_pos hb0 _
  by_cases hzk : (b : ℚ) ^ k ≤ |z|
  · obtain ⟨n, hn⟩ := hz.multiple hb hzk
    obtain ⟨m, hm⟩ := hx.multiple hb (k := k) (by linarith)
    have hnm : n ≠ m := by
      rintro rfl
      exact hne (hn.trans hm.symm)
    rw [hn, hm, ← sub_mul, abs_mul, abs_of_pos hq]
    have : (1 : ℚ) ≤ |(n : ℚ) - m| := by
      have := Int.one_le_abs (sub_ne_zero.mpr hnm)
      exact_mod_cast this
    nlinarith
  · rw [not_le] at hzk
    have : |x| - |z| ≤ |z - x| := by
      rw [abs_sub_comm]
      exact abs_sub_abs_le_abs_sub x z
    linarith

section
variable {rd : ℚ → ℚ} (hrd : NearestDigits b p rd)
include hrd

/-- numbers with the digits are not changed -/
theorem NearestDigits.self {x : ℚ} (hx : HasDigits b p x) : rd x = x := by
  have := (hrd x).2 x hx
  rw [sub_self, abs_zero] at this
  exact sub_eq_zero.mp (abs_nonpos_iff.mp this)

/-- a number that is close to one with the digits is rounded to it -/
theorem NearestDigits.eq_of_near (hb : 2 ≤ b) {x y : ℚ} (hx : HasDigits b p x) {k : ℤ} (hk : (b : ℚ) ^ k + (b : ℚ) ^ (k + 1 - p) ≤ |x|)
    (h : |y - x| < (b : ℚ) ^ (k + 1 - p) / 2) : rd y = x := by
  by_contra hne
  have h3 := hx.apart hb (hrd y).1 hne hk
  have h4 := (hrd y).2 _ hx
  have h5 : |rd y - x| ≤ |rd y - y| + |y - x| := abs_sub_le _ _ _
  rw [abs_sub_comm x] at h4
  linarith

/-- the error of a rounding is half of the unit in the last place at most -/
theorem NearestDigits.error (hb : 2 ≤ b) (hp : 1 ≤ p) {y : ℚ} {q : ℤ} (h : |y| ≤ (b : ℚ) ^ p * (b : ℚ) ^ q) : |rd y - y| ≤ (b : ℚ) ^ q / 2 := by
  have hb0 : (0 : ℚ) < b := by positivity
  have hq : (0 : ℚ) < (b : ℚ) ^ q := zpow_pos hb0 _
  have hB : |y / (b : ℚ) ^ q| ≤ (((b : ℤ) ^ p : ℤ) : ℚ) := by
    rw [abs_div, abs_of_pos hq, div_le_iff₀ hq]
    push_cast
    exact h
  have hn : |round (y / (b : ℚ) ^ q)| ≤ (b : ℤ) ^ p := by
    obtain ⟨b1, b2⟩ := abs_le.mp hB
    have r := abs_le.mp (abs_sub_round (y / (b : ℚ) ^ q))
    generalize (b : ℤ) ^ p = B at b1 b2
    rw [abs_le]
    constructor
    · have : ((-B - 1 : ℤ) : ℚ) < (round (y / (b : ℚ) ^ q) : ℤ) := by
        push_cast
        linarith
      have := Int.cast_lt.mp this
      omega
    · have : ((round (y / (b : ℚ) ^ q) : ℤ) : ℚ) < ((B + 1 : ℤ) : ℚ) := by
        push_cast
        linarith
      have := Int.cast_lt.mp this
      omega
  refine ((hrd y).2 _ (HasDigits.of_le hb hp hn q)).trans ?_
  have e : (round (y / (b : ℚ) ^ q) : ℚ) * (b : ℚ) ^ q - y = -(y / (b : ℚ) ^ q - round (y / (b : ℚ) ^ q)) * (b : ℚ) ^ q := by
    field_simp
    ring
  rw [e, abs_mul, abs_neg, abs_of_pos hq]
  have := abs_sub_round (y / (b : ℚ) ^ q)
  nlinarith

/-- the relative error -/
theorem NearestDigits.relative (hb : 2 ≤ b) (hp : 1 ≤ p) (y : ℚ) : |rd y - y| ≤ b / (2 * (b : ℚ) ^ p) * |y| := by
  have hb0 : (0 : ℚ) < b := by positivity
  by_cases hy : y = 0
  · subst hy
    rw [hrd.self (HasDigits.zero hb)]
    simp
  · have h1 : (b : ℚ) ^ Int.log b |y| ≤ |y| := Int.zpow_log_le_self (by omega) (abs_pos.mpr hy)
    have h2 : |y| < (b : ℚ) ^ (Int.log b |y| + 1) := Int.lt_zpow_succ_log_self (by omega) |y|
    generalize Int.log b |y| = k at h1 h2
    have hq : (0 : ℚ) < (b : ℚ) ^ (k + 1 - p) := zpow_pos hb0 _
    have e1 : (b : ℚ) ^ (k + 1) = (b : ℚ) ^ p * (b : ℚ) ^ (k + 1 - p) := by
      rw [← zpow_natCast, ← zpow_add₀ hb0.ne']
      congr 1
      ring
    have e2 : (b : ℚ) * (b : ℚ) ^ k = (b : ℚ) ^ p * (b : ℚ) ^ (k + 1 - p) := by
      rw [← e1, zpow_add₀ hb0.ne', zpow_one, mul_comm]
    have := hrd.error hb hp (y := y) (q := k + 1 - p) (by rw [← e1]; exact h2.le)
    refine this.trans ?_
    have hP : (0 : ℚ) < (b : ℚ) ^ p := by positivity
    rw [div_mul_eq_mul_div, div_le_div_iff₀ (by norm_num) (by positivity)]
    nlinarith

end

/-- a rounding that takes a nearest multiple of the unit in the last place is one to a nearest number -/
theorem nearest_of_multiples (hb : 2 ≤ b) (hp : 1 ≤ p) {near : ℚ → ℤ} (hnear : ∀ x, |(near x : ℚ) - x| ≤ 1 / 2) {rd : ℚ → ℚ} (h0 : rd 0 = 0)
    (h : ∀ y ≠ 0, rd y = near (y / (b : ℚ) ^ (Int.log b |y| + 1 - p)) * (b : ℚ) ^ (Int.log b |y| + 1 - p)) : NearestDigits b p rd := by
  have hb0 : (0 : ℚ) < b := by positivity
  have hle : ∀ x (n : ℤ), |(near x : ℚ) - x| ≤ |(n : ℚ) - x| := by
    intro x n
    by_cases h : n = near x
    · rw [h]
    · have h1 : (1 : ℚ) ≤ |(n : ℚ) - near x| := by
        have := Int.one_le_abs (sub_ne_zero.mpr h)
        exact_mod_cast this
      have h2 := hnear x
      have h3 : |(n : ℚ) - near x| ≤ |(n : ℚ) - x| + |x - near x| := abs_sub_le _ _ _
      rw [abs_sub_comm x] at h3
      linarith
  intro y
  by_cases hy : y = 0
  · rw [hy, h0]
    exact ⟨HasDigits.zero hb, fun z _ => by simp⟩
  · rw [h y hy]
    have h1 : (b : ℚ) ^ Int.log b |y| ≤ |y| := Int.zpow_log_le_self (by omega) (abs_pos.mpr hy)
    have h2 : |y| < (b : ℚ) ^ (Int.log b |y| + 1) := Int.lt_zpow_succ_log_self (by omega) |y|
    clear h
    generalize Int.log b |y| = k at h1 h2
    have hq : (0 : ℚ) < (b : ℚ) ^ (k + 1 - p) := zpow_pos hb0 _
    have e1 : (b : ℚ) ^ (k + 1) = (b : ℚ) ^ p * (b : ℚ) ^ (k + 1 - p) := by
      rw [← zpow_natCast, ← zpow_add₀ hb0.ne']
      congr 1
      ring
    have e2 : (b : ℚ) ^ k = (((b : ℤ) ^ (p - 1) : ℤ) : ℚ) * (b : ℚ) ^ (k + 1 - p) := by
      push_cast
      rw [← zpow_natCast, ← zpow_add₀ hb0.ne']
      congr 1
      omega
    have hmul : ∀ n : ℤ, |(near (y / (b : ℚ) ^ (k + 1 - p)) : ℚ) * (b : ℚ) ^ (k + 1 - p) - y| ≤ |(n : ℚ) * (b : ℚ) ^ (k + 1 - p) - y| := by
      intro n
      have := hle (y / (b : ℚ) ^ (k + 1 - p)) n
      have c : ∀ j : ℤ, |(j : ℚ) * (b : ℚ) ^ (k + 1 - p) - y| = |(j : ℚ) - y / (b : ℚ) ^ (k + 1 - p)| * (b : ℚ) ^ (k + 1 - p) := by
        intro j
        conv_rhs => rw [← abs_of_pos hq, ← abs_mul, abs_of_pos hq, sub_mul, div_mul_cancel₀ _ hq.ne']
      rw [c, c]
      exact mul_le_mul_of_nonneg_right this hq.le
    refine ⟨?_, fun z hd => ?_⟩
    · refine HasDigits.of_le hb hp ?_ _
      have h3 := hnear (y / (b : ℚ) ^ (k + 1 - p))
      have h4 : |y / (b : ℚ) ^ (k + 1 - p)| < (((b : ℤ) ^ p : ℤ) : ℚ) := by
        rw [abs_div, abs_of_pos hq, div_lt_iff₀ hq]
        push_cast
        rw [← e1]
        exact h2
      generalize y / (b : ℚ) ^ (k + 1 - p) = w at h3 h4
      generalize (b : ℤ) ^ p = B at h4
      obtain ⟨a1, a2⟩ := abs_le.mp h3
      obtain ⟨b1, b2⟩ := abs_lt.mp h4
      rw [abs_le]
      constructor
      · have : ((-B - 1 : ℤ) : ℚ) < (near w : ℚ) := by
          push_cast
          linarith
        have := Int.cast_lt.mp this
        omega
      · have : (near w : ℚ) < ((B + 1 : ℤ) : ℚ) := by
          push_cast
          linarith
        have := Int.cast_lt.mp this
        omega
    · rcases lt_or_ge |z| ((b : ℚ) ^ k) with h | h
      · have hz := abs_lt.mp h
        rcases lt_or_gt_of_ne hy with hy' | hy'
        · refine (hmul (-(b : ℤ) ^ (p - 1))).trans ?_
          rw [Int.cast_neg, neg_mul, ← e2]
          rw [abs_of_neg hy'] at h1
          rw [abs_of_nonneg (by linarith), abs_of_nonneg] <;> linarith
        · refine (hmul ((b : ℤ) ^ (p - 1))).trans ?_
          rw [← e2]
          rw [abs_of_pos hy'] at h1
          rw [abs_of_nonpos (by linarith), abs_of_nonpos] <;> linarith
      · obtain ⟨n, rfl⟩ := hd.multiple hb h
        exact hmul n

end Mito.Printing
