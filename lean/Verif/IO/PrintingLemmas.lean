import Verif.IO.Printing
import Verif.IO.SummitLemmas
import Verif.Math.DigitsLemmas
import Verif.Quadrature.DoublesLemmas

/-! # Lemmas on numbers in written files -/

namespace Mito.Printing

open Mito.Quadrature (nearestEvenQ rnd)
open Mito.Summit Mito.Numbering

theorem nearestEvenQ_error (x : ℚ) : |(nearestEvenQ x : ℚ) - x| ≤ 1 / 2 := by
  have h0 : (x.floor : ℚ) ≤ x := Rat.floor_le x
  have h1 : x < x.floor + 1 := by exact_mod_cast Rat.lt_floor_add_one x
  rw [nearestEvenQ, abs_le]
  split_ifs <;> push_cast <;> constructor <;> linarith

/-- the printed number is a nearest one with 15 digits -/
theorem decimal_nearest : NearestDigits 10 15 decimal := by
  refine nearest_of_multiples (by norm_num) (by norm_num) nearestEvenQ_error (by simp [decimal]) ?_
  intro y hy
  rw [decimal, if_neg hy]
  norm_num
  simp only [show ∀ k : ℤ, k - 14 = k + 1 - 15 by intro k; ring]

/-- a `double` is a nearest number with 53 binary digits -/
theorem rnd_nearest : NearestDigits 2 53 rnd := by
  refine nearest_of_multiples (by norm_num) (by norm_num) nearestEvenQ_error (by simp [rnd]) ?_
  intro y hy
  have ht : ∀ e : ℤ, Quadrature.twoTo e = 2 ^ e := by
    intro e
    have := Quadrature.twoTo_cast e
    rw [show (2 : ℝ) ^ e = (((2 : ℚ) ^ e : ℚ) : ℝ) by push_cast; rfl] at this
    exact Rat.cast_injective this
  have hl : Int.log 2 |y| = Int.log 2 |(y : ℝ)| := by
    have hy' : 0 < |(y : ℝ)| := abs_pos.mpr (by exact_mod_cast hy)
    have h1 : (2 : ℚ) ^ Int.log 2 |y| ≤ |y| := by exact_mod_cast Int.zpow_log_le_self (R := ℚ) (b := 2) (by norm_num) (abs_pos.mpr hy)
    have h2 : |y| < (2 : ℚ) ^ (Int.log 2 |y| + 1) := by exact_mod_cast Int.lt_zpow_succ_log_self (R := ℚ) (b := 2) (by norm_num) |y|
    have h1' : ((2 : ℕ) : ℝ) ^ Int.log 2 |y| ≤ |(y : ℝ)| := by
      have := (Rat.cast_le (K := ℝ)).mpr h1
      push_cast at this ⊢
      exact this
    have h2' : |(y : ℝ)| < ((2 : ℕ) : ℝ) ^ (Int.log 2 |y| + 1) := by
      have := (Rat.cast_lt (K := ℝ)).mpr h2
      push_cast at this ⊢
      exact this
    have l1 := (Int.zpow_le_iff_le_log (b := 2) (by norm_num) hy').mp h1'
    have l2 := (Int.lt_zpow_iff_log_lt (b := 2) (by norm_num) hy').mp h2'
    omega
  rw [rnd, if_neg hy, Quadrature.exponent_eq hy, ← hl, ht, mul_comm]
  norm_num
  simp only [show ∀ k : ℤ, k - 52 = k + 1 - 53 by intro k; ring]

/-- a decimal number with 15 digits is printed again after it was read -/
theorem print_read {dec fl : ℚ → ℚ} (hdec : NearestDigits 10 15 dec) (hfl : NearestDigits 2 53 fl) {d : ℚ} (hd : HasDigits 10 15 d) :
    dec (fl d) = d := by
  by_cases h0 : d = 0
  · subst h0
    rw [hfl.self (HasDigits.zero (by norm_num)), hdec.self (HasDigits.zero (by norm_num))]
  have herr := hfl.relative (by norm_num) (by norm_num) d
  have h1 : (10 : ℚ) ^ Int.log 10 |d| ≤ |d| := by exact_mod_cast Int.zpow_log_le_self (R := ℚ) (b := 10) (by norm_num) (abs_pos.mpr h0)
  have h2 : |d| < (10 : ℚ) ^ (Int.log 10 |d| + 1) := by exact_mod_cast Int.lt_zpow_succ_log_self (R := ℚ) (b := 10) (by norm_num) |d|
  generalize Int.log 10 |d| = k at h1 h2
  have hw : (0 : ℚ) < 10 ^ (k + 1 - 15) := zpow_pos (by norm_num) _
  have e1 : (10 : ℚ) ^ k = 10 ^ 14 * 10 ^ (k + 1 - 15) := by
    rw [← zpow_natCast, ← zpow_add₀ (by norm_num)]
    congr 1
    push_cast
    ring
  have e2 : (10 : ℚ) ^ (k + 1) = 10 ^ 15 * 10 ^ (k + 1 - 15) := by
    rw [← zpow_natCast, ← zpow_add₀ (by norm_num)]
    congr 1
    push_cast
    ring
  by_cases h3 : (10 : ℚ) ^ k + 10 ^ (k + 1 - 15) ≤ |d|
  · refine hdec.eq_of_near (k := k) (by norm_num) hd (by exact_mod_cast h3) ?_
    push_cast
    generalize (10 : ℚ) ^ (k + 1 - 15) = w at *
    rw [e2] at h2
    norm_num at herr ⊢
    linarith
  · -- a power of ten
    have h4 : |d| = 10 ^ k := by
      obtain ⟨n, hn⟩ := hd.multiple (k := k) (by norm_num) (by exact_mod_cast h1)
      push_cast at hn
      rw [hn, abs_mul, abs_of_pos hw, e1] at h1 h3 ⊢
      have a1 : (10 : ℚ) ^ 14 ≤ |(n : ℚ)| := le_of_mul_le_mul_right h1 hw
      have a2 : |(n : ℚ)| < 10 ^ 14 + 1 := by
        rw [not_le] at h3
        refine lt_of_mul_lt_mul_right ?_ hw.le
        linarith
      have b1 : (10 : ℤ) ^ 14 ≤ |n| := by exact_mod_cast a1
      have b2 : |n| < 10 ^ 14 + 1 := by exact_mod_cast a2
      have : |n| = 10 ^ 14 := by omega
      have : |(n : ℚ)| = 10 ^ 14 := by exact_mod_cast this
      rw [this]
    have e3 : (10 : ℚ) ^ (k + 1 - 15) = 10 * 10 ^ (k - 1 + 1 - 15) := by
      rw [show k + 1 - 15 = 1 + (k - 1 + 1 - 15) by ring, zpow_add₀ (by norm_num), zpow_one]
    have e4 : (10 : ℚ) ^ (k - 1) = 10 ^ 14 * 10 ^ (k - 1 + 1 - 15) := by
      rw [← zpow_natCast, ← zpow_add₀ (by norm_num)]
      congr 1
      push_cast
      ring
    have hv : (0 : ℚ) < 10 ^ (k - 1 + 1 - 15) := zpow_pos (by norm_num) _
    refine hdec.eq_of_near (k := k - 1) (by norm_num) hd ?_ ?_
    · push_cast
      rw [h4, e1, e3, e4]
      linarith
    · push_cast
      rw [h4, e1, e3] at herr
      generalize (10 : ℚ) ^ (k - 1 + 1 - 15) = v at *
      norm_num at herr ⊢
      linarith

theorem firsts_map {α β : Type} [DecidableEq α] [DecidableEq β] {f : α → β} {l : List α} (h : ∀ x ∈ l, ∀ y ∈ l, f x = f y → x = y) :
    firsts (l.map f) = (firsts l).map f := by
  induction l with
  | nil => rfl
  | cons a l ih =>
    rw [List.map_cons, firsts, ih fun x hx y hy => h x (by simp [hx]) y (by simp [hy]), firsts, List.map_cons, List.filter_map]
    congr 2
    refine List.filter_congr fun x hx => ?_
    have hx' : x ∈ l := mem_firsts.mp hx
    simp only [Function.comp, ne_eq, decide_not, Bool.not_eq_eq_eq_not, Bool.not_not, decide_eq_decide]
    exact ⟨fun e => h x (by simp [hx']) a (by simp) e, fun e => by rw [e]⟩

theorem map_idxOf {α : Type} [DecidableEq α] {l : List α} (h : l.Nodup) : l.map l.idxOf = List.range l.length := by
  refine List.ext_getElem (by simp) fun i h1 h2 => ?_
  simp only [List.getElem_map, List.getElem_range]
  exact h.idxOf_getElem i (by simpa using h1)

/-- the points of a mesh that was read are numbered as in the file -/
theorem points_readCells (cells : List Cell) :
    firsts (meshPoints (readCells (cells.map fun c => c.map (fileIndex cells)))) = List.range (firsts (meshPoints cells)).length := by
  have e : meshPoints (readCells (cells.map fun c => c.map (fileIndex cells))) = (meshPoints cells).map (firsts (meshPoints cells)).idxOf := by
    simp [meshPoints, readCells, List.flatMap_map, List.map_flatMap, Function.comp_def, fileIndex]
  rw [e, firsts_map fun x hx y hy h => (idxOf_firsts_inj hx hy).mp h, map_idxOf (firsts_nodup _)]

end Mito.Printing
