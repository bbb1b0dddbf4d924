import Verif.Geometry.Midpoints
import Verif.IO.PrintingLemmas

/-! # Lemmas on rounding to a nearest number with 53 binary digits -/

namespace Mito.Midpoints

open Mito.Printing

variable {fl : ℚ → ℚ}

/-- `2⁻⁵³` -/
def unit : ℚ := 1 / 2 ^ 53

theorem digits_neg {x : ℚ} (h : HasDigits 2 53 x) : HasDigits 2 53 (-x) := by
  obtain ⟨m, e, h1, h2⟩ := h
  exact ⟨-m, e, by rwa [abs_neg], by rw [h2]; push_cast; ring⟩

theorem digits_zero : HasDigits 2 53 0 := ⟨0, 0, by norm_num, by simp⟩

theorem digits_half {x : ℚ} (h : HasDigits 2 53 x) : HasDigits 2 53 (1 / 2 * x) := by
  obtain ⟨m, e, h1, h2⟩ := h
  refine ⟨m, e - 1, h1, ?_⟩
  rw [h2]
  push_cast
  rw [zpow_sub_one₀ (by norm_num)]
  ring

/-- differences of numbers that are not far apart are exact (Sterbenz) -/
theorem digits_sub {a b : ℚ} (ha : HasDigits 2 53 a) (hb : HasDigits 2 53 b) (h1 : |b - a| ≤ |a|) (h2 : |b - a| ≤ |b|) : HasDigits 2 53 (b - a) := by
  obtain ⟨m, e, hm, rfl⟩ := ha
  obtain ⟨n, f, hn, rfl⟩ := hb
  have hpow : ∀ k l : ℤ, l ≤ k → ((2 : ℕ) : ℚ) ^ k = ((2 ^ (k - l).toNat : ℤ) : ℚ) * ((2 : ℕ) : ℚ) ^ l := by
    intro k l hkl
    push_cast
    rw [← zpow_natCast, ← zpow_add₀ (by norm_num)]
    congr 1
    omega
  have key : ∀ (k : ℤ) (N M : ℤ), |(N : ℚ) * ((2 : ℕ) : ℚ) ^ k| ≤ |(M : ℚ) * ((2 : ℕ) : ℚ) ^ k| → |N| ≤ |M| := by
    intro k N M h
    have hp : (0 : ℚ) < ((2 : ℕ) : ℚ) ^ k := by positivity
    rw [abs_mul, abs_mul, mul_le_mul_iff_left₀ (abs_pos.mpr hp.ne')] at h
    exact_mod_cast h
  rcases le_total e f with hef | hef
  · refine ⟨n * 2 ^ (f - e).toNat - m, e, ?_, ?_⟩
    · refine lt_of_le_of_lt (key e _ m ?_) hm
      refine le_trans (le_of_eq ?_) h1
      rw [hpow f e hef]
      push_cast
      ring_nf
    · rw [hpow f e hef]
      push_cast
      ring
  · refine ⟨n - m * 2 ^ (e - f).toNat, f, ?_, ?_⟩
    · refine lt_of_le_of_lt (key f _ n ?_) hn
      refine le_trans (le_of_eq ?_) h2
      rw [hpow e f hef]
      push_cast
      ring_nf
    · rw [hpow e f hef]
      push_cast
      ring

theorem fl_fixed (h : NearestDigits 2 53 fl) {x : ℚ} (hx : HasDigits 2 53 x) : fl x = x := by
  have := (h x).2 x hx
  rw [sub_self, abs_zero] at this
  exact sub_eq_zero.mp (abs_nonpos_iff.mp this)

theorem fl_mono (h : NearestDigits 2 53 fl) {x y : ℚ} (hxy : x ≤ y) : fl x ≤ fl y := by
  rcases hxy.eq_or_lt with rfl | hlt
  · exact le_rfl
  by_contra hc
  rw [not_le] at hc
  have h1 := (h x).2 _ (h y).1
  have h2 := (h y).2 _ (h x).1
  rcases abs_cases (fl x - x) with ⟨e1, _⟩ | ⟨e1, _⟩ <;> rcases abs_cases (fl y - x) with ⟨e2, _⟩ | ⟨e2, _⟩ <;>
    rcases abs_cases (fl y - y) with ⟨e3, _⟩ | ⟨e3, _⟩ <;> rcases abs_cases (fl x - y) with ⟨e4, _⟩ | ⟨e4, _⟩ <;> linarith

theorem fl_le (h : NearestDigits 2 53 fl) {x M : ℚ} (hM : HasDigits 2 53 M) (hx : x ≤ M) : fl x ≤ M := by
  have := fl_mono h hx
  rwa [fl_fixed h hM] at this

theorem le_fl (h : NearestDigits 2 53 fl) {x M : ℚ} (hM : HasDigits 2 53 M) (hx : M ≤ x) : M ≤ fl x := by
  have := fl_mono h hx
  rwa [fl_fixed h hM] at this

theorem fl_error (h : NearestDigits 2 53 fl) (x : ℚ) : |fl x - x| ≤ unit * |x| := by
  have := h.relative (by norm_num) (by norm_num) x
  refine this.trans (le_of_eq ?_)
  norm_num [unit]

/-- the same rounding on the other side of zero -/
theorem nearest_neg (h : NearestDigits 2 53 fl) : NearestDigits 2 53 fun x => -fl (-x) := by
  intro y
  refine ⟨digits_neg (h _).1, fun z hz => ?_⟩
  have := (h (-y)).2 _ (digits_neg hz)
  rw [show -fl (-y) - y = -(fl (-y) - -y) by ring, abs_neg]
  rwa [show -z - -y = -(z - y) by ring, abs_neg] at this

theorem fl_le_scaled (h : NearestDigits 2 53 fl) {x B : ℚ} (hB : 0 ≤ B) (hx : x ≤ B) : fl x ≤ (1 + unit) * B := by
  have h1 := fl_mono h hx
  have h2 := abs_le.mp (fl_error h B)
  rw [abs_of_nonneg hB] at h2
  linarith [h2.2]

theorem unit_pos : 0 < unit := by norm_num [unit]

/-- the sum of the offsets is bounded by the greatest one -/
theorem offsets_le (h : NearestDigits 2 53 fl) {x0 Δ : ℚ} (hΔ : 0 ≤ Δ) (xs : List ℚ) (hx : ∀ x ∈ xs, x - x0 ≤ Δ) {r : ℚ} {k m : ℕ}
    (hm : 1 ≤ m) (hr : r ≤ k * (1 + unit) ^ m * Δ) : offsets fl x0 xs r ≤ (k + xs.length : ℕ) * (1 + unit) ^ (m + xs.length) * Δ := by
  have hu := unit_pos
  induction xs generalizing r k m with
  | nil => simpa [offsets] using hr
  | cons x xs ih =>
    have h1 : fl (x - x0) ≤ (1 + unit) * Δ := fl_le_scaled h hΔ (hx x (by simp))
    have h2 : (1 + unit) ≤ (1 + unit) ^ m := by
      calc (1 + unit) = (1 + unit) ^ 1 := (pow_one _).symm
        _ ≤ _ := pow_le_pow_right₀ (by linarith) hm
    have h3 : r + fl (x - x0) ≤ (k + 1 : ℕ) * (1 + unit) ^ m * Δ := by
      have := mul_le_mul_of_nonneg_right h2 hΔ
      push_cast
      linarith
    have h4 := fl_le_scaled h (by positivity) h3
    have h5 : fl (r + fl (x - x0)) ≤ (k + 1 : ℕ) * (1 + unit) ^ (m + 1) * Δ := by
      refine h4.trans (le_of_eq ?_)
      ring
    have := ih (fun y hy => hx y (by simp [hy])) (by omega) h5
    simp only [offsets, List.foldl_cons, List.length_cons] at this ⊢
    rw [show k + (xs.length + 1) = k + 1 + xs.length by omega, show m + (xs.length + 1) = m + 1 + xs.length by omega]
    exact this

theorem div_le (h : NearestDigits 2 53 fl) (div : Division) {r B : ℚ} (hB : 0 ≤ B) (hr : r ≤ B) {n : ℕ} (hn : 0 < n) :
    div.run fl r n ≤ (1 + unit) ^ 2 * B / n := by
  have hu := unit_pos
  have hn' : (0 : ℚ) < n := by exact_mod_cast hn
  cases div with
  | quotient =>
    have := fl_le_scaled h (x := r / n) (B := B / n) (by positivity) (by gcongr)
    refine this.trans ?_
    rw [mul_div_assoc]
    refine mul_le_mul_of_nonneg_right ?_ (by positivity)
    nlinarith
  | reciprocal =>
    have h0 : 0 ≤ fl (1 / (n : ℚ)) := le_fl h digits_zero (by positivity)
    have h1 : fl (1 / (n : ℚ)) ≤ (1 + unit) * (1 / n) := fl_le_scaled h (by positivity) le_rfl
    have h2 : fl (1 / (n : ℚ)) * r ≤ (1 + unit) * (1 / n) * B := by
      calc fl (1 / (n : ℚ)) * r ≤ fl (1 / (n : ℚ)) * B := by gcongr
        _ ≤ _ := by gcongr
    have := fl_le_scaled h (by positivity) h2
    refine this.trans (le_of_eq ?_)
    ring

/-- the coordinate of a barycenter is at most the greatest coordinate of the nodes -/
theorem barycenter_le (h : NearestDigits 2 53 fl) (div : Division) {x0 M : ℚ} {xs : List ℚ} (hM : HasDigits 2 53 M) (h0 : x0 ≤ M) (hx : ∀ x ∈ xs, x ≤ M)
    (hn : (xs.length : ℚ) * (1 + unit) ^ (xs.length + 3) ≤ xs.length + 1) : barycenter fl div x0 xs ≤ M := by
  have hu := unit_pos
  refine fl_le h hM ?_
  have hΔ : 0 ≤ M - x0 := by linarith
  have hz : fl 0 = 0 := fl_fixed h digits_zero
  have e : offsets fl x0 (x0 :: xs) (fl (x0 - x0)) = offsets fl x0 xs 0 := by simp [offsets, hz]
  rw [e]
  have h1 := offsets_le (x0 := x0) h hΔ xs (fun x hx' => by linarith [hx x hx']) (r := 0) (k := 0) (m := 1) le_rfl (by simp)
  have h2 := div_le h div (by positivity) h1 (n := xs.length + 1) (by omega)
  have h3 : (1 + unit) ^ 2 * (((0 + xs.length : ℕ) : ℚ) * (1 + unit) ^ (1 + xs.length) * (M - x0)) / ((xs.length + 1 : ℕ) : ℚ) ≤ M - x0 := by
    rw [div_le_iff₀ (by positivity)]
    calc (1 + unit) ^ 2 * (((0 + xs.length : ℕ) : ℚ) * (1 + unit) ^ (1 + xs.length) * (M - x0))
        = (xs.length * (1 + unit) ^ (xs.length + 3)) * (M - x0) := by
          rw [Nat.zero_add]
          ring
      _ ≤ (xs.length + 1) * (M - x0) := mul_le_mul_of_nonneg_right hn hΔ
      _ = _ := by push_cast; ring
  linarith

theorem offsets_neg (x0 : ℚ) (xs : List ℚ) (r : ℚ) : offsets (fun x => -fl (-x)) (-x0) (xs.map (-·)) (-r) = -offsets fl x0 xs r := by
  induction xs generalizing r with
  | nil => rfl
  | cons x xs ih =>
    have := ih (fl (r + fl (x - x0)))
    simp only [offsets, List.map_cons, List.foldl_cons] at this ⊢
    rw [← this]
    congr 3
    rw [show -(-x - -x0) = x - x0 by ring]
    ring

theorem offsets_ge (h : NearestDigits 2 53 fl) {x0 Δ : ℚ} (hΔ : 0 ≤ Δ) (xs : List ℚ) (hx : ∀ x ∈ xs, -Δ ≤ x - x0) :
    -((xs.length : ℚ) * (1 + unit) ^ (1 + xs.length) * Δ) ≤ offsets fl x0 xs 0 := by
  have := offsets_le (x0 := -x0) (nearest_neg h) hΔ (xs.map (-·)) (fun y hy => by
    obtain ⟨x, hx', rfl⟩ := List.mem_map.mp hy
    linarith [hx x hx']) (r := -0) (k := 0) (m := 1) le_rfl (by simp)
  rw [offsets_neg] at this
  simp only [List.length_map, Nat.zero_add] at this
  linarith

theorem fl_ge_scaled (h : NearestDigits 2 53 fl) {x B : ℚ} (hB : 0 ≤ B) (hx : -B ≤ x) : -((1 + unit) * B) ≤ fl x := by
  have := fl_le_scaled (nearest_neg h) hB (show -x ≤ B by linarith)
  simp only [neg_neg] at this
  linarith

theorem div_ge (h : NearestDigits 2 53 fl) (div : Division) {r B : ℚ} (hB : 0 ≤ B) (hr : -B ≤ r) {n : ℕ} (hn : 0 < n) :
    -((1 + unit) ^ 2 * B / n) ≤ div.run fl r n := by
  have hu := unit_pos
  have hn' : (0 : ℚ) < n := by exact_mod_cast hn
  cases div with
  | quotient =>
    have := fl_ge_scaled h (x := r / n) (B := B / n) (by positivity) (by rw [← neg_div]; gcongr)
    refine le_trans ?_ this
    rw [mul_div_assoc, neg_le_neg_iff]
    refine mul_le_mul_of_nonneg_right ?_ (by positivity)
    nlinarith
  | reciprocal =>
    have h0 : 0 ≤ fl (1 / (n : ℚ)) := le_fl h digits_zero (by positivity)
    have h1 : fl (1 / (n : ℚ)) ≤ (1 + unit) * (1 / n) := fl_le_scaled h (by positivity) le_rfl
    have h2 : -((1 + unit) * (1 / n) * B) ≤ fl (1 / (n : ℚ)) * r := by
      have h3 : fl (1 / (n : ℚ)) * -B ≤ fl (1 / (n : ℚ)) * r := by gcongr
      have h4 : fl (1 / (n : ℚ)) * B ≤ (1 + unit) * (1 / n) * B := by gcongr
      linarith
    have := fl_ge_scaled h (by positivity) h2
    refine le_trans (le_of_eq ?_) this
    ring

/-- the coordinate of a barycenter is at least the least coordinate of the nodes -/
theorem le_barycenter (h : NearestDigits 2 53 fl) (div : Division) {x0 M : ℚ} {xs : List ℚ} (hM : HasDigits 2 53 M) (h0 : M ≤ x0) (hx : ∀ x ∈ xs, M ≤ x)
    (hn : (xs.length : ℚ) * (1 + unit) ^ (xs.length + 3) ≤ xs.length + 1) : M ≤ barycenter fl div x0 xs := by
  have hu := unit_pos
  refine le_fl h hM ?_
  have hΔ : 0 ≤ x0 - M := by linarith
  have hz : fl 0 = 0 := fl_fixed h digits_zero
  have e : offsets fl x0 (x0 :: xs) (fl (x0 - x0)) = offsets fl x0 xs 0 := by simp [offsets, hz]
  rw [e]
  have h1 := offsets_ge (x0 := x0) h hΔ xs (fun x hx' => by linarith [hx x hx'])
  have h2 := div_ge h div (by positivity) h1 (n := xs.length + 1) (by omega)
  have h3 : (1 + unit) ^ 2 * ((xs.length : ℚ) * (1 + unit) ^ (1 + xs.length) * (x0 - M)) / ((xs.length + 1 : ℕ) : ℚ) ≤ x0 - M := by
    rw [div_le_iff₀ (by positivity)]
    calc (1 + unit) ^ 2 * ((xs.length : ℚ) * (1 + unit) ^ (1 + xs.length) * (x0 - M))
        = (xs.length * (1 + unit) ^ (xs.length + 3)) * (x0 - M) := by ring
      _ ≤ (xs.length + 1) * (x0 - M) := mul_le_mul_of_nonneg_right hn hΔ
      _ = _ := by push_cast; ring
  linarith

end Mito.Midpoints
