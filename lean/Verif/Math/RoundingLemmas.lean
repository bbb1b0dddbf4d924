import Verif.Spec.Rounding

/-! # Lemmas on rounding errors -/

namespace Mito

/-- `x'` is an approximation of `x` with an error of `ρ - 1` relative to `m`, where `m` is a bound of `x` -/
structure Within (ρ x' x m : ℝ) : Prop where
  one_le : 1 ≤ ρ
  error : |x' - x| ≤ (ρ - 1) * m
  bound : |x| ≤ m

namespace Within

variable {ρ σ x' x m y' y k u : ℝ} {fl : ℝ → ℝ}

theorem nonneg (h : Within ρ x' x m) : 0 ≤ m := (abs_nonneg x).trans h.bound

theorem size (h : Within ρ x' x m) : |x'| ≤ ρ * m := by
  have h1 : |x'| ≤ |x' - x| + |x| := by simpa using abs_add_le (x' - x) x
  have := h.error
  have := h.bound
  nlinarith

theorem exact (x : ℝ) : Within 1 x x |x| := ⟨le_refl _, by simp, le_refl _⟩

theorem mono (h : Within ρ x' x m) (hσ : ρ ≤ σ) : Within σ x' x m :=
  ⟨h.one_le.trans hσ, h.error.trans (mul_le_mul_of_nonneg_right (by linarith) h.nonneg), h.bound⟩

theorem weaken (h : Within ρ x' x m) (hm : m ≤ k) : Within ρ x' x k :=
  ⟨h.one_le, h.error.trans (mul_le_mul_of_nonneg_left hm (by linarith [h.one_le])), h.bound.trans hm⟩

theorem add (h : Within ρ x' x m) (h' : Within ρ y' y k) : Within ρ (x' + y') (x + y) (m + k) := by
  refine ⟨h.one_le, ?_, (abs_add_le _ _).trans (add_le_add h.bound h'.bound)⟩
  have e : x' + y' - (x + y) = (x' - x) + (y' - y) := by ring
  rw [e, mul_add]
  exact (abs_add_le _ _).trans (add_le_add h.error h'.error)

theorem neg (h : Within ρ x' x m) : Within ρ (-x') (-x) m := by
  refine ⟨h.one_le, ?_, by rw [abs_neg]; exact h.bound⟩
  have e : -x' - -x = -(x' - x) := by ring
  rw [e, abs_neg]
  exact h.error

theorem sub (h : Within ρ x' x m) (h' : Within ρ y' y k) : Within ρ (x' - y') (x - y) (m + k) := by
  rw [sub_eq_add_neg, sub_eq_add_neg]
  exact h.add h'.neg

theorem mul (h : Within ρ x' x m) (h' : Within σ y' y k) : Within (ρ * σ) (x' * y') (x * y) (m * k) := by
  refine ⟨by nlinarith [h.one_le, h'.one_le], ?_, ?_⟩
  · have e : x' * y' - x * y = (x' - x) * y' + x * (y' - y) := by ring
    rw [e]
    refine (abs_add_le _ _).trans ?_
    rw [abs_mul, abs_mul]
    have h1 := mul_le_mul h.error h'.size (abs_nonneg _) (mul_nonneg (by linarith [h.one_le]) h.nonneg)
    have h2 := mul_le_mul h.bound h'.error (abs_nonneg _) h.nonneg
    nlinarith
  · rw [abs_mul]
    exact mul_le_mul h.bound h'.bound (abs_nonneg _) h.nonneg

theorem round (hfl : Rounds u fl) (hu : 0 ≤ u) (h : Within ρ x' x m) : Within (ρ * (1 + u)) (fl x') x m := by
  refine ⟨by nlinarith [h.one_le], ?_, h.bound⟩
  have h1 : |fl x' - x| ≤ |fl x' - x'| + |x' - x| := by simpa using abs_add_le (fl x' - x') (x' - x)
  have h2 := hfl x'
  have h3 := mul_le_mul_of_nonneg_left h.size hu
  have := h.error
  nlinarith

theorem half (h : Within ρ x' x m) : Within ρ (1 / 2 * x') (1 / 2 * x) (1 / 2 * m) := by
  refine ⟨h.one_le, ?_, ?_⟩
  · have e : 1 / 2 * x' - 1 / 2 * x = 1 / 2 * (x' - x) := by ring
    rw [e, abs_mul, abs_of_pos (by norm_num : (0 : ℝ) < 1 / 2)]
    nlinarith [h.error]
  · rw [abs_mul, abs_of_pos (by norm_num : (0 : ℝ) < 1 / 2)]
    nlinarith [h.bound]

end Within

/-- a rounded sum: every addition adds a relative error -/
theorem foldl_within {α : Type*} {u : ℝ} {fl : ℝ → ℝ} (hfl : Rounds u fl) (hu : 0 ≤ u) (term exact bound : α → ℝ) (l : List α) {ρ r' r m : ℝ}
    (h : ∀ p ∈ l, Within ρ (term p) (exact p) (bound p)) (hr : Within ρ r' r m) :
    Within (ρ * (1 + u) ^ l.length) (l.foldl (fun s p => fl (s + term p)) r') (r + (l.map exact).sum) (m + (l.map bound).sum) := by
  induction l generalizing ρ r' r m with
  | nil => simpa using hr
  | cons p l ih =>
    have hρ := hr.one_le
    have h1 := (hr.add (h p (List.mem_cons_self ..))).round hfl hu
    have h2 := ih (fun q hq => (h q (List.mem_cons_of_mem _ hq)).mono (by nlinarith)) h1
    simp only [List.foldl_cons, List.map_cons, List.sum_cons, List.length_cons]
    rw [← add_assoc, ← add_assoc]
    have e : ρ * (1 + u) ^ (l.length + 1) = ρ * (1 + u) * (1 + u) ^ l.length := by ring
    rw [e]
    exact h2

end Mito
