import Verif.Fem.RoundedNorms
import Verif.Spec.Rounding
import Verif.Props.Rounding

/-!
# Norms in double arithmetic (C147)

All terms of the sums are squares times factors, so nothing cancels.
-/

namespace Mito.RoundedNorms

open Mito

/-! ## Sums of numbers that are not negative -/

/-- `x'` is `x` after `k` roundings -/
structure Near (u : ℝ) (k : Nat) (x' x : ℝ) : Prop where
  nonneg : 0 ≤ x
  lower : (1 - u) ^ k * x ≤ x'
  upper : x' ≤ (1 + u) ^ k * x

variable {u : ℝ} {fl : ℝ → ℝ}

theorem Near.zero (k : Nat) : Near u k 0 0 := ⟨le_rfl, by simp, by simp⟩

theorem Near.computed_nonneg (hu1 : u ≤ 1) {k : Nat} {x' x : ℝ} (h : Near u k x' x) : 0 ≤ x' :=
  le_trans (mul_nonneg (pow_nonneg (by linarith) k) h.nonneg) h.lower

theorem Near.mono (hu : 0 ≤ u) (hu1 : u ≤ 1) {k l : Nat} (hkl : k ≤ l) {x' x : ℝ} (h : Near u k x' x) : Near u l x' x :=
  ⟨h.nonneg, le_trans (mul_le_mul_of_nonneg_right (pow_le_pow_of_le_one (by linarith) (by linarith) hkl) h.nonneg) h.lower,
    le_trans h.upper (mul_le_mul_of_nonneg_right (pow_le_pow_right₀ (by linarith) hkl) h.nonneg)⟩

theorem Near.add {k : Nat} {x' x y' y : ℝ} (h : Near u k x' x) (g : Near u k y' y) : Near u k (x' + y') (x + y) :=
  ⟨add_nonneg h.nonneg g.nonneg, by linarith [h.lower, g.lower], by linarith [h.upper, g.upper]⟩

theorem rounds_nonneg (hfl : Rounds u fl) {x : ℝ} (hx : 0 ≤ x) : (1 - u) * x ≤ fl x ∧ fl x ≤ (1 + u) * x := by
  have := abs_le.mp (hfl x)
  rw [abs_of_nonneg hx] at this
  constructor <;> linarith [this.1, this.2]

theorem Near.round (hfl : Rounds u fl) (hu : 0 ≤ u) (hu1 : u ≤ 1) {k : Nat} {x' x : ℝ} (h : Near u k x' x) : Near u (k + 1) (fl x') x := by
  obtain ⟨a, b⟩ := rounds_nonneg hfl (h.computed_nonneg hu1)
  refine ⟨h.nonneg, le_trans ?_ a, le_trans b ?_⟩
  · rw [pow_succ', mul_assoc]
    exact mul_le_mul_of_nonneg_left h.lower (by linarith)
  · rw [pow_succ', mul_assoc]
    exact mul_le_mul_of_nonneg_left h.upper (by linarith)

theorem sum_near (hfl : Rounds u fl) (hu : 0 ≤ u) (hu1 : u ≤ 1) {β : Type} (t' t : β → ℝ) (k : Nat) (l : List β)
    (h : ∀ x ∈ l, Near u k (t' x) (t x)) :
    Near u (k + l.length) (l.foldl (fun s x => fl (s + t' x)) 0) (l.map t).sum := by
  have key : ∀ (l : List β) (k m : Nat) (s' s : ℝ), k ≤ m → (∀ x ∈ l, Near u k (t' x) (t x)) → Near u m s' s →
      Near u (m + l.length) (l.foldl (fun s x => fl (s + t' x)) s') (s + (l.map t).sum) := by
    intro l
    induction l with
    | nil => intro k m s' s _ _ hs; simpa using hs
    | cons x l ih =>
      intro k m s' s hkm hl hs
      have h1 := (hs.add ((hl x (by simp)).mono hu hu1 hkm)).round hfl hu hu1
      have := ih k (m + 1) _ _ (by omega) (fun y hy => hl y (by simp [hy])) h1
      simpa [add_assoc, add_comm, add_left_comm] using this
  simpa using key l k k 0 0 le_rfl h (Near.zero k)

/-! ## The norms -/

/-- the exact value of the block -/
def exactBlock (points : List Point) : ℝ := (points.map fun q => (q.values.map fun x => q.factor * x * x).sum).sum

/-- the factors are not negative, and the numbers of points and components are bounded -/
def Fits (Q D : Nat) (points : List Point) : Prop := points.length ≤ Q ∧ ∀ q ∈ points, 0 ≤ q.factor ∧ q.values.length ≤ D

theorem square_near (hfl : Rounds u fl) (hu : 0 ≤ u) (hu1 : u ≤ 1) {f : ℝ} (hf : 0 ≤ f) (x : ℝ) :
    Near u 2 (fl (fl (f * x) * x)) (f * x * x) := by
  have h0 : 0 ≤ f * x * x := by
    rw [mul_assoc]
    exact mul_nonneg hf (mul_self_nonneg x)
  have h1 : Near u 1 (fl (f * x) * x) (f * x * x) := by
    have h := hfl (f * x)
    have h2 : |(fl (f * x) - f * x) * x| ≤ u * (f * x * x) := by
      rw [abs_mul]
      refine le_trans (mul_le_mul_of_nonneg_right h (abs_nonneg x)) ?_
      rw [mul_assoc, ← abs_mul, abs_of_nonneg h0]
    have h3 := abs_le.mp h2
    refine ⟨h0, ?_, ?_⟩ <;> rw [pow_one] <;> nlinarith [h3.1, h3.2]
  exact h1.round hfl hu hu1

theorem block_near (hfl : Rounds u fl) (hu : 0 ≤ u) (hu1 : u ≤ 1) {Q D : Nat} {points : List Point} (h : Fits Q D points) :
    Near u (2 + D + Q) (block fl points) (exactBlock points) := by
  have ht : ∀ q ∈ points, Near u (2 + D) (term fl q) (q.values.map fun x => q.factor * x * x).sum := by
    intro q hq
    refine (sum_near hfl hu hu1 (fun x => fl (fl (q.factor * x) * x)) (fun x => q.factor * x * x) 2 q.values
      fun x _ => square_near hfl hu hu1 (h.2 q hq).1 x).mono hu hu1 ?_
    have := (h.2 q hq).2
    omega
  refine (sum_near hfl hu hu1 _ _ (2 + D) points ht).mono hu hu1 ?_
  have := h.1
  omega

/-- **C147.**  The sum under the root is accurate whatever the fields are, in particular it is not negative. -/
theorem l2Sum_near (hfl : Rounds u fl) (hu : 0 ≤ u) (hu1 : u ≤ 1) {Q D : Nat} (elements : List (List Point))
    (h : ∀ e ∈ elements, Fits Q D e) :
    Near u (2 + D + Q + elements.length) (l2Sum fl elements) (elements.map exactBlock).sum :=
  sum_near hfl hu hu1 (block fl) exactBlock (2 + D + Q) elements fun e he => block_near hfl hu hu1 (h e he)

@[inherit_doc l2Sum_near]
theorem h1Sum_near (hfl : Rounds u fl) (hu : 0 ≤ u) (hu1 : u ≤ 1) {Q D : Nat} (elements : List (List Point × List Point))
    (h : ∀ e ∈ elements, Fits Q D e.1 ∧ Fits Q D e.2) :
    Near u (3 + D + Q + elements.length) (h1Sum fl elements) (elements.map fun e => exactBlock e.1 + exactBlock e.2).sum := by
  refine (sum_near hfl hu hu1 _ _ (2 + D + Q + 1) elements fun e he =>
    ((block_near hfl hu hu1 (h e he).1).add (block_near hfl hu hu1 (h e he).2)).round hfl hu hu1).mono hu hu1 ?_
  omega

/-- the root and its rounding -/
theorem root_near (hfl : Rounds u fl) (hu : 0 ≤ u) (hu1 : u ≤ 1) {k : Nat} {x' x : ℝ} (h : Near u k x' x) :
    ∃ r, root fl x' = some r ∧ Near u (k + 1) r (Real.sqrt x) := by
  refine ⟨_, if_pos (h.computed_nonneg hu1), Near.round hfl hu hu1 ⟨Real.sqrt_nonneg x, ?_, ?_⟩⟩
  · refine Real.le_sqrt_of_sq_le (le_trans ?_ h.lower)
    rw [mul_pow, Real.sq_sqrt h.nonneg]
    have h0 : 0 ≤ (1 - u) ^ k := pow_nonneg (by linarith) k
    have h1 : (1 - u) ^ k ≤ 1 := pow_le_one₀ (by linarith) (by linarith)
    exact mul_le_mul_of_nonneg_right (by nlinarith) h.nonneg
  · refine Real.sqrt_le_iff.mpr ⟨mul_nonneg (pow_nonneg (by linarith) k) (Real.sqrt_nonneg x), le_trans h.upper ?_⟩
    rw [mul_pow, Real.sq_sqrt h.nonneg]
    have h1 : 1 ≤ (1 + u) ^ k := one_le_pow₀ (by linarith)
    exact mul_le_mul_of_nonneg_right (by nlinarith) h.nonneg

/-- **C147.**  The norm is a number, with a relative error that is bounded whatever the fields are. -/
theorem l2_near (hfl : Rounds u fl) (hu : 0 ≤ u) (hu1 : u ≤ 1) {Q D : Nat} (elements : List (List Point)) (h : ∀ e ∈ elements, Fits Q D e) :
    ∃ r, l2 fl elements = some r ∧ Near u (3 + D + Q + elements.length) r (Real.sqrt (elements.map exactBlock).sum) := by
  obtain ⟨r, hr, hn⟩ := root_near hfl hu hu1 (l2Sum_near hfl hu hu1 elements h)
  exact ⟨r, hr, hn.mono hu hu1 (by omega)⟩

@[inherit_doc l2_near]
theorem h1_near (hfl : Rounds u fl) (hu : 0 ≤ u) (hu1 : u ≤ 1) {Q D : Nat} (elements : List (List Point × List Point))
    (h : ∀ e ∈ elements, Fits Q D e.1 ∧ Fits Q D e.2) :
    ∃ r, h1 fl elements = some r ∧
      Near u (4 + D + Q + elements.length) r (Real.sqrt (elements.map fun e => exactBlock e.1 + exactBlock e.2).sum) := by
  obtain ⟨r, hr, hn⟩ := root_near hfl hu hu1 (h1Sum_near hfl hu hu1 elements h)
  exact ⟨r, hr, hn.mono hu hu1 (by omega)⟩

theorem Near.eq_zero_iff (hu1 : u < 1) {k : Nat} {x' x : ℝ} (h : Near u k x' x) : x' = 0 ↔ x = 0 := by
  constructor
  · intro h0
    have h1 := h.lower
    rw [h0] at h1
    have hp : 0 < (1 - u) ^ k := pow_pos (by linarith) k
    by_contra hn
    have := mul_pos hp (lt_of_le_of_ne h.nonneg (Ne.symm hn))
    linarith
  · intro h0
    have h1 := h.lower
    have h2 := h.upper
    rw [h0, mul_zero] at h1 h2
    linarith

/-- a sum of numbers that are not negative is zero iff they all are -/
theorem sum_zero_iff {β : Type} (t : β → ℝ) (l : List β) (h : ∀ x ∈ l, 0 ≤ t x) : (l.map t).sum = 0 ↔ ∀ x ∈ l, t x = 0 := by
  induction l with
  | nil => simp
  | cons a l ih =>
    have h1 : 0 ≤ (l.map t).sum := List.sum_nonneg (by simpa using fun x hx => h x (by simp [hx]))
    have h2 := h a (by simp)
    rw [List.map_cons, List.sum_cons, add_eq_zero_iff_of_nonneg h2 h1, ih fun x hx => h x (by simp [hx])]
    simp

theorem exactBlock_nonneg {points : List Point} (hp : ∀ q ∈ points, 0 < q.factor) : 0 ≤ exactBlock points := by
  refine List.sum_nonneg fun y hy => ?_
  obtain ⟨q, hq, rfl⟩ := List.mem_map.mp hy
  refine List.sum_nonneg fun z hz => ?_
  obtain ⟨x, -, rfl⟩ := List.mem_map.mp hz
  rw [mul_assoc]
  exact mul_nonneg (hp q hq).le (mul_self_nonneg x)

theorem exactBlock_zero_iff {points : List Point} (hp : ∀ q ∈ points, 0 < q.factor) :
    exactBlock points = 0 ↔ ∀ q ∈ points, ∀ x ∈ q.values, x = 0 := by
  have hq : ∀ q ∈ points, ∀ x ∈ q.values, 0 ≤ q.factor * x * x := fun q hq x _ => by
    rw [mul_assoc]
    exact mul_nonneg (hp q hq).le (mul_self_nonneg x)
  unfold exactBlock
  rw [sum_zero_iff _ _ fun q h => List.sum_nonneg (by simpa using hq q h)]
  refine forall₂_congr fun q h => ?_
  rw [sum_zero_iff _ _ (hq q h)]
  refine forall₂_congr fun x _ => ?_
  have := (hp q h).ne'
  simp [this]

/-- **C147.**  With positive factors the computed norm is zero exactly if the difference is zero at all points. -/
theorem l2_zero_iff (hfl : Rounds u fl) (hu : 0 ≤ u) (hu1 : u < 1) {Q D : Nat} (elements : List (List Point)) (h : ∀ e ∈ elements, Fits Q D e)
    (hp : ∀ e ∈ elements, ∀ q ∈ e, 0 < q.factor) :
    l2 fl elements = some 0 ↔ ∀ e ∈ elements, ∀ q ∈ e, ∀ x ∈ q.values, x = 0 := by
  obtain ⟨r, hr, hn⟩ := l2_near hfl hu hu1.le elements h
  rw [hr, Option.some_inj, hn.eq_zero_iff hu1, Real.sqrt_eq_zero (l2Sum_near hfl hu hu1.le elements h).nonneg,
    sum_zero_iff _ _ fun e he => exactBlock_nonneg (hp e he)]
  exact forall₂_congr fun e he => exactBlock_zero_iff (hp e he)

@[inherit_doc l2_zero_iff]
theorem h1_zero_iff (hfl : Rounds u fl) (hu : 0 ≤ u) (hu1 : u < 1) {Q D : Nat} (elements : List (List Point × List Point))
    (h : ∀ e ∈ elements, Fits Q D e.1 ∧ Fits Q D e.2)
    (hp : ∀ e ∈ elements, (∀ q ∈ e.1, 0 < q.factor) ∧ ∀ q ∈ e.2, 0 < q.factor) :
    h1 fl elements = some 0 ↔
      ∀ e ∈ elements, (∀ q ∈ e.1, ∀ x ∈ q.values, x = 0) ∧ ∀ q ∈ e.2, ∀ x ∈ q.values, x = 0 := by
  obtain ⟨r, hr, hn⟩ := h1_near hfl hu hu1.le elements h
  rw [hr, Option.some_inj, hn.eq_zero_iff hu1, Real.sqrt_eq_zero (h1Sum_near hfl hu hu1.le elements h).nonneg,
    sum_zero_iff _ _ fun e he => add_nonneg (exactBlock_nonneg (hp e he).1) (exactBlock_nonneg (hp e he).2)]
  refine forall₂_congr fun e he => ?_
  rw [add_eq_zero_iff_of_nonneg (exactBlock_nonneg (hp e he).1) (exactBlock_nonneg (hp e he).2), exactBlock_zero_iff (hp e he).1,
    exactBlock_zero_iff (hp e he).2]

theorem Near.relative (hu : 0 ≤ u) (hu1 : u ≤ 1) {k : Nat} (hk : k * u ≤ 1 / 2) {x' x : ℝ} (h : Near u k x' x) : |x' - x| ≤ 2 * k * u * x := by
  have h1 : 1 - k * u ≤ (1 - u) ^ k := by
    have := one_add_mul_le_pow (a := -u) (by linarith) k
    rw [← sub_eq_add_neg] at this
    linarith
  have h2 : (1 + u) ^ k * (1 - u) ^ k ≤ 1 := by
    rw [← mul_pow]
    exact pow_le_one₀ (mul_nonneg (by linarith) (by linarith)) (by nlinarith)
  have hku : 0 ≤ k * u := mul_nonneg (Nat.cast_nonneg k) hu
  have h3 : (1 + u) ^ k ≤ 1 + 2 * (k * u) := by
    have h4 : (1 + u) ^ k * (1 - k * u) ≤ 1 := le_trans (mul_le_mul_of_nonneg_left h1 (pow_nonneg (by linarith) k)) h2
    by_contra hc
    nlinarith [not_le.mp hc]
  have l := le_trans (mul_le_mul_of_nonneg_right h1 h.nonneg) h.lower
  have r := le_trans h.upper (mul_le_mul_of_nonneg_right h3 h.nonneg)
  have := mul_nonneg hku h.nonneg
  refine abs_le.mpr ⟨?_, ?_⟩ <;> linarith

/-- **C147.**  For doubles and a million elements with up to 16 points and 9 components nine digits of the norm are right. -/
theorem l2_double (elements : List (List Point)) (h : ∀ e ∈ elements, Fits 16 9 e) (hl : elements.length ≤ 1000000) :
    ∃ r, l2 nearest elements = some r ∧
      |r - Real.sqrt (elements.map exactBlock).sum| ≤ 1 / 10 ^ 9 * Real.sqrt (elements.map exactBlock).sum := by
  have hu : (0 : ℝ) ≤ 2 ^ (-53 : ℤ) := by positivity
  have hu1 : (2 : ℝ) ^ (-53 : ℤ) ≤ 1 := by norm_num
  obtain ⟨r, hr, hn⟩ := l2_near nearest_rounds hu hu1 elements h
  refine ⟨r, hr, ?_⟩
  have hm := hn.mono hu hu1 (l := 1000028) (by omega)
  refine le_trans (hm.relative hu hu1 (by norm_num)) (mul_le_mul_of_nonneg_right (by norm_num) (Real.sqrt_nonneg _))

@[inherit_doc l2_double]
theorem h1_double (elements : List (List Point × List Point)) (h : ∀ e ∈ elements, Fits 16 9 e.1 ∧ Fits 16 9 e.2) (hl : elements.length ≤ 1000000) :
    ∃ r, h1 nearest elements = some r ∧ |r - Real.sqrt (elements.map fun e => exactBlock e.1 + exactBlock e.2).sum| ≤
      1 / 10 ^ 9 * Real.sqrt (elements.map fun e => exactBlock e.1 + exactBlock e.2).sum := by
  have hu : (0 : ℝ) ≤ 2 ^ (-53 : ℤ) := by positivity
  have hu1 : (2 : ℝ) ^ (-53 : ℤ) ≤ 1 := by norm_num
  obtain ⟨r, hr, hn⟩ := h1_near nearest_rounds hu hu1 elements h
  refine ⟨r, hr, ?_⟩
  have hm := hn.mono hu hu1 (l := 1000029) (by omega)
  refine le_trans (hm.relative hu hu1 (by norm_num)) (mul_le_mul_of_nonneg_right (by norm_num) (Real.sqrt_nonneg _))

/-- **C147.**  Without the condition on the factors (the determinants of inverted elements are negative) the norm can be a NaN. -/
theorem l2_inverted (hfl : Rounds u fl) (hu : 0 ≤ u) (hu1 : u < 1) : l2 fl [[⟨-1, [1]⟩]] = none := by
  have neg : ∀ x, x < 0 → fl x < 0 := fun x hx => by
    have h := (abs_le.mp (hfl x)).2
    rw [abs_of_neg hx] at h
    nlinarith
  refine if_neg (not_le.mpr ?_)
  have h1 := neg (-1) (by norm_num)
  simp only [l2Sum, block, term, List.foldl_cons, List.foldl_nil, mul_one, zero_add]
  exact neg _ (neg _ (neg _ (neg _ h1)))

/-- the hypotheses can be met: exact arithmetic, one element with one point -/
example : Rounds 0 id ∧ (∀ e ∈ [[(⟨2, [3]⟩ : Point)]], Fits 1 1 e) ∧ ∀ e ∈ [[(⟨2, [3]⟩ : Point)]], ∀ q ∈ e, 0 < q.factor := by
  refine ⟨fun x => by simp, ?_, ?_⟩ <;> simp [Fits]

end Mito.RoundedNorms
