import Verif.Functions.Quotients
import Verif.Functions.NearestLemmas
import Verif.Quadrature.DoublesLemmas
import Mathlib.Analysis.Real.Pi.Bounds

/-! # C155: sums, products and quotients of functions and constants in double arithmetic -/

namespace Mito.Functions

open Quadrature

/-- C155.  Without rounding these are the functions of the library and their derivatives. -/
theorem term_exact (f : Term ℝ) (x : ℝ) :
    f.derivative.expr = f.expr.derivative () ∧ f.run id (fun w => match w with | .sin => Real.sin x | .cos => Real.cos x) = f.expr.eval (sc x) () := by
  constructor
  · induction f with
    | wave w => cases w <;> rfl
    | plusConst f a ih => simpa [Term.derivative, Term.expr, Expr.derivative] using ih
    | constTimes a f ih => simp [Term.derivative, Term.expr, Expr.derivative, ih]
    | timesConst f a ih => simp [Term.derivative, Term.expr, Expr.derivative, ih]
  · induction f with
    | wave w => cases w <;> rfl
    | plusConst f a ih => simp [Term.run, Term.expr, Expr.eval, ih]
    | constTimes a f ih => simp [Term.run, Term.expr, Expr.eval, mul, ih]
    | timesConst f a ih => simp [Term.run, Term.expr, Expr.eval, mul, ih]

section
variable {fl : ℝ → ℝ} (hfl : Nearest fl) {v : Wave → ℝ} (hv : ∀ w, IsDouble (v w))
include hfl hv

/-- C155.  The tests of sums, products, differences and repeated derivatives pass for all constants and at all points, whatever the values of sine
and cosine are. -/
theorem constants_tests_pass (a : ℝ) :
    (∀ p ∈ plusTest fl v a, p.1 = p.2) ∧ (∀ p ∈ timesTest fl v a, p.1 = p.2) ∧ (∀ p ∈ minusTest fl v a, p.1 = p.2) ∧ ∀ p ∈ higherTest fl v, p.1 = p.2 := by
  have hn : ∀ w, fl (-v w) = -v w := fun w => hfl.self (hv w).neg
  have hp : ∀ w, fl (v w) = v w := fun w => hfl.self (hv w)
  refine ⟨?_, ?_, ?_, ?_⟩ <;>
    simp [plusTest, timesTest, minusTest, higherTest, sine, Term.run, Term.derivative, Term.neg, Term.constSub, Term.subConst, hn, hp, mul_comm, add_comm, sub_eq_add_neg]

/-- C155.  Divisions by powers of two are exact, and the test of division passes for them. -/
theorem divide_power_of_two (k : ℤ) : (∀ w, (Term.divConst fl (.wave w) ((2 : ℝ) ^ k)).run fl v = v w / 2 ^ k) ∧
    ∀ p ∈ divideTest fl v ((2 : ℝ) ^ k), p.1 = p.2 := by
  have hi : fl (1 / (2 : ℝ) ^ k) = 2 ^ (-k) := by
    rw [one_div, ← zpow_neg]
    exact hfl.self ⟨1, -k, by norm_num, by simp⟩
  have hd : ∀ w, fl ((2 : ℝ) ^ (-k) * v w) = 2 ^ (-k) * v w := by
    intro w
    obtain ⟨m, e, hm, h⟩ := hv w
    refine hfl.self ⟨m, e - k, hm, ?_⟩
    rw [h, sub_eq_add_neg, zpow_add₀ (by norm_num)]
    ring
  constructor
  · intro w
    rw [Term.divConst, Term.run, Term.run, hi, hd, zpow_neg, div_eq_mul_inv, mul_comm]
  · have hq : ∀ x : ℝ, x / 2 ^ k = 2 ^ (-k) * x := fun x => by rw [zpow_neg, div_eq_mul_inv, mul_comm]
    simp only [divideTest, sine, Term.run, Term.derivative, Term.neg, Term.divConst, hi]
    simp [hq]

end

/-- C155.  With a relative error `u` of every operation the quotient of a function and a constant has an error of at most `2 u + u²`, with that of
the division alone it would be `u`. -/
theorem divide_error {u : ℝ} (hu : 0 ≤ u) {fl : ℝ → ℝ} (hfl : Rounds u fl) (v : Wave → ℝ) (w : Wave) (a : ℝ) :
    |(Term.divConst fl (.wave w) a).run fl v - v w / a| ≤ ((1 + u) ^ 2 - 1) * |v w / a| := by
  rw [Term.divConst, Term.run, Term.run]
  have h1 := hfl (1 / a)
  have h2 := hfl (fl (1 / a) * v w)
  have e1 : fl (1 / a) * v w - v w / a = (fl (1 / a) - 1 / a) * v w := by ring
  have e2 : |v w / a| = |1 / a| * |v w| := by rw [← abs_mul]; congr 1; ring
  have h3 : |fl (1 / a) * v w - v w / a| ≤ u * |v w / a| := by
    rw [e1, abs_mul, e2, ← mul_assoc]
    exact mul_le_mul_of_nonneg_right h1 (abs_nonneg _)
  have h4 : |fl (1 / a) * v w| ≤ |v w / a| + u * |v w / a| := by
    have := abs_add_le (v w / a) (fl (1 / a) * v w - v w / a)
    rw [add_sub_cancel] at this
    linarith
  have h5 := abs_sub_le (fl (fl (1 / a) * v w)) (fl (1 / a) * v w) (v w / a)
  have h6 := mul_le_mul_of_nonneg_left h4 hu
  nlinarith

/-- the double nearest to π, and `pi / 6.0` in double arithmetic -/
theorem pi_sixth {fl : ℝ → ℝ} (hfl : Nearest fl) : fl Real.pi = ((7074237752028440 : ℤ) : ℝ) * (2 : ℝ) ^ (-51 : ℤ) ∧
    fl (fl Real.pi / 6) = ((4716158501352293 : ℤ) : ℝ) * (2 : ℝ) ^ (-53 : ℤ) := by
  have h1 := Real.pi_gt_d20
  have h2 := Real.pi_lt_d20
  have e : fl Real.pi = ((7074237752028440 : ℤ) : ℝ) * (2 : ℝ) ^ (-51 : ℤ) := by
    refine hfl.eq_of_near (by norm_num) (by norm_num) ?_
    rw [abs_lt]
    norm_num at h1 h2 ⊢
    constructor <;> linarith
  refine ⟨e, ?_⟩
  rw [e]
  refine hfl.eq_of_near (by norm_num) (by norm_num) ?_
  rw [abs_lt]
  norm_num

/-- C155.  The values in the test are the doubles nearest to sine and cosine at the double `pi / 6.0`. -/
theorem sixth_nearest {fl : ℝ → ℝ} (hfl : Nearest fl) :
    fl (Real.sin (fl (fl Real.pi / 6))) = (sixth .sin : ℚ) ∧ fl (Real.cos (fl (fl Real.pi / 6))) = (sixth .cos : ℚ) := by
  rw [(pi_sixth hfl).2]
  obtain ⟨t, ht⟩ : ∃ t, t = Real.pi / 6 - ((4716158501352293 : ℤ) : ℝ) * (2 : ℝ) ^ (-53 : ℤ) := ⟨_, rfl⟩
  have hx : ((4716158501352293 : ℤ) : ℝ) * (2 : ℝ) ^ (-53 : ℤ) = Real.pi / 6 - t := by rw [ht]; ring
  have p1 := Real.pi_gt_d20
  have p2 := Real.pi_lt_d20
  have t1 : 5.74e-17 < t := by rw [ht]; norm_num at p1 ⊢; linarith
  have t2 : t < 5.75e-17 := by rw [ht]; norm_num at p2 ⊢; linarith
  have t0 : 0 < t := lt_trans (by norm_num) t1
  have s2 := Real.sin_lt t0
  have s1 := Real.sin_gt_sub_cube t0
  have t3 : t ^ 3 / 6 < 1e-40 := by
    have : t ^ 3 < (5.75e-17) ^ 3 := pow_lt_pow_left₀ t2 t0.le (by norm_num)
    norm_num at this ⊢
    linarith
  have c1 := Real.one_sub_sq_div_two_le_cos (x := t)
  have c2 := Real.cos_le_one t
  have t4 : t ^ 2 / 2 < 1e-30 := by
    have : t ^ 2 < (5.75e-17) ^ 2 := pow_lt_pow_left₀ t2 t0.le (by norm_num)
    norm_num at this ⊢
    linarith
  have r1 : 1.7320508075688772935 < √3 := Real.lt_sqrt_of_sq_lt (by norm_num)
  have r2 : √3 < 1.7320508075688772936 := (Real.sqrt_lt' (by norm_num)).mpr (by norm_num)
  rw [hx, Real.sin_sub, Real.cos_sub, Real.sin_pi_div_six, Real.cos_pi_div_six]
  generalize Real.sin t = S at s1 s2 ⊢
  generalize Real.cos t = C at c1 c2 ⊢
  generalize √3 = r at r1 r2 ⊢
  have S1 : 5.73e-17 < S := by norm_num at t1 t3 ⊢; linarith
  have S2 : S < 5.75e-17 := s2.trans t2
  have C1 : 1 - 1e-30 < C := by linarith
  have u1 : 1.732 * 5.73e-17 ≤ r * S := mul_le_mul (by norm_num at r1 ⊢; linarith) S1.le (by norm_num) (by norm_num at r1 ⊢; linarith)
  have u2 : r * S ≤ 1.733 * 5.75e-17 := mul_le_mul (by norm_num at r2 ⊢; linarith) S2.le (by norm_num at S1 ⊢; linarith) (by norm_num)
  have u3 : r - 2e-30 ≤ r * C := by nlinarith
  have u4 : r * C ≤ r := by nlinarith
  constructor
  · have := hfl.eq_of_near (m := 9007199254740991) (q := -54) (y := 1 / 2 * C - r / 2 * S) (by norm_num) (by norm_num) (by
      rw [abs_lt]
      norm_num at *
      constructor <;> linarith)
    rw [this]
    norm_num [sixth]
  · have := hfl.eq_of_near (m := 7800463371553963) (q := -53) (y := r / 2 * C + 1 / 2 * S) (by norm_num) (by norm_num) (by
      rw [abs_lt]
      norm_num at *
      constructor <;> linarith)
    rw [this]
    norm_num [sixth]

/-- C155.  The test of division passes: at `pi / 6.0`, with the constant `0.1`. -/
theorem divide_test_passes : ∀ p ∈ divideTest rnd sixth (rnd (1 / 10)), p.1 = p.2 := by decide +kernel

/-- C155.  It would not with other constants: `(f / a)(x)` is not `f(x) / a`.  A function with the value `49.0` divided by `49.0` has not the
value `1.0`. -/
theorem divide_fails : (∃ p ∈ divideTest rnd sixth (rnd (7 / 10)), p.1 ≠ p.2) ∧ rnd 49 = 49 ∧ rnd (49 / 49) = 1 ∧
    (Term.divConst rnd (.wave .sin) 49).run rnd (fun _ => 49) = 1 - 1 / 2 ^ 53 := by decide +kernel

/-- C155.  The computed arithmetic is that of the rounding of IEEE 754. -/
theorem term_in_doubles (w : Wave) (v : Wave → ℚ) (a : ℚ) :
    (Term.divConst nearest (.wave w) (a : ℝ)).run nearest (fun w => (v w : ℝ)) = ((Term.divConst rnd (.wave w) a).run rnd v : ℚ) := by
  simp only [Term.divConst, Term.run]
  rw [rnd_cast]
  push_cast [rnd_cast]
  rfl

/-- non-vacuity: there is such a rounding, and values as in the theorems -/
example : Nearest nearest ∧ IsDouble (1 / 2) := ⟨nearest_nearest, 1, -1, by norm_num, by norm_num⟩

end Mito.Functions
