import Verif.Spec.Quadrature
import Mathlib.Analysis.SpecialFunctions.Integrals.Basic
import Mathlib.Algebra.MvPolynomial.Eval
import Mathlib.Tactic.FinCases
import Mathlib.Tactic.FieldSimp
import Mathlib.Tactic.LinearCombination

/-! # Helper lemmas on quadrature tables -/

namespace Mito.Quadrature

open MeasureTheory

/-! ## Moments -/

/-- `∫₀ˢ y^j (s - y)^k dy` -/
theorem beta (s : ℝ) (j k : Nat) :
    ∫ y in (0 : ℝ)..s, y ^ j * (s - y) ^ k = (j.factorial * k.factorial : ℝ) / (j + k + 1).factorial * s ^ (j + k + 1) := by
  induction j generalizing k with
  | zero =>
    have hd : ∀ y ∈ Set.uIcc (0 : ℝ) s, HasDerivAt (fun y => -(s - y) ^ (k + 1) / (k + 1)) ((s - y) ^ k) y := by
      intro y _
      have h := (((hasDerivAt_id y).const_sub s).pow (k + 1)).neg.div_const ((k : ℝ) + 1)
      refine HasDerivAt.congr_deriv h ?_
      have : (k : ℝ) + 1 ≠ 0 := by positivity
      simp
      field_simp
    have hc : IntervalIntegrable (fun y : ℝ => (s - y) ^ k) volume 0 s := (by fun_prop : Continuous fun y : ℝ => (s - y) ^ k).intervalIntegrable _ _
    have := intervalIntegral.integral_eq_sub_of_hasDerivAt hd hc
    simp only [pow_zero, one_mul, this, Nat.zero_add, Nat.factorial_zero, Nat.factorial_succ, Nat.cast_one, Nat.cast_mul]
    have h1 : (k : ℝ) + 1 ≠ 0 := by positivity
    have h2 : (k.factorial : ℝ) ≠ 0 := by positivity
    push_cast
    field_simp
    simp
  | succ j ih =>
    have hd : ∀ y ∈ Set.uIcc (0 : ℝ) s, HasDerivAt (fun y => y ^ (j + 1) * (s - y) ^ (k + 1))
        (((j : ℝ) + 1) * (y ^ j * (s - y) ^ (k + 1)) - ((k : ℝ) + 1) * (y ^ (j + 1) * (s - y) ^ k)) y := by
      intro y _
      have h := ((hasDerivAt_id y).pow (j + 1)).mul (((hasDerivAt_id y).const_sub s).pow (k + 1))
      refine HasDerivAt.congr_deriv h ?_
      simp
      ring
    have hc1 : IntervalIntegrable (fun y : ℝ => ((j : ℝ) + 1) * (y ^ j * (s - y) ^ (k + 1))) volume 0 s :=
      (by fun_prop : Continuous fun y : ℝ => ((j : ℝ) + 1) * (y ^ j * (s - y) ^ (k + 1))).intervalIntegrable _ _
    have hc2 : IntervalIntegrable (fun y : ℝ => ((k : ℝ) + 1) * (y ^ (j + 1) * (s - y) ^ k)) volume 0 s :=
      (by fun_prop : Continuous fun y : ℝ => ((k : ℝ) + 1) * (y ^ (j + 1) * (s - y) ^ k)).intervalIntegrable _ _
    have := intervalIntegral.integral_eq_sub_of_hasDerivAt hd (hc1.sub hc2)
    rw [intervalIntegral.integral_sub hc1 hc2, intervalIntegral.integral_const_mul, intervalIntegral.integral_const_mul, ih] at this
    have h1 : (k : ℝ) + 1 ≠ 0 := by positivity
    have h3 : ((j + (k + 1) + 1).factorial : ℝ) ≠ 0 := by positivity
    have h4 : j + 1 + k + 1 = j + (k + 1) + 1 := by omega
    rw [h4]
    have h5 : (k + 1 : ℝ) * ∫ y in (0 : ℝ)..s, y ^ (j + 1) * (s - y) ^ k =
        (j + 1) * ((j.factorial * (k + 1).factorial : ℝ) / (j + (k + 1) + 1).factorial * s ^ (j + (k + 1) + 1)) := by
      have h6 : s ^ (j + 1) * (s - s) ^ (k + 1) - 0 ^ (j + 1) * (s - 0) ^ (k + 1) = 0 := by simp
      linarith
    refine mul_left_cancel₀ h1 (h5.trans ?_)
    simp only [Nat.factorial_succ j, Nat.factorial_succ k]
    push_cast
    field_simp

/-- the means of the monomials -/
def moment {d : Nat} (α : Fin d → Nat) : ℚ := (d.factorial * ∏ i, (α i).factorial : ℚ) / (∑ i, α i + d).factorial

/-- the rule on a monomial -/
def monomial {d : Nat} (t : Table d) (α : Fin d → Nat) : ℚ := (t.map fun p => p.2 * ∏ i, p.1 i ^ α i).sum

theorem apply_monomial {d : Nat} (t : Table d) (α : Fin d → Nat) :
    apply t (fun x => ∏ i, x i ^ α i) = (monomial t α : ℝ) := by
  simp only [apply, Table.rule, monomial, List.map_map]
  induction t with
  | nil => simp
  | cons p t ih => simp [ih]

theorem apply_sum {d : Nat} {ι : Type} (t : Table d) (s : Finset ι) (c : ι → ℝ) (f : ι → (Fin d → ℝ) → ℝ) :
    apply t (fun x => ∑ i ∈ s, c i * f i x) = ∑ i ∈ s, c i * apply t (f i) := by
  simp only [apply]
  induction t.rule with
  | nil => simp
  | cons p l ih =>
    rw [List.map_cons, List.sum_cons, ih]
    simp only [List.map_cons, List.sum_cons, mul_add, Finset.sum_add_distrib, Finset.mul_sum]
    congr 1
    exact Finset.sum_congr rfl fun i _ => by ring

/-- a mean that is linear on polynomials and has these moments -/
def IsMean {d : Nat} (mean : ((Fin d → ℝ) → ℝ) → ℝ) : Prop :=
  ∀ p : MvPolynomial (Fin d) ℝ, mean (fun x => MvPolynomial.eval x p) = ∑ m ∈ p.support, p.coeff m * (moment m : ℝ)

theorem accurate_of_monomials {d : Nat} {mean : ((Fin d → ℝ) → ℝ) → ℝ} (hm : IsMean mean) {t : Table d} {r : Nat} {ε : ℚ}
    (h : ∀ α : Fin d → Nat, ∑ i, α i ≤ r → |monomial t α - moment α| ≤ ε) : Accurate mean t r ε := by
  intro p hp
  rw [hm p]
  have h1 : (fun x => MvPolynomial.eval x p) = fun x => ∑ m ∈ p.support, p.coeff m * ∏ i, x i ^ m i := by
    funext x
    rw [MvPolynomial.eval_eq']
  rw [h1, apply_sum, ← Finset.sum_sub_distrib, size, Finset.mul_sum]
  refine (Finset.abs_sum_le_sum_abs _ _).trans (Finset.sum_le_sum fun m hms => ?_)
  rw [← mul_sub, abs_mul, mul_comm, apply_monomial]
  refine mul_le_mul_of_nonneg_right ?_ (abs_nonneg _)
  have h2 := h m (by
    refine le_trans ?_ ((MvPolynomial.le_totalDegree hms).trans hp)
    rw [Finsupp.sum_fintype _ _ (by simp)])
  exact_mod_cast h2

theorem not_accurate {d : Nat} {mean : ((Fin d → ℝ) → ℝ) → ℝ} (hm : IsMean mean) {t : Table d} {r : Nat} {ε : ℚ}
    (α : Fin d → Nat) (hα : ∑ i, α i ≤ r) (h : ε < monomial t α - moment α ∨ ε < moment α - monomial t α) :
    ¬ Accurate mean t r ε := by
  intro hacc
  have h1 := hacc (MvPolynomial.monomial (Finsupp.equivFunOnFinite.symm α) 1) (by
    rw [MvPolynomial.totalDegree_monomial _ one_ne_zero, Finsupp.sum_fintype _ _ (by simp)]
    exact hα)
  rw [hm] at h1
  have hs : (MvPolynomial.monomial (Finsupp.equivFunOnFinite.symm α) (1 : ℝ)).support = {Finsupp.equivFunOnFinite.symm α} := by
    rw [MvPolynomial.support_monomial, if_neg one_ne_zero]
  have he : (fun x => MvPolynomial.eval x (MvPolynomial.monomial (Finsupp.equivFunOnFinite.symm α) (1 : ℝ))) =
      fun x => ∏ i, x i ^ α i := by
    funext x
    rw [MvPolynomial.eval_monomial, Finsupp.prod_fintype _ _ (by simp)]
    simp
  rw [size, hs, he, apply_monomial] at h1
  simp only [Finset.sum_singleton, MvPolynomial.coeff_monomial, if_true, one_mul, abs_one, mul_one] at h1
  have h2 : |monomial t α - moment α| ≤ ε := by exact_mod_cast h1
  obtain ⟨h3, h4⟩ := abs_le.mp h2
  rcases h with h | h <;> linarith

/-! ## The means -/

theorem mean1_isMean : IsMean mean1 := by
  intro p
  simp only [mean1, MvPolynomial.eval_eq']
  rw [intervalIntegral.integral_finset_sum]
  · refine Finset.sum_congr rfl fun m _ => ?_
    have := beta 1 (m 0) 0
    simp only [pow_zero, mul_one, one_pow] at this
    rw [intervalIntegral.integral_const_mul]
    simp only [Fin.prod_univ_one, Matrix.cons_val_zero, moment, Fin.sum_univ_one]
    rw [this]
    simp
  · intro m _
    refine Continuous.intervalIntegrable ?_ _ _
    simp only [Fin.prod_univ_one, Matrix.cons_val_zero]
    fun_prop

theorem mean2_isMean : IsMean mean2 := by
  intro p
  have h1 : ∀ x : ℝ, ∫ y in (0 : ℝ)..1 - x, MvPolynomial.eval ![x, y] p =
      ∑ m ∈ p.support, (p.coeff m * (((m 1).factorial : ℝ) / (m 1 + 1).factorial)) * (x ^ m 0 * (1 - x) ^ (m 1 + 1)) := by
    intro x
    simp only [MvPolynomial.eval_eq']
    rw [intervalIntegral.integral_finset_sum]
    · refine Finset.sum_congr rfl fun m _ => ?_
      have := beta (1 - x) (m 1) 0
      simp only [pow_zero, mul_one] at this
      simp only [Fin.prod_univ_two, Matrix.cons_val_zero, Matrix.cons_val_one]
      rw [intervalIntegral.integral_const_mul, intervalIntegral.integral_const_mul, this]
      simp
      ring
    · intro m _
      refine Continuous.intervalIntegrable ?_ _ _
      simp only [Fin.prod_univ_two, Matrix.cons_val_zero, Matrix.cons_val_one]
      fun_prop
  simp only [mean2, h1]
  rw [intervalIntegral.integral_finset_sum, Finset.mul_sum]
  · refine Finset.sum_congr rfl fun m _ => ?_
    rw [intervalIntegral.integral_const_mul, beta]
    simp only [moment, Fin.sum_univ_two, Fin.prod_univ_two, one_pow, mul_one]
    have : m 0 + (m 1 + 1) + 1 = m 0 + m 1 + 2 := by omega
    rw [this]
    push_cast
    have h2 : ((m 1 + 1).factorial : ℝ) ≠ 0 := by positivity
    have h3 : ((m 0 + m 1 + 2).factorial : ℝ) ≠ 0 := by positivity
    field_simp
    simp [Nat.factorial]
    try ring
  · intro m _
    refine Continuous.intervalIntegrable ?_ _ _
    fun_prop

theorem mean3_isMean : IsMean mean3 := by
  intro p
  have h1 : ∀ x y : ℝ, ∫ z in (0 : ℝ)..1 - x - y, MvPolynomial.eval ![x, y, z] p =
      ∑ m ∈ p.support, (p.coeff m * (((m 2).factorial : ℝ) / (m 2 + 1).factorial) * x ^ m 0) *
        (y ^ m 1 * (1 - x - y) ^ (m 2 + 1)) := by
    intro x y
    simp only [MvPolynomial.eval_eq']
    rw [intervalIntegral.integral_finset_sum]
    · refine Finset.sum_congr rfl fun m _ => ?_
      have := beta (1 - x - y) (m 2) 0
      simp only [pow_zero, mul_one] at this
      simp only [Fin.prod_univ_three, Matrix.cons_val_zero, Matrix.cons_val_one, Matrix.cons_val]
      rw [intervalIntegral.integral_const_mul, intervalIntegral.integral_const_mul, this]
      simp
      ring
    · intro m _
      refine Continuous.intervalIntegrable ?_ _ _
      simp only [Fin.prod_univ_three, Matrix.cons_val_zero, Matrix.cons_val_one, Matrix.cons_val]
      fun_prop
  have h2 : ∀ x : ℝ, ∫ y in (0 : ℝ)..1 - x, ∑ m ∈ p.support, (p.coeff m * (((m 2).factorial : ℝ) / (m 2 + 1).factorial) *
        x ^ m 0) * (y ^ m 1 * (1 - x - y) ^ (m 2 + 1)) =
      ∑ m ∈ p.support, (p.coeff m * (((m 2).factorial : ℝ) / (m 2 + 1).factorial) *
        (((m 1).factorial * (m 2 + 1).factorial : ℝ) / (m 1 + (m 2 + 1) + 1).factorial)) *
        (x ^ m 0 * (1 - x) ^ (m 1 + (m 2 + 1) + 1)) := by
    intro x
    rw [intervalIntegral.integral_finset_sum]
    · refine Finset.sum_congr rfl fun m _ => ?_
      rw [intervalIntegral.integral_const_mul, beta]
      ring
    · intro m _
      refine Continuous.intervalIntegrable ?_ _ _
      fun_prop
  simp only [mean3, h1, h2]
  rw [intervalIntegral.integral_finset_sum, Finset.mul_sum]
  · refine Finset.sum_congr rfl fun m _ => ?_
    rw [intervalIntegral.integral_const_mul, beta]
    simp only [moment, Fin.sum_univ_three, Fin.prod_univ_three, one_pow, mul_one]
    have : m 0 + (m 1 + (m 2 + 1) + 1) + 1 = m 0 + m 1 + m 2 + 3 := by omega
    rw [this]
    push_cast
    have h2 : ((m 1 + (m 2 + 1) + 1).factorial : ℝ) ≠ 0 := by positivity
    have h3 : ((m 0 + m 1 + m 2 + 3).factorial : ℝ) ≠ 0 := by positivity
    have h4 : ((m 2 + 1).factorial : ℝ) ≠ 0 := by positivity
    field_simp
    simp [Nat.factorial]
    try ring
  · intro m _
    refine Continuous.intervalIntegrable ?_ _ _
    fun_prop

/-! ## Checking a table -/

theorem check1 {t : Table 1} {r : Nat} {ε : ℚ}
    (h : ∀ i, i < r + 1 → -ε ≤ monomial t ![i] - moment ![i] ∧ monomial t ![i] - moment ![i] ≤ ε)
    (α : Fin 1 → Nat) (hα : ∑ i, α i ≤ r) : |monomial t α - moment α| ≤ ε := by
  have : α = ![α 0] := by funext i; fin_cases i; rfl
  rw [this]
  rw [Fin.sum_univ_one] at hα
  exact abs_le.mpr (h _ (by omega))

theorem check2 {t : Table 2} {r : Nat} {ε : ℚ}
    (h : ∀ i, i < r + 1 → ∀ j, j < r + 1 - i →
      -ε ≤ monomial t ![i, j] - moment ![i, j] ∧ monomial t ![i, j] - moment ![i, j] ≤ ε)
    (α : Fin 2 → Nat) (hα : ∑ i, α i ≤ r) : |monomial t α - moment α| ≤ ε := by
  have : α = ![α 0, α 1] := by funext i; fin_cases i <;> rfl
  rw [this]
  rw [Fin.sum_univ_two] at hα
  exact abs_le.mpr (h _ (by omega) _ (by omega))

theorem check3 {t : Table 3} {r : Nat} {ε : ℚ}
    (h : ∀ i, i < r + 1 → ∀ j, j < r + 1 - i → ∀ k, k < r + 1 - i - j →
      -ε ≤ monomial t ![i, j, k] - moment ![i, j, k] ∧ monomial t ![i, j, k] - moment ![i, j, k] ≤ ε)
    (α : Fin 3 → Nat) (hα : ∑ i, α i ≤ r) : |monomial t α - moment α| ≤ ε := by
  have : α = ![α 0, α 1, α 2] := by funext i; fin_cases i <;> rfl
  rw [this]
  rw [Fin.sum_univ_three] at hα
  exact abs_le.mpr (h _ (by omega) _ (by omega) _ (by omega))

end Mito.Quadrature
