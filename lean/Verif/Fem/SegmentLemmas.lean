import Verif.Spec.SegmentConvergence
import Verif.Fem.EnergyLemmas
import Verif.Props.Blocks
import Mathlib.MeasureTheory.Integral.IntervalIntegral.FundThmCalculus
import Mathlib.MeasureTheory.Integral.IntervalIntegral.IntegrationByParts
import Mathlib.Analysis.Calculus.MeanValue
import Mathlib.Analysis.Calculus.ContDiff.Basic
import Mathlib.Analysis.Calculus.ContDiff.Deriv

/-! # Linear functions on a segment: integrals, interpolation and quadrature -/

namespace Mito.Fem

open Mito.Functions Mito.Geometry Mito.Quadrature MeasureTheory

/-- the slope of the linear function with the values `v` at the ends -/
noncomputable def rise (x : Fin 2 → Val (.vec 1)) (v : Fin 2 → ℝ) : ℝ := (v 1 - v 0) / length x

/-- the linear function with the values `v` at the ends -/
noncomputable def chord (x : Fin 2 → Val (.vec 1)) (v : Fin 2 → ℝ) (y : ℝ) : ℝ := v 0 + (y - x 0 0) * rise x v

variable {x : Fin 2 → Val (.vec 1)} {v w : Fin 2 → ℝ}

theorem chord_start : chord x v (x 0 0) = v 0 := by simp [chord]

theorem chord_end (hx : 0 < length x) : chord x v (x 1 0) = v 1 := by
  have : x 1 0 - x 0 0 = length x := rfl
  rw [chord, rise, this, mul_div_cancel₀ _ hx.ne']
  ring

theorem chord_continuous : Continuous (chord x v) := by unfold chord; fun_prop

theorem chord_deriv (y : ℝ) : HasDerivAt (chord x v) (rise x v) y := by
  have := (((hasDerivAt_id y).sub_const (x 0 0)).mul_const (rise x v)).const_add (v 0)
  rw [one_mul] at this
  exact this

theorem rise_sub : rise x (fun a => v a - w a) = rise x v - rise x w := by
  simp only [rise]
  ring

theorem chord_sub (y : ℝ) : chord x v y = chord x (fun a => v a - w a) y + chord x w y := by
  simp only [chord, rise_sub]
  ring

theorem le_ends (hx : 0 < length x) : x 0 0 ≤ x 1 0 := by
  have : x 1 0 - x 0 0 = length x := rfl
  linarith

theorem integral_const1 (c : ℝ) : ∫ _ in x 0 0..x 1 0, c = length x * c := by
  rw [intervalIntegral.integral_const, smul_eq_mul]
  rfl

theorem integral_mono1 (hx : 0 < length x) {f g : ℝ → ℝ} (hf : Continuous f) (hg : Continuous g)
    (h : ∀ y ∈ Set.Icc (x 0 0) (x 1 0), f y ≤ g y) : ∫ y in x 0 0..x 1 0, f y ≤ ∫ y in x 0 0..x 1 0, g y :=
  intervalIntegral.integral_mono_on (le_ends hx) (hf.intervalIntegrable _ _) (hg.intervalIntegrable _ _) h

theorem integral_add1 {f g : ℝ → ℝ} (hf : Continuous f) (hg : Continuous g) :
    ∫ y in x 0 0..x 1 0, (f y + g y) = (∫ y in x 0 0..x 1 0, f y) + ∫ y in x 0 0..x 1 0, g y :=
  intervalIntegral.integral_add (hf.intervalIntegrable _ _) (hg.intervalIntegrable _ _)

/-! ## Integration by parts -/

theorem smooth_deriv {u : ℝ → ℝ} (hu : ContDiff ℝ 2 u) :
    (∀ y, HasDerivAt u (deriv u y) y) ∧ (∀ y, HasDerivAt (deriv u) (deriv (deriv u) y) y) ∧ Continuous (deriv u) ∧
      Continuous (deriv (deriv u)) := by
  have h1 : ContDiff ℝ 1 (deriv u) := ((contDiff_succ_iff_deriv (n := 1)).mp hu).2.2
  refine ⟨fun y => (hu.differentiable two_ne_zero y).hasDerivAt, fun y => (h1.differentiable one_ne_zero y).hasDerivAt, h1.continuous,
    h1.continuous_deriv le_rfl⟩

theorem green_segment (hx : 0 < length x) {u : ℝ → ℝ} (hu : ContDiff ℝ 2 u) (v : Fin 2 → ℝ) :
    ∫ y in x 0 0..x 1 0, -deriv (deriv u) y * chord x v y =
      rise x v * (u (x 1 0) - u (x 0 0)) - (deriv u (x 1 0) * v 1 - deriv u (x 0 0) * v 0) := by
  obtain ⟨h1, h2, h3, h4⟩ := smooth_deriv hu
  have e1 := intervalIntegral.integral_eq_sub_of_hasDerivAt (a := x 0 0) (b := x 1 0)
    (fun y _ => (h2 y).mul (chord_deriv (x := x) (v := v) y))
    (((h4.mul chord_continuous).add (h3.mul continuous_const)).intervalIntegrable _ _)
  have e2 := intervalIntegral.integral_eq_sub_of_hasDerivAt (a := x 0 0) (b := x 1 0) (fun y _ => h1 y) (h3.intervalIntegrable _ _)
  rw [integral_add1 (f := fun y => deriv (deriv u) y * chord x v y) (g := fun y => deriv u y * rise x v) (h4.mul chord_continuous)
    (h3.mul continuous_const), intervalIntegral.integral_mul_const, e2] at e1
  simp only [Pi.mul_apply, chord_start, chord_end hx] at e1
  simp only [neg_mul, intervalIntegral.integral_neg]
  linarith

theorem friedrichs_segment (hx : 0 < length x) (v : Fin 2 → ℝ) :
    (∫ y in x 0 0..x 1 0, chord x v y ^ 2) + ∫ y in x 0 0..x 1 0, 2 * rise x v * (y * chord x v y) =
      x 1 0 * v 1 ^ 2 - x 0 0 * v 0 ^ 2 := by
  have hc := chord_continuous (x := x) (v := v)
  have e1 := intervalIntegral.integral_eq_sub_of_hasDerivAt (a := x 0 0) (b := x 1 0)
    (f := fun y => y * chord x v y ^ 2) (f' := fun y => chord x v y ^ 2 + 2 * rise x v * (y * chord x v y))
    (fun y _ => by
      have := (hasDerivAt_id y).mul ((chord_deriv (x := x) (v := v) y).pow 2)
      refine this.congr_deriv ?_
      simp
      ring) ((by fun_prop : Continuous fun y => chord x v y ^ 2 + 2 * rise x v * (y * chord x v y)).intervalIntegrable _ _)
  rw [integral_add1 (f := fun y => chord x v y ^ 2) (hc.pow 2) (by fun_prop)] at e1
  rw [e1, chord_start, chord_end hx]

/-! ## Sums over segments -/

/-- `N ≤ 4 R² E` -/
theorem friedrichs1 {α : Type} (l : List α) (x : α → Fin 2 → Val (.vec 1)) (v : α → Fin 2 → ℝ) (hx : ∀ c ∈ l, 0 < length (x c)) {R : ℝ}
    (hR : ∀ c ∈ l, ∀ y ∈ Set.Icc (x c 0 0) (x c 1 0), |y| ≤ R)
    (h0 : (l.map fun c => x c 1 0 * v c 1 ^ 2 - x c 0 0 * v c 0 ^ 2).sum = 0) :
    (l.map fun c => ∫ y in x c 0 0..x c 1 0, chord (x c) (v c) y ^ 2).sum ≤
      4 * R ^ 2 * (l.map fun c => length (x c) * rise (x c) (v c) ^ 2).sum := by
  have h1 : ∀ c ∈ l, (∫ y in x c 0 0..x c 1 0, chord (x c) (v c) y ^ 2) ≤
      (x c 1 0 * v c 1 ^ 2 - x c 0 0 * v c 0 ^ 2) + (1 / 2 * (∫ y in x c 0 0..x c 1 0, chord (x c) (v c) y ^ 2) +
        2 * R ^ 2 * (length (x c) * rise (x c) (v c) ^ 2)) := by
    intro c hc
    have hcc := chord_continuous (x := x c) (v := v c)
    have e := friedrichs_segment (hx c hc) (v c)
    have e2 : 1 / 2 * (∫ y in x c 0 0..x c 1 0, chord (x c) (v c) y ^ 2) + 2 * R ^ 2 * (length (x c) * rise (x c) (v c) ^ 2) =
        ∫ y in x c 0 0..x c 1 0, (1 / 2 * chord (x c) (v c) y ^ 2 + 2 * R ^ 2 * rise (x c) (v c) ^ 2) := by
      rw [integral_add1 (by fun_prop) continuous_const, integral_const1, intervalIntegral.integral_const_mul]
      ring
    have e3 : -(∫ y in x c 0 0..x c 1 0, 2 * rise (x c) (v c) * (y * chord (x c) (v c) y)) ≤
        ∫ y in x c 0 0..x c 1 0, (1 / 2 * chord (x c) (v c) y ^ 2 + 2 * R ^ 2 * rise (x c) (v c) ^ 2) := by
      rw [← intervalIntegral.integral_neg]
      refine integral_mono1 (hx c hc) (by fun_prop) (by fun_prop) fun y hy => ?_
      have h2 : (y * rise (x c) (v c)) ^ 2 ≤ R ^ 2 * rise (x c) (v c) ^ 2 := by
        rw [mul_pow]
        refine mul_le_mul_of_nonneg_right ?_ (sq_nonneg _)
        rw [← sq_abs]
        exact pow_le_pow_left₀ (abs_nonneg _) (hR c hc y hy) 2
      nlinarith [sq_nonneg (chord (x c) (v c) y + 2 * (y * rise (x c) (v c)))]
    linarith
  have h2 := list_le l h1
  rw [list_add, list_add, h0, List.sum_map_mul_left, List.sum_map_mul_left] at h2
  linarith

/-- the energy of a function that solves a problem with the loads `D` -/
theorem energy_defect {α : Type} (l : List α) (x : α → Fin 2 → Val (.vec 1)) (v : α → Fin 2 → ℝ) (hx : ∀ c ∈ l, 0 < length (x c))
    {R a b : ℝ} (hR0 : 0 < R)
    (hN : (l.map fun c => ∫ y in x c 0 0..x c 1 0, chord (x c) (v c) y ^ 2).sum ≤
      4 * R ^ 2 * (l.map fun c => length (x c) * rise (x c) (v c) ^ 2).sum)
    (D : α → ℝ) (hE : (l.map fun c => length (x c) * rise (x c) (v c) ^ 2).sum = (l.map D).sum)
    (hD : ∀ c ∈ l, D c ≤ ∫ y in x c 0 0..x c 1 0, (a * |chord (x c) (v c) y| + b * |rise (x c) (v c)|)) :
    (l.map fun c => length (x c) * rise (x c) (v c) ^ 2).sum ≤
      2 * (l.map fun c => length (x c)).sum * (4 * R ^ 2 * a ^ 2 + b ^ 2) := by
  have h1 : ∀ c ∈ l, D c ≤ 1 / (16 * R ^ 2) * (∫ y in x c 0 0..x c 1 0, chord (x c) (v c) y ^ 2) +
      (1 / 4 * (length (x c) * rise (x c) (v c) ^ 2) + length (x c) * (4 * R ^ 2 * a ^ 2 + b ^ 2)) := by
    intro c hc
    have hcc := chord_continuous (x := x c) (v := v c)
    refine (hD c hc).trans (le_of_le_of_eq (integral_mono1 (g := fun y => 1 / (16 * R ^ 2) * chord (x c) (v c) y ^ 2 +
      (1 / 4 * rise (x c) (v c) ^ 2 + (4 * R ^ 2 * a ^ 2 + b ^ 2))) (hx c hc) (by fun_prop) (by fun_prop) fun y _ => ?_) ?_)
    · have h2 : a * |chord (x c) (v c) y| ≤ 1 / (16 * R ^ 2) * chord (x c) (v c) y ^ 2 + 4 * R ^ 2 * a ^ 2 := by
        rw [← sq_abs (chord (x c) (v c) y)]
        have h3 : 1 / (16 * R ^ 2) * |chord (x c) (v c) y| ^ 2 + 4 * R ^ 2 * a ^ 2 - a * |chord (x c) (v c) y| =
            (|chord (x c) (v c) y| / (4 * R) - 2 * R * a) ^ 2 := by
          field_simp
          ring
        nlinarith [sq_nonneg (|chord (x c) (v c) y| / (4 * R) - 2 * R * a)]
      have h4 : b * |rise (x c) (v c)| ≤ 1 / 4 * rise (x c) (v c) ^ 2 + b ^ 2 := by
        rw [← sq_abs (rise (x c) (v c))]
        nlinarith [sq_nonneg (|rise (x c) (v c)| / 2 - b)]
      linarith
    · rw [integral_add1 (by fun_prop) (by fun_prop), integral_const1, intervalIntegral.integral_const_mul]
      ring
  have h2 := list_le l h1
  rw [← hE, list_add, list_add, List.sum_map_mul_left, List.sum_map_mul_left, List.sum_map_mul_right] at h2
  set N := (l.map fun c => ∫ y in x c 0 0..x c 1 0, chord (x c) (v c) y ^ 2).sum
  set E := (l.map fun c => length (x c) * rise (x c) (v c) ^ 2).sum
  have h3 : 1 / (16 * R ^ 2) * N ≤ 1 / (16 * R ^ 2) * (4 * R ^ 2 * E) := mul_le_mul_of_nonneg_left hN (by positivity)
  have h4 : 1 / (16 * R ^ 2) * (4 * R ^ 2 * E) = E / 4 := by field_simp; ring
  linarith

/-! ## Quadrature -/

/-- the quadrature points of a segment -/
noncomputable def pointAt (x : Fin 2 → Val (.vec 1)) (ξ : Val (.vec 1)) : ℝ := x 0 0 + ξ 0 * length x

theorem segP1_point (ξ : Val (.vec 1)) : (segP1 x).parametrization.eval ξ 0 = pointAt x ξ := by
  obtain ⟨h0, h1⟩ := seg1_eval ξ
  simp [segP1, Expr.eval, mul, h0, h1, pointAt, length]
  ring

theorem segP1_shape (hx : 0 < length x) (ξ : Val (.vec 1)) :
    ∑ a, v a * ((segP1 x).shape a).eval ξ () = chord x v (pointAt x ξ) := by
  obtain ⟨h0, h1⟩ := seg1_eval ξ
  simp only [Fin.sum_univ_two, segP1, h0, h1, chord, pointAt, rise]
  field_simp
  ring

theorem segP1_gradient (ξ : Val (.vec 1)) : ∑ a, v a * (segP1 x).gradient a ξ 0 = rise x v := by
  have hinv := seg1_inverse x ξ
  obtain ⟨k0, k1⟩ := seg1_dshape ξ 0
  have h0 : (segP1 x).gradient 0 ξ 0 = -(length x)⁻¹ := by
    simp [Element.gradient, mul, hinv]
    simp [segP1, Element.dshape, k0]
  have h1 : (segP1 x).gradient 1 ξ 0 = (length x)⁻¹ := by
    simp [Element.gradient, mul, hinv]
    simp [segP1, Element.dshape, k1]
  rw [Fin.sum_univ_two, h0, h1, rise]
  ring

theorem point_mem {t : Table 1} (ht : Inside t) (hx : 0 < length x) {q : Val (.vec 1) × ℝ} (hq : q ∈ t.rule) :
    0 < q.2 ∧ pointAt x q.1 ∈ Set.Icc (x 0 0) (x 1 0) := by
  obtain ⟨h1, h2, h3⟩ := rule_mem (n := 0) ht q hq
  have h4 := h2 0
  rw [Fin.sum_univ_one] at h3
  have e : x 1 0 = x 0 0 + length x := by simp [length]
  refine ⟨h1, ?_, ?_⟩
  · rw [pointAt]
    nlinarith
  · rw [pointAt, e]
    nlinarith

/-- the form of an element -/
theorem form_segment {t : Table 1} (hs : (t.map Prod.snd).sum = 1) (hx : 0 < length x) (v w : Fin 2 → ℝ) :
    ∑ a, ∑ b, v a * gradGrad t.rule (segP1 x) a b * w b = length x * (rise x v * rise x w) := by
  have hs' : (t.rule.map fun p => p.2).sum = 1 := rule_sum hs
  simp only [gradGrad_seg1 t.rule x hx.ne', hs', one_mul, Fin.sum_univ_two, rise]
  simp
  field_simp
  ring

/-- the rule on a segment -/
noncomputable def quad (t : Table 1) (x : Fin 2 → Val (.vec 1)) (g : ℝ → ℝ) : ℝ :=
  length x * (t.rule.map fun q => q.2 * g (pointAt x q.1)).sum

/-- the load of an element -/
theorem load_segment (t : Table 1) (f : ℝ → ℝ) (hx : 0 < length x) (v : Fin 2 → ℝ) :
    ∑ a, v a * sourceTerm (fun y => f (y 0)) t.rule (segP1 x) a = quad t x fun y => f y * chord x v y := by
  simp only [sourceTerm_sum, quad, ← segP1_shape hx]
  have h2 : area 1 = 1 := by simp [area]
  simp only [← List.sum_map_mul_left]
  rw [sum_list_comm]
  refine congrArg List.sum (List.map_congr_left fun p _ => ?_)
  simp only [factor, seg1_detJ, h2, Finset.mul_sum, segP1_point]
  refine Finset.sum_congr rfl fun a _ => ?_
  ring

/-- the error of the rule -/
theorem quad_error {t : Table 1} (ht : Inside t) (hs : (t.map Prod.snd).sum = 1) (hx : 0 < length x) {g K : ℝ → ℝ} (hg : Continuous g)
    (hK : Continuous K) (h : ∀ z ∈ Set.Icc (x 0 0) (x 1 0), ∀ y ∈ Set.Icc (x 0 0) (x 1 0), g z - g y ≤ K y) :
    quad t x g - ∫ y in x 0 0..x 1 0, g y ≤ ∫ y in x 0 0..x 1 0, K y := by
  have hs' : (t.rule.map fun p => p.2).sum = 1 := rule_sum hs
  have h1 : ∀ q ∈ t.rule, q.2 * (length x * g (pointAt x q.1)) ≤
      q.2 * ((∫ y in x 0 0..x 1 0, g y) + ∫ y in x 0 0..x 1 0, K y) := by
    intro q hq
    obtain ⟨h2, h3⟩ := point_mem ht hx hq
    refine mul_le_mul_of_nonneg_left ?_ h2.le
    rw [← integral_add1 hg hK, ← integral_const1]
    exact integral_mono1 hx continuous_const (hg.add hK) fun y hy => by linarith [h _ h3 y hy]
  have h2 := list_le t.rule h1
  rw [List.sum_map_mul_right, hs', one_mul] at h2
  have e : quad t x g = (t.rule.map fun q => q.2 * (length x * g (pointAt x q.1))).sum := by
    rw [quad, ← List.sum_map_mul_left]
    exact congrArg List.sum (List.map_congr_left fun q _ => by ring)
  linarith

theorem quad_add (t : Table 1) (x : Fin 2 → Val (.vec 1)) (g k : ℝ → ℝ) : quad t x (fun y => g y + k y) = quad t x g + quad t x k := by
  simp only [quad, mul_add, list_add]

/-- rules with the middle as their mean point integrate linear functions -/
theorem quad_linear {t : Table 1} (hs : (t.map Prod.snd).sum = 1) (hm : apply t (fun ξ => ξ 0) = 1 / 2) (c d : ℝ) :
    quad t x (fun y => c + d * (y - (x 0 0 + x 1 0) / 2)) = ∫ y in x 0 0..x 1 0, (c + d * (y - (x 0 0 + x 1 0) / 2)) := by
  have hs' : (t.rule.map fun p => p.2).sum = 1 := rule_sum hs
  have e1 : (∫ y in x 0 0..x 1 0, (c + d * (y - (x 0 0 + x 1 0) / 2))) = length x * c := by
    rw [integral_add1 (by fun_prop) (by fun_prop), integral_const1, intervalIntegral.integral_const_mul,
      intervalIntegral.integral_sub (continuous_id'.intervalIntegrable _ _) (continuous_const.intervalIntegrable _ _), integral_id,
      integral_const1, length]
    ring
  have e2 : (t.rule.map fun q => q.2 * (c + d * (pointAt x q.1 - (x 0 0 + x 1 0) / 2))).sum =
      c * (t.rule.map fun q => q.2).sum + d * (length x * (apply t (fun ξ => ξ 0) - 1 / 2 * (t.rule.map fun q => q.2).sum)) := by
    rw [apply, ← List.sum_map_mul_left, ← List.sum_map_mul_left, ← list_sub, ← List.sum_map_mul_left, ← List.sum_map_mul_left, ← list_add]
    refine congrArg List.sum (List.map_congr_left fun q _ => ?_)
    simp only [pointAt, length]
    ring
  rw [e1, quad, e2, hs', hm]
  ring

end Mito.Fem
