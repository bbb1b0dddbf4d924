import Verif.Fem.ConditioningMeshLemmas
import Verif.Props.PoissonConvergence

/-! # Sums of fields and functions, and their norms -/

namespace Mito.Fem

open Mito.Functions Mito.Geometry Mito.Quadrature Mito.Meshes Mito.Topology Mito.Discretizer Mito.DiscreteSystem MeasureTheory

theorem partial2_add {u u' : (Fin 2 → ℝ) → ℝ} (hu : ContDiff ℝ 1 u) (hu' : ContDiff ℝ 1 u') (k : Fin 2) (y : Fin 2 → ℝ) :
    partial2 (fun y => u y + u' y) k y = partial2 u k y + partial2 u' k y := by
  unfold partial2
  rw [fderiv_fun_add (hu.differentiable one_ne_zero y) (hu'.differentiable one_ne_zero y)]
  rfl

theorem partial2_neg (u : (Fin 2 → ℝ) → ℝ) (k : Fin 2) (y : Fin 2 → ℝ) : partial2 (fun y => -u y) k y = -partial2 u k y := by
  unfold partial2
  rw [fderiv_fun_neg]
  rfl

theorem partial2_zero (k : Fin 2) (y : Fin 2 → ℝ) : partial2 (fun _ => 0) k y = 0 := by
  unfold partial2
  rw [fderiv_fun_const]
  rfl

theorem errorSquare_congr {n : Nat} {space : Space Nat 2 n} {U U' : Nat → ℝ} (h : ∀ ec ∈ space, ∀ a, U (ec.2 a) = U' (ec.2 a))
    (u : (Fin 2 → ℝ) → ℝ) : errorSquare space U u = errorSquare space U' u := by
  refine congrArg List.sum (List.map_congr_left fun ec hec => ?_)
  simp only [h ec hec]

theorem errorSquare_neg {n : Nat} (space : Space Nat 2 n) (U : Nat → ℝ) (u : (Fin 2 → ℝ) → ℝ) :
    errorSquare space (fun d => -U d) (fun y => -u y) = errorSquare space U u := by
  refine congrArg List.sum (List.map_congr_left fun ec hec => ?_)
  simp only [partial2_neg, neg_mul, Finset.sum_neg_distrib]
  congr 1
  funext ξ
  congr 2
  · ring
  · refine Finset.sum_congr rfl fun k _ => ?_
    ring

theorem errorSquare_scale {n : Nat} (space : Space Nat 2 n) (c : ℝ) (U : Nat → ℝ) :
    errorSquare space (fun d => c * U d) (fun _ => 0) = c ^ 2 * errorSquare space U fun _ => 0 := by
  unfold errorSquare
  rw [← List.sum_map_mul_left]
  refine congrArg List.sum (List.map_congr_left fun ec hec => ?_)
  rw [← integral_const_mul]
  congr 1
  funext ξ
  simp only [partial2_zero, sub_zero, mul_assoc c, ← Finset.mul_sum, mul_pow]
  ring

variable {t : Topo} {cells B : List GCell} {p : Id → Val (.vec 2)} {φ : Nat → Nat} {tb : Table 2}

theorem slope_add (x : Fin 3 → Fin 2 → ℝ) (v w : Fin 3 → ℝ) (k : Fin 2) :
    slope2 x (fun a => v a + w a) k = slope2 x v k + slope2 x w k := by
  fin_cases k <;> simp [slope2] <;> ring

theorem linear_plus (x : Fin 3 → Fin 2 → ℝ) (v w : Fin 3 → ℝ) (y : Fin 2 → ℝ) :
    linear x (fun a => v a + w a) y = linear x v y + linear x w y := by
  simp only [linear, Fin.sum_univ_two, slope_add]
  ring

/-- the norm on the triangles -/
theorem errorSquare_tri1 (h : ∀ c ∈ cells, 0 < triangleArea (positions 3 p c)) (U : Nat → ℝ) (u : (Fin 2 → ℝ) → ℝ) :
    errorSquare (tri1Space cells p φ) U u = (cells.map fun c => ∫ y in hull (positions 3 p c),
      ((linear (positions 3 p c) (onCell φ U c) y - u y) ^ 2 + ∑ k, (slope2 (positions 3 p c) (onCell φ U c) k - partial2 u k y) ^ 2)).sum := by
  unfold errorSquare
  rw [List.map_map]
  exact congrArg List.sum (List.map_congr_left fun c hc => hull_error (positions 3 p c) (h c hc) (onCell φ U c) u)

theorem errorSquare_add (h : ∀ c ∈ cells, 0 < triangleArea (positions 3 p c)) (U U' : Nat → ℝ) {u u' : (Fin 2 → ℝ) → ℝ}
    (hu : ContDiff ℝ 1 u) (hu' : ContDiff ℝ 1 u') :
    errorSquare (tri1Space cells p φ) (fun d => U d + U' d) (fun y => u y + u' y) ≤
      2 * errorSquare (tri1Space cells p φ) U u + 2 * errorSquare (tri1Space cells p φ) U' u' := by
  rw [errorSquare_tri1 h, errorSquare_tri1 h, errorSquare_tri1 h, ← List.sum_map_mul_left, ← List.sum_map_mul_left, ← list_add]
  refine list_le cells fun c hc => ?_
  have hc1 : ∀ (V : Fin 3 → ℝ) {v : (Fin 2 → ℝ) → ℝ}, ContDiff ℝ 1 v → Continuous fun y =>
      (linear (positions 3 p c) V y - v y) ^ 2 + ∑ k, (slope2 (positions 3 p c) V k - partial2 v k y) ^ 2 := fun V v hv =>
    (((linear_continuous _ V).sub hv.continuous).pow 2).add
      (continuous_finset_sum _ fun k _ => (continuous_const.sub (partial_continuous hv k)).pow 2)
  rw [← integral_const_mul, ← integral_const_mul, ← integral_add (hull_integrable _ ((hc1 _ hu).const_mul 2))
    (hull_integrable _ ((hc1 _ hu').const_mul 2))]
  refine hull_mono _ (hc1 (onCell φ (fun d => U d + U' d) c) (hu.add hu')) (((hc1 _ hu).const_mul 2).add ((hc1 _ hu').const_mul 2)) fun y _ => ?_
  have e1 : linear (positions 3 p c) (onCell φ (fun d => U d + U' d) c) y =
      linear (positions 3 p c) (onCell φ U c) y + linear (positions 3 p c) (onCell φ U' c) y := linear_plus _ _ _ _
  have e2 : ∀ k, slope2 (positions 3 p c) (onCell φ (fun d => U d + U' d) c) k =
      slope2 (positions 3 p c) (onCell φ U c) k + slope2 (positions 3 p c) (onCell φ U' c) k := slope_add _ _ _
  simp only [e1, e2, partial2_add hu hu', Fin.sum_univ_two]
  have a1 := add_square (linear (positions 3 p c) (onCell φ U c) y - u y) (linear (positions 3 p c) (onCell φ U' c) y - u' y)
  have a2 := fun k => add_square (slope2 (positions 3 p c) (onCell φ U c) k - partial2 u k y)
    (slope2 (positions 3 p c) (onCell φ U' c) k - partial2 u' k y)
  have a20 := a2 0
  have a21 := a2 1
  calc _ = (linear (positions 3 p c) (onCell φ U c) y - u y + (linear (positions 3 p c) (onCell φ U' c) y - u' y)) ^ 2 +
        ((slope2 (positions 3 p c) (onCell φ U c) 0 - partial2 u 0 y + (slope2 (positions 3 p c) (onCell φ U' c) 0 - partial2 u' 0 y)) ^ 2 +
        (slope2 (positions 3 p c) (onCell φ U c) 1 - partial2 u 1 y + (slope2 (positions 3 p c) (onCell φ U' c) 1 - partial2 u' 1 y)) ^ 2) := by
        ring
    _ ≤ _ := by linarith

/-- the norm of a field that vanishes on the boundary, in terms of the energy -/
theorem errorSquare_form (h : Triangulates t cells B p) (hsum : (tb.map Prod.snd).sum = 1) (f : (Fin 2 → ℝ) → ℝ) {R : ℝ}
    (hR : ∀ c ∈ cells, ∀ y ∈ hull (positions 3 p c), |y 0| ≤ R) {w : Nat → ℝ} (hw : ∀ d ∈ (B.flatMap ids).map φ, w d = 0) (l : List Nat) :
    errorSquare (tri1Space cells p φ) w (fun _ => 0) ≤
      (1 + 4 * R ^ 2) * form (functionSpace (tri1Space cells p φ) l) (poisson tb.rule f (tri1Space cells p φ)) w w := by
  rw [errorSquare_tri1 fun c hc => positions_area h hc, tri1_form hsum]
  have e : ∀ c ∈ cells, (∫ y in hull (positions 3 p c), ((linear (positions 3 p c) (onCell φ w c) y - 0) ^ 2 +
      ∑ k, (slope2 (positions 3 p c) (onCell φ w c) k - partial2 (fun _ => 0) k y) ^ 2)) =
      (∫ y in hull (positions 3 p c), linear (positions 3 p c) (onCell φ w c) y ^ 2) +
        triangleArea (positions 3 p c) * ∑ k, slope2 (positions 3 p c) (onCell φ w c) k ^ 2 := by
    intro c hc
    simp only [partial2_zero, sub_zero]
    have hc2 : Continuous fun y => linear (positions 3 p c) (onCell φ w c) y ^ 2 := (linear_continuous _ _).pow 2
    rw [integral_add (hull_integrable _ hc2) (hull_integrable _ continuous_const), hull_const _ (positions_area h hc).le]
  rw [List.map_congr_left e, list_add]
  have := tri1_friedrichs h hR hw
  linarith

/-- the L2 norm that the code computes, of a sum -/
theorem l2Norm_add (ht : Inside tb) (hsum : (tb.map Prod.snd).sum = 1) (h : ∀ c ∈ cells, 0 < triangleArea (positions 3 p c)) (U U' : Nat → ℝ)
    {r : ℝ} (hr : ∀ c ∈ cells, ∀ a b, dist (positions 3 p c a) (positions 3 p c b) ≤ r) (ex : Expr (.vec 2) .scalar) :
    l2Norm tb.rule (tri1Space cells p φ) (.fem fun d => U d + U' d) (.field ex) ^ 2 ≤
      2 * l2Norm tb.rule (tri1Space cells p φ) (.fem U) (.field ex) ^ 2 +
        2 * (cells.map fun c => 4 * (∫ y in hull (positions 3 p c), linear (positions 3 p c) (onCell φ U' c) y ^ 2) +
          8 * r ^ 2 * (triangleArea (positions 3 p c) * ∑ k, slope2 (positions 3 p c) (onCell φ U' c) k ^ 2)).sum := by
  obtain ⟨hw1, -⟩ := rule_usable ht hsum
  have hfac : ∀ c ∈ cells, ∀ q ∈ tb.rule, 0 ≤ factor (triP1 (positions 3 p c)) q := by
    intro c hc q hq
    rw [factor, tri1_detJ]
    have := h c hc
    have h9 : (0 : ℝ) ≤ Geometry.area 2 := by simp [Geometry.area]
    have h10 := hw1 q hq
    positivity
  have hnn : ∀ W : Nat → ℝ, 0 ≤ ((tri1Space cells p φ).map fun ec => (tb.rule.map fun q => factor ec.1 q *
      ((localize ec.1 ec.2 (.fem W)).eval q.1 () - (localize ec.1 ec.2 (.field ex)).eval q.1 ()) ^ 2).sum).sum := by
    intro W
    refine List.sum_nonneg fun y hy => ?_
    obtain ⟨ec, hec, rfl⟩ := List.mem_map.mp hy
    obtain ⟨c, hc, rfl⟩ := List.mem_map.mp hec
    refine List.sum_nonneg fun y hy => ?_
    obtain ⟨q, hq, rfl⟩ := List.mem_map.mp hy
    exact mul_nonneg (hfac c hc q hq) (sq_nonneg _)
  rw [l2Norm_eq, l2Norm_eq, Real.sq_sqrt (hnn _), Real.sq_sqrt (hnn _), List.map_map, List.map_map, ← List.sum_map_mul_left,
    ← List.sum_map_mul_left, ← list_add]
  refine list_le cells fun c hc => ?_
  simp only [Function.comp]
  have hz := rule_error_le ht hsum (h c hc) (onCell φ U' c) (u := fun _ => 0) contDiff_const (e := 0) (hr c hc) fun k y _ => by
    rw [partial2_zero, sub_zero]
    fin_cases k <;> simp [slope2]
  simp only [sub_zero] at hz
  have hz' : (tb.rule.map fun q => factor (triP1 (positions 3 p c)) q *
      (∑ a, ((triP1 (positions 3 p c)).shape a).eval q.1 () * onCell φ U' c a) ^ 2).sum ≤ 4 * (∫ y in hull (positions 3 p c), linear (positions 3 p c) (onCell φ U' c) y ^ 2) +
          8 * r ^ 2 * (triangleArea (positions 3 p c) * ∑ k, slope2 (positions 3 p c) (onCell φ U' c) k ^ 2) := by
    refine hz.trans (le_of_eq ?_)
    ring
  refine le_trans ?_ (add_le_add le_rfl (mul_le_mul_of_nonneg_left hz' zero_le_two))
  rw [← List.sum_map_mul_left, ← List.sum_map_mul_left, ← list_add]
  refine list_le tb.rule fun q hq => ?_
  rw [localize_fem, localize_fem, localize_field]
  have hf0 := hfac c hc q hq
  have e : ∑ a, ((triP1 (positions 3 p c)).shape a).eval q.1 () * (onCell φ U c a + onCell φ U' c a) =
      (∑ a, ((triP1 (positions 3 p c)).shape a).eval q.1 () * onCell φ U c a) +
        ∑ a, ((triP1 (positions 3 p c)).shape a).eval q.1 () * onCell φ U' c a := by
    rw [← Finset.sum_add_distrib]
    exact Finset.sum_congr rfl fun a _ => mul_add _ _ _
  simp only [onCell] at e ⊢
  rw [e]
  set P := ∑ a : Fin 3, ((triP1 (positions 3 p c)).shape a).eval q.1 () * U (((ids c).map φ).getD a 0)
  set Q := ∑ a : Fin 3, ((triP1 (positions 3 p c)).shape a).eval q.1 () * U' (((ids c).map φ).getD a 0)
  have := mul_le_mul_of_nonneg_left (add_square (P - ex.eval ((triP1 (positions 3 p c)).parametrization.eval q.1) ()) Q) hf0
  refine le_trans (le_of_eq ?_) (this.trans (le_of_eq ?_)) <;> ring

end Mito.Fem
