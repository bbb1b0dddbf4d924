import Verif.Quadrature.SegmentTest
import Verif.Spec.FourthOrder
import Verif.Props.RefineIntegral
import Mathlib.Analysis.SpecialFunctions.Integrals.Basic

/-! # C151: on segments the rule of degree two is of the fourth order -/

set_option linter.unusedVariables false

namespace Mito.Quadrature

open Mito.Functions Mito.Geometry Mito.Refine MeasureTheory

/-- on a cell where the integrand is within `η` of a function that the rule integrates up to `δ` -/
theorem cell_near {n : Nat} {t : Table (n + 1)} (ht : Inside t) (hsum : (t.map Prod.snd).sum = 1) (x : Fin (n + 2) → Val (.vec (n + 1)))
    (f p : Val (.vec (n + 1)) → ℝ) (hf : IntegrableOn f (convexHull ℝ (Set.range x))) (hp : IntegrableOn p (convexHull ℝ (Set.range x)))
    {η δ : ℝ} (hη : ∀ y ∈ convexHull ℝ (Set.range x), |f y - p y| ≤ η)
    (hδ : |apply t (fun ξ => p ((parametrization x).eval ξ)) - meanOver (n + 1) fun ξ => p ((parametrization x).eval ξ)| ≤ δ) :
    |volume.real (convexHull ℝ (Set.range x)) * apply t (fun ξ => f ((parametrization x).eval ξ)) -
      ∫ y in convexHull ℝ (Set.range x), f y| ≤ (2 * η + δ) * volume.real (convexHull ℝ (Set.range x)) := by
  set S := convexHull ℝ (Set.range x)
  have hV : 0 ≤ volume.real S := measureReal_nonneg
  have hi : ∫ y in S, p y = volume.real S * meanOver (n + 1) fun ξ => p ((parametrization x).eval ξ) := by
    rw [integral_hull, ← volume_hull]
  set V := volume.real S
  have hS : IsCompact S := (Set.finite_range _).isCompact_convexHull ℝ
  have h2 : |apply t (fun ξ => f ((parametrization x).eval ξ) - p ((parametrization x).eval ξ))| ≤ η := by
    refine apply_abs_le ht hsum _ fun ξ hξ => hη _ ?_
    rw [show S = _ from (parametrization_image x).symm]
    exact ⟨ξ, hξ, rfl⟩
  have h3 : |∫ y in S, (f y - p y)| ≤ η * V := by
    rw [← Real.norm_eq_abs]
    exact norm_setIntegral_le_of_norm_le_const hS.measure_lt_top fun y hy => by
      rw [Real.norm_eq_abs]
      exact hη y hy
  rw [apply_sub] at h2
  rw [integral_sub hf hp, hi] at h3
  rw [abs_le] at h2 h3 hδ ⊢
  have a1 := mul_le_mul_of_nonneg_left h2.1 hV
  have a2 := mul_le_mul_of_nonneg_left h2.2 hV
  have b1 := mul_le_mul_of_nonneg_left hδ.1 hV
  have b2 := mul_le_mul_of_nonneg_left hδ.2 hV
  constructor <;> nlinarith [h3.1, h3.2]

/-- the rule of two points and cubic polynomials -/
theorem segment2_cubic (a b c d : ℝ) :
    |apply segment2 (fun ξ => a + b * ξ 0 + c * ξ 0 ^ 2 + d * ξ 0 ^ 3) - meanOver 1 fun ξ => a + b * ξ 0 + c * ξ 0 ^ 2 + d * ξ 0 ^ 3| ≤
      1e-15 * (|c| + |d|) := by
  have hm : (meanOver 1 fun ξ => a + b * ξ 0 + c * ξ 0 ^ 2 + d * ξ 0 ^ 3) = a + b / 2 + c / 3 + d / 4 := by
    have hc : Continuous fun ξ : Fin 1 → ℝ => a + b * ξ 0 + c * ξ 0 ^ 2 + d * ξ 0 ^ 3 := by fun_prop
    rw [meanOver, Nat.factorial_one, Nat.cast_one, one_mul, ← mean1_simplex hc, mean1]
    have e : ∀ x : ℝ, a + b * (![x] : Fin 1 → ℝ) 0 + c * (![x] : Fin 1 → ℝ) 0 ^ 2 + d * (![x] : Fin 1 → ℝ) 0 ^ 3 =
        a + b * x + c * x ^ 2 + d * x ^ 3 := fun x => rfl
    simp only [e]
    rw [intervalIntegral.integral_add, intervalIntegral.integral_add, intervalIntegral.integral_add, intervalIntegral.integral_const_mul,
      intervalIntegral.integral_const_mul, intervalIntegral.integral_const_mul, intervalIntegral.integral_const, integral_id, integral_pow, integral_pow]
    · norm_num
      ring
    all_goals exact (by fun_prop : Continuous _).intervalIntegrable _ _
  have ha : apply segment2 (fun ξ => a + b * ξ 0 + c * ξ 0 ^ 2 + d * ξ 0 ^ 3) =
      0.5 * (a + b * 0.788675134594813 + c * 0.788675134594813 ^ 2 + d * 0.788675134594813 ^ 3) +
      0.5 * (a + b * 0.211324865405187 + c * 0.211324865405187 ^ 2 + d * 0.211324865405187 ^ 3) := by
    simp [apply, segment2, Table.rule]
  rw [ha, hm]
  have e : 0.5 * (a + b * 0.788675134594813 + c * 0.788675134594813 ^ 2 + d * 0.788675134594813 ^ 3) +
      0.5 * (a + b * 0.211324865405187 + c * 0.211324865405187 ^ 2 + d * 0.211324865405187 ^ 3) - (a + b / 2 + c / 3 + d / 4) =
      c * (0.5 * 0.788675134594813 ^ 2 + 0.5 * 0.211324865405187 ^ 2 - 1 / 3) +
      d * (0.5 * 0.788675134594813 ^ 3 + 0.5 * 0.211324865405187 ^ 3 - 1 / 4) := by ring
  rw [e, mul_add]
  refine (abs_add_le _ _).trans (add_le_add ?_ ?_)
  · rw [abs_mul, mul_comm]
    exact mul_le_mul_of_nonneg_right (by norm_num [abs_le]) (abs_nonneg _)
  · rw [abs_mul, mul_comm]
    exact mul_le_mul_of_nonneg_right (by norm_num [abs_le]) (abs_nonneg _)

theorem param1 (x : Fin 2 → Val (.vec 1)) (ξ : Val (.vec 1)) : (parametrization x).eval ξ 0 = x 1 0 + (x 0 0 - x 1 0) * ξ 0 := by
  rw [Fem.parametrization_eval, Fin.sum_univ_two]
  simp only [Fem.xi_eval]
  simp
  ring

/-- C151.  On segments the rule of degree two is of the fourth order: if the integrand is smooth to the fourth order with constants `K` and `C`,
then the error on a mesh of size `s` is at most `2 C s ^ 4` times the length, up to the decimals of the rule. -/
theorem segment_fourth_order (debug : Bool) (mesh : List (List (PNode ℝ))) (hc : ∀ c ∈ mesh, c.length = 2)
    (hv : ∀ c ∈ mesh, 0 ≤ simplexVolume (coords 0 1 c)) (h : ℝ) (hs : ∀ c ∈ mesh, ∀ a b, dist (coords 0 1 c a) (coords 0 1 c b) ≤ h)
    (f : ℝ → ℝ) (D : Set ℝ) (hD : ∀ y ∈ meshDomain 0 1 mesh, y 0 ∈ D) (hf : ContinuousOn f D) {K C : ℝ} (hC : 0 ≤ C) (hT : CubicOn f D K C)
    (N k : Nat) :
    ∃ i, integrate debug segment2 (fun c => (cartesian 1).volume c.nodes) (meshCells 0 1 (tetra N k mesh).2) (fun x => f (x 0)) = .value i ∧
      |i - (mesh.map fun c => ∫ y in meshHull 0 1 c, f (y 0)).sum| ≤
        (2 * (C * (h / 2 ^ N) ^ 4) + 1e-15 * (K * (h / 2 ^ N) ^ 2 + K * (h / 2 ^ N) ^ 3)) *
          (mesh.map fun c => volume.real (meshHull 0 1 c)).sum := by
  refine ⟨_, integrate_value _ _ _ _ _ (meshCells_key _), ?_⟩
  have hsub : ∀ mesh' : List (List (PNode ℝ)), ∀ c ∈ mesh', meshHull 0 1 c ⊆ meshDomain 0 1 mesh' :=
    fun mesh' c h => Set.subset_biUnion_of_mem (u := meshHull 0 1) (show c ∈ {c | c ∈ mesh'} from h)
  have hsub' : ∀ e ∈ (tetra N k mesh).2, meshHull 0 1 e ⊆ meshDomain 0 1 mesh := fun e he => by
    rw [← meshDomain_refine (n := 0) (d := 1) (by norm_num) mesh hc N k]
    exact hsub _ e he
  have hfc : ContinuousOn (fun y : Val (.vec 1) => f (y 0)) (meshDomain 0 1 mesh) :=
    hf.comp (continuous_apply 0).continuousOn hD
  have hint : ∀ c ∈ mesh, IntegrableOn (fun y : Val (.vec 1) => f (y 0)) (meshHull 0 1 c) := fun c h =>
    (hfc.mono (hsub mesh c h)).integrableOn_compact (meshHull_compact c)
  have e1 := refine_integral (n := 0) (by norm_num) mesh hc N (fun y : Val (.vec 1) => f (y 0)) hint k
  have e2 := refine_volume (n := 0) (by norm_num) mesh hc N k
  rw [← e1, ← e2]
  refine mesh_error (n := 0) (by norm_num) _ (fun e he => (refine_nonneg (n := 0) (by norm_num) mesh hc hv N k e he).2) _ fun e he => ?_
  have hl := (refine_nonneg (n := 0) (by norm_num) mesh hc hv N k e he).1
  have hsz : ∀ a b, dist (coords 0 1 e a) (coords 0 1 e b) ≤ h / 2 ^ N := by
    have hs' : ∀ c ∈ mesh, SizeLe (maxSize 1) h c := fun c h' => (coords_dist (n := 0) (hc c h')).mpr (hs c h')
    rw [← coords_dist (n := 0) hl]
    exact refine_size (maxSize 1) h N k mesh (fun c h' => by have := hc c h'; omega) hs' e he
  set x := coords 0 1 e with hx
  set s := h / 2 ^ N with hsdef
  have hm : x 1 ∈ meshHull 0 1 e := subset_convexHull ℝ _ (Set.mem_range_self 1)
  obtain ⟨c1, c2, c3, k2, k3, hp⟩ := hT _ (hD _ (hsub' e he hm))
  have hs0 : 0 ≤ s := dist_nonneg.trans (hsz 0 1)
  have hd : ∀ y ∈ meshHull 0 1 e, |y 0 - x 1 0| ≤ s := fun y hy => by
    have h1 := hull_dist hsz hy hm
    have h2 := dist_le_pi_dist y (x 1) 0
    rw [Real.dist_eq] at h2
    exact h2.trans h1
  refine cell_near (tables_inside.2.1) (by norm_num [segment2]) x (fun y => f (y 0))
    (fun y => f (x 1 0) + c1 * (y 0 - x 1 0) + c2 * (y 0 - x 1 0) ^ 2 + c3 * (y 0 - x 1 0) ^ 3)
    ((hfc.mono (hsub' e he)).integrableOn_compact (meshHull_compact e))
    ((Continuous.continuousOn (by fun_prop)).integrableOn_compact (meshHull_compact e)) (fun y hy => ?_) ?_
  · refine (hp _ (hD _ (hsub' e he hy))).trans (mul_le_mul_of_nonneg_left ?_ hC)
    exact pow_le_pow_left₀ (abs_nonneg _) (hd y hy) 4
  · have h0 : |x 0 0 - x 1 0| ≤ s := hd _ (subset_convexHull ℝ _ (Set.mem_range_self 0))
    have hfun : (fun ξ : Val (.vec 1) => f (x 1 0) + c1 * ((parametrization x).eval ξ 0 - x 1 0) + c2 * ((parametrization x).eval ξ 0 - x 1 0) ^ 2 +
        c3 * ((parametrization x).eval ξ 0 - x 1 0) ^ 3) = fun ξ => f (x 1 0) + c1 * (x 0 0 - x 1 0) * ξ 0 + c2 * (x 0 0 - x 1 0) ^ 2 * ξ 0 ^ 2 +
          c3 * (x 0 0 - x 1 0) ^ 3 * ξ 0 ^ 3 := by
      funext ξ
      rw [param1]
      ring
    rw [hfun]
    refine (segment2_cubic _ _ _ _).trans (mul_le_mul_of_nonneg_left (add_le_add ?_ ?_) (by norm_num))
    · rw [abs_mul, abs_pow]
      exact mul_le_mul k2 (pow_le_pow_left₀ (abs_nonneg _) h0 2) (by positivity) ((abs_nonneg _).trans k2)
    · rw [abs_mul, abs_pow]
      exact mul_le_mul k3 (pow_le_pow_left₀ (abs_nonneg _) h0 3) (by positivity) ((abs_nonneg _).trans k3)

end Mito.Quadrature

namespace Mito.SegmentTest

open Mito.Functions Mito.Geometry Mito.Refine Mito.Quadrature MeasureTheory

/-- the exponential function is smooth -/
theorem decay_cubic : CubicOn (fun x => Real.exp (-x)) (Set.Icc 0 1) (1 / 2) (5 / 96) := by
  intro x hx
  have e0 := Real.exp_pos (-x)
  have e1 : Real.exp (-x) ≤ 1 := Real.exp_le_one_iff.mpr (by linarith [hx.1])
  refine ⟨-Real.exp (-x), Real.exp (-x) / 2, -Real.exp (-x) / 6, ?_, ?_, fun y hy => ?_⟩
  · rw [abs_of_pos (by positivity)]; linarith
  · rw [abs_le]; constructor <;> linarith
  · have hd : |-(y - x)| ≤ 1 := by
      rw [abs_neg, abs_le]; constructor <;> linarith [hx.1, hx.2, hy.1, hy.2]
    have hb := Real.exp_bound hd (n := 4) (by norm_num)
    have hexp : Real.exp (-y) = Real.exp (-x) * Real.exp (-(y - x)) := by
      rw [← Real.exp_add]; congr 1; ring
    simp only [Finset.sum_range_succ, Finset.sum_range_zero] at hb
    norm_num [Nat.factorial] at hb
    have e : Real.exp (-y) - (Real.exp (-x) + -Real.exp (-x) * (y - x) + Real.exp (-x) / 2 * (y - x) ^ 2 + -Real.exp (-x) / 6 * (y - x) ^ 3) =
        Real.exp (-x) * (Real.exp (x - y) - (1 + (x - y) + (x - y) ^ 2 / 2 + (x - y) ^ 3 / 6)) := by
      rw [hexp, show -(y - x) = x - y by ring]; ring
    rw [e, abs_mul, abs_of_pos e0, abs_sub_comm y x]
    calc Real.exp (-x) * |Real.exp (x - y) - (1 + (x - y) + (x - y) ^ 2 / 2 + (x - y) ^ 3 / 6)|
        ≤ 1 * (|x - y| ^ 4 * (5 / 96)) := by
          refine mul_le_mul e1 ?_ (abs_nonneg _) zero_le_one
          convert hb using 2
      _ = _ := by ring

/-- the positions of the two nodes -/
theorem coords_zero : coords 0 1 [ends 0, ends 1] 0 0 = 0 := by simp [coords, ends]

theorem coords_one : coords 0 1 [ends 0, ends 1] 1 0 = 1 := by simp [coords, ends]

theorem unit_volume : simplexVolume (coords 0 1 [ends 0, ends 1]) = 1 := by
  rw [simplexVolume, Matrix.det_unique]
  have h0 := coords_zero
  have h1 := coords_one
  simp only [Matrix.of_apply, Pi.sub_apply, Fin.default_eq_zero, Fin.succ_zero_eq_one]
  simp [h0, h1]

/-- the points of the segment -/
theorem unit_domain {y : Val (.vec 1)} (h : y ∈ meshHull 0 1 [ends 0, ends 1]) : y 0 ∈ Set.Icc (0 : ℝ) 1 := by
  have hs : meshHull 0 1 [ends 0, ends 1] ⊆ {y : Val (.vec 1) | y 0 ∈ Set.Icc (0 : ℝ) 1} := by
    refine convexHull_min ?_ ?_
    · rintro _ ⟨a, rfl⟩
      have h0 := coords_zero
      have h1 := coords_one
      fin_cases a
      · show coords 0 1 [ends 0, ends 1] 0 0 ∈ Set.Icc (0 : ℝ) 1
        rw [h0]; norm_num
      · show coords 0 1 [ends 0, ends 1] 1 0 ∈ Set.Icc (0 : ℝ) 1
        rw [h1]; norm_num
    · exact (convex_Icc (0 : ℝ) 1).is_linear_preimage (f := fun y : Val (.vec 1) => y 0) ⟨fun _ _ => rfl, fun _ _ => rfl⟩
  exact hs h

/-- the exact integral -/
theorem unit_integral : ∫ y in meshHull 0 1 [ends 0, ends 1], Real.exp (-y 0) = (Real.exp 1 - 1) / Real.exp 1 := by
  rw [meshHull, integral_hull, unit_volume, abs_one, one_mul, meanOver]
  have hfun : (fun ξ : Val (.vec 1) => Real.exp (-(parametrization (coords 0 1 [ends 0, ends 1])).eval ξ 0)) = fun ξ => Real.exp (ξ 0 - 1) := by
    funext ξ
    rw [param1, coords_zero, coords_one]
    congr 1; ring
  have hc : Continuous fun ξ : Fin 1 → ℝ => Real.exp (ξ 0 - 1) := by fun_prop
  have hm := mean1_simplex hc
  rw [mean1] at hm
  simp only [Matrix.cons_val_zero] at hm
  rw [intervalIntegral.integral_comp_sub_right (fun x => Real.exp x) 1, integral_exp] at hm
  simp only [zero_add, Nat.factorial_one, Nat.cast_one, one_mul]
  rw [hfun]
  refine Eq.trans hm.symm ?_
  rw [sub_self, Real.exp_zero, zero_sub, Real.exp_neg, sub_div, div_self (Real.exp_ne_zero 1), one_div]

/-- C151.  The integral of the test, for every number of subdivisions. -/
theorem segment_error (debug : Bool) (N : Nat) : ∃ i, integral debug N = .value i ∧
    |i - (Real.exp 1 - 1) / Real.exp 1| ≤ 5 / 48 / 16 ^ N + 1e-15 / 4 ^ N := by
  have hdist : ∀ a b, dist (coords 0 1 [ends 0, ends 1] a) (coords 0 1 [ends 0, ends 1] b) ≤ 1 := fun a b => by
    refine (dist_pi_le_iff zero_le_one).mpr fun i => ?_
    have ha := unit_domain (subset_convexHull ℝ _ (Set.mem_range_self a))
    have hb := unit_domain (subset_convexHull ℝ _ (Set.mem_range_self b))
    rw [Subsingleton.elim i 0, Real.dist_eq, abs_le]
    constructor <;> linarith [ha.1, ha.2, hb.1, hb.2]
  obtain ⟨i, hi, he⟩ := segment_fourth_order debug [[ends 0, ends 1]] (by simp) (by simp [unit_volume]) 1
    (by simpa using hdist) (fun x => Real.exp (-x)) (Set.Icc 0 1)
    (fun y hy => by
      simp only [meshDomain, List.mem_singleton, Set.iUnion_iUnion_eq_left] at hy
      exact unit_domain hy)
    (Continuous.continuousOn (by fun_prop)) (by norm_num) decay_cubic N 2
  have hd : ∀ x : Val (.vec 1), decay.eval x () = Real.exp (-x 0) := fun x => by
    show Real.exp ((Expr.component (a := .vec 1) 0).neg.eval x ()) = _
    rw [eval_neg]
    rfl
  refine ⟨i, by simpa only [integral, hd] using hi, ?_⟩
  simp only [List.map_cons, List.map_nil, List.sum_cons, List.sum_nil, add_zero] at he
  rw [unit_integral, meshHull, volume_hull, unit_volume, abs_one, mul_one] at he
  refine he.trans ?_
  have h2 : (0 : ℝ) < 2 ^ N := by positivity
  have h1 : (1 : ℝ) ≤ 2 ^ N := one_le_pow₀ (by norm_num)
  have e4 : (4 : ℝ) ^ N = (2 ^ N) ^ 2 := by rw [← pow_mul, mul_comm, pow_mul]; norm_num
  have e16 : (16 : ℝ) ^ N = (2 ^ N) ^ 4 := by rw [← pow_mul, mul_comm, pow_mul]; norm_num
  rw [e4, e16]
  generalize (2 : ℝ) ^ N = u at *
  have h3 : (1 / u) ^ 3 ≤ (1 / u) ^ 2 := pow_le_pow_of_le_one (by positivity) ((div_le_one h2).mpr h1) (by norm_num)
  have a1 : 5 / 48 / u ^ 4 = 2 * (5 / 96 * (1 / u) ^ 4) := by rw [one_div, inv_pow]; ring
  have a2 : (1e-15 : ℝ) / u ^ 2 = 1e-15 * (1 / u) ^ 2 := by rw [one_div, inv_pow]; ring
  rw [a1, a2]
  have h4 : (1e-15 : ℝ) * (1 / 2 * (1 / u) ^ 2 + 1 / 2 * (1 / u) ^ 3) ≤ 1e-15 * (1 / u) ^ 2 :=
    mul_le_mul_of_nonneg_left (by linarith) (by norm_num)
  linarith

/-- C151.  The test passes: with twelve subdivisions the integral is within the tolerance, by a factor of two hundred. -/
theorem segment_test (debug : Bool) : ∃ i, integral debug 12 = .value i ∧ |i - (Real.exp 1 - 1) / Real.exp 1| < 1e-13 / 200 := by
  obtain ⟨i, hi, he⟩ := segment_error debug 12
  exact ⟨i, hi, he.trans_lt (by norm_num)⟩

/-- ten subdivisions would do as well -/
example (debug : Bool) : ∃ i, integral debug 10 = .value i ∧ |i - (Real.exp 1 - 1) / Real.exp 1| < 1.1e-13 := by
  obtain ⟨i, hi, he⟩ := segment_error debug 10
  exact ⟨i, hi, he.trans_lt (by norm_num)⟩

end Mito.SegmentTest
