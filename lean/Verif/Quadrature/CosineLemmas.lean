import Verif.Quadrature.CosineTests
import Verif.Mesh.ParallelLemmas
import Verif.Mesh.SquareLemmas
import Verif.Quadrature.RefineIntegralLemmas
import Verif.Quadrature.DivergenceLemmas
import Mathlib.Analysis.SpecialFunctions.Integrals.Basic
import Mathlib.Analysis.SpecialFunctions.Trigonometric.Bounds
import Mathlib.MeasureTheory.Integral.DominatedConvergence
import Mathlib.Analysis.Complex.Exponential

/-! # Lemmas for the integrals of `cos (x y)` -/

namespace Mito.CosineTests

open MeasureTheory Mito.Functions Mito.Quadrature Mito.Load Mito.Parallel Mito.Refine Mito.Geometry

/-! ### polynomials for the cosine -/

/-- the polynomial of degree 12 -/
def cosPoly {K : Type*} [Field K] (t : K) : K :=
  1 - t ^ 2 / 2 + t ^ 4 / 24 - t ^ 6 / 720 + t ^ 8 / 40320 - t ^ 10 / 3628800 + t ^ 12 / 479001600

/-- the bound for its error -/
def cosError : ℚ := 2 / 10 ^ 11

theorem cosPoly_error {t : ℝ} (ht : |t| ≤ 1) : |Real.cos t - cosPoly t| ≤ cosError := by
  have h := Complex.exp_bound (x := t * Complex.I) (by simpa using ht) (n := 14) (by norm_num)
  have h1 := (Complex.abs_re_le_norm _).trans h
  have hs : (∑ m ∈ Finset.range 14, ((t : ℂ) * Complex.I) ^ m / (m.factorial : ℂ)).re = cosPoly t := by
    have hI : ∀ k : Nat, Complex.I ^ (2 * k) = ((-1 : ℝ) ^ k : ℝ) := by
      intro k
      rw [pow_mul, Complex.I_sq]
      push_cast
      rfl
    have he : ∀ k : Nat, (((t : ℂ) * Complex.I) ^ (2 * k) / ((2 * k).factorial : ℂ)).re = (-1) ^ k * t ^ (2 * k) / (2 * k).factorial := by
      intro k
      rw [mul_pow, hI, show (t : ℂ) ^ (2 * k) * (((-1 : ℝ) ^ k : ℝ) : ℂ) / ((2 * k).factorial : ℂ) =
        (((-1) ^ k * t ^ (2 * k) / (2 * k).factorial : ℝ) : ℂ) by push_cast; ring, Complex.ofReal_re]
    have ho : ∀ k : Nat, (((t : ℂ) * Complex.I) ^ (2 * k + 1) / ((2 * k + 1).factorial : ℂ)).re = 0 := by
      intro k
      rw [mul_pow, pow_succ Complex.I, hI, show (t : ℂ) ^ (2 * k + 1) * ((((-1 : ℝ) ^ k : ℝ) : ℂ) * Complex.I) / ((2 * k + 1).factorial : ℂ) =
        (((-1) ^ k * t ^ (2 * k + 1) / (2 * k + 1).factorial : ℝ) : ℂ) * Complex.I by push_cast; ring,
        Complex.re_ofReal_mul, Complex.I_re, mul_zero]
    rw [Complex.re_sum]
    simp only [Finset.sum_range_succ, Finset.sum_range_zero]
    have e := fun k => he k
    have o := fun k => ho k
    have e0 := e 0; have e1 := e 1; have e2 := e 2; have e3 := e 3; have e4 := e 4; have e5 := e 5; have e6 := e 6
    have o0 := o 0; have o1 := o 1; have o2 := o 2; have o3 := o 3; have o4 := o 4; have o5 := o 5; have o6 := o 6
    simp only [Nat.reduceMul, Nat.reduceAdd] at e0 e1 e2 e3 e4 e5 e6 o0 o1 o2 o3 o4 o5 o6
    rw [e0, e1, e2, e3, e4, e5, e6, o0, o1, o2, o3, o4, o5, o6, cosPoly]
    norm_num [Nat.factorial]
    ring
  rw [Complex.sub_re, Complex.exp_ofReal_mul_I_re, hs] at h1
  refine h1.trans ?_
  have hn : ‖(t : ℂ) * Complex.I‖ ^ 14 ≤ 1 := by
    refine pow_le_one₀ (norm_nonneg _) ?_
    simpa using ht
  refine (mul_le_mul_of_nonneg_right hn (by positivity)).trans ?_
  norm_num [cosError, Nat.factorial]

theorem cosPoly_cast (t : ℚ) : ((cosPoly t : ℚ) : ℝ) = cosPoly (t : ℝ) := by
  simp [cosPoly]

/-- the remainder of the second order -/
theorem cos_second (u d : ℝ) (hd : |d| ≤ 2) :
    |Real.cos (u + d) - (Real.cos u - Real.sin u * d - Real.cos u * d ^ 2 / 2)| ≤ |d| ^ 3 / 4 := by
  have hs := Real.abs_sub_sin_le d
  have hh := Real.abs_sub_sin_le (d / 2)
  have hc : |Real.cos d - 1 + d ^ 2 / 2| ≤ |d| ^ 3 / 12 := by
    have e : Real.cos d - 1 + d ^ 2 / 2 = 2 * ((d / 2 - Real.sin (d / 2)) * (d / 2 + Real.sin (d / 2))) := by
      have h2 : Real.cos d = 1 - 2 * Real.sin (d / 2) ^ 2 := by
        have := Real.cos_sq (d / 2)
        have h3 := Real.sin_sq (d / 2)
        rw [show 2 * (d / 2) = d by ring] at this
        linarith
      rw [h2]
      ring
    rw [e, abs_mul, abs_mul, abs_two]
    have h3 : |d / 2 + Real.sin (d / 2)| ≤ |d| := by
      refine (abs_add_le _ _).trans ?_
      have := Real.abs_sin_le_abs (x := d / 2)
      rw [abs_div, abs_two] at *
      linarith
    rw [abs_div, abs_two] at hh
    have h4 : (|d| / 2) ^ 3 / 6 = |d| ^ 3 / 48 := by ring
    rw [h4] at hh
    have h5 : |d / 2 - Real.sin (d / 2)| * |d / 2 + Real.sin (d / 2)| ≤ |d| ^ 3 / 48 * |d| :=
      mul_le_mul hh h3 (abs_nonneg _) (by positivity)
    have h6 : |d| ^ 3 / 48 * |d| ≤ |d| ^ 3 / 48 * 2 := mul_le_mul_of_nonneg_left hd (by positivity)
    linarith
  rw [Real.cos_add, show Real.cos u * Real.cos d - Real.sin u * Real.sin d - (Real.cos u - Real.sin u * d - Real.cos u * d ^ 2 / 2) =
    Real.cos u * (Real.cos d - 1 + d ^ 2 / 2) + Real.sin u * (d - Real.sin d) by ring]
  refine (abs_add_le _ _).trans ?_
  rw [abs_mul, abs_mul]
  have h1 := mul_le_mul (Real.abs_cos_le_one u) hc (abs_nonneg _) zero_le_one
  have h2 := mul_le_mul (Real.abs_sin_le_one u) hs (abs_nonneg _) zero_le_one
  linarith

/-! ### the exact integral -/

theorem cosine_eval (x : Val (.vec 2)) : cosine.eval x () = Real.cos (x 0 * x 1) := rfl

theorem inner_continuous : Continuous fun x : ℝ => ∫ y in (0 : ℝ)..1, Real.cos (x * y) :=
  intervalIntegral.continuous_parametric_intervalIntegral_of_continuous' (by fun_prop) 0 1

theorem inner_poly (x : ℝ) : (∫ y in (0 : ℝ)..1, cosPoly (x * y)) =
    1 - x ^ 2 / 6 + x ^ 4 / 120 - x ^ 6 / 5040 + x ^ 8 / 362880 - x ^ 10 / 39916800 + x ^ 12 / 6227020800 := by
  have e : ∀ y : ℝ, HasDerivAt (fun y : ℝ => y - x ^ 2 * y ^ 3 / 6 + x ^ 4 * y ^ 5 / 120 - x ^ 6 * y ^ 7 / 5040 + x ^ 8 * y ^ 9 / 362880 -
      x ^ 10 * y ^ 11 / 39916800 + x ^ 12 * y ^ 13 / 6227020800) (cosPoly (x * y)) y := by
    intro y
    have hp : ∀ (n : Nat) (c : ℝ), HasDerivAt (fun y : ℝ => c * y ^ (n + 1)) (c * ((n + 1 : Nat) * y ^ n)) y := fun n c => by
      simpa using (hasDerivAt_pow (n + 1) y).const_mul c
    have h := ((((((hasDerivAt_id y).sub ((hp 2 (x ^ 2)).div_const 6)).add ((hp 4 (x ^ 4)).div_const 120)).sub
      ((hp 6 (x ^ 6)).div_const 5040)).add ((hp 8 (x ^ 8)).div_const 362880)).sub ((hp 10 (x ^ 10)).div_const 39916800)).add
      ((hp 12 (x ^ 12)).div_const 6227020800)
    refine HasDerivAt.congr_deriv (by exact h) ?_
    rw [cosPoly]
    push_cast
    ring
  rw [intervalIntegral.integral_eq_sub_of_hasDerivAt (fun y _ => e y)
    (Continuous.intervalIntegrable (by unfold cosPoly; fun_prop) _ _)]
  ring

/-- the integral of the polynomial -/
def polyIntegral : ℚ :=
  1 - 1 / 18 + 1 / 600 - 1 / 35280 + 1 / 3265920 - 1 / 439084800 + 1 / 80951270400

theorem integral_error : |(∫ x in (0 : ℝ)..1, ∫ y in (0 : ℝ)..1, Real.cos (x * y)) - polyIntegral| ≤ cosError := by
  have hb : ∀ x ∈ Set.uIoc (0 : ℝ) 1, ‖(∫ y in (0 : ℝ)..1, Real.cos (x * y)) - ∫ y in (0 : ℝ)..1, cosPoly (x * y)‖ ≤ (cosError : ℝ) := by
    intro x hx
    rw [Set.uIoc_of_le zero_le_one] at hx
    rw [← intervalIntegral.integral_sub (Continuous.intervalIntegrable (by fun_prop) _ _)
      (Continuous.intervalIntegrable (by unfold cosPoly; fun_prop) _ _)]
    refine (intervalIntegral.norm_integral_le_of_norm_le_const (C := (cosError : ℝ)) fun y hy => ?_).trans (by norm_num)
    rw [Set.uIoc_of_le zero_le_one] at hy
    refine cosPoly_error ?_
    rw [abs_of_nonneg (mul_nonneg hx.1.le hy.1.le)]
    exact mul_le_one₀ hx.2 hy.1.le hy.2
  have e : ((polyIntegral : ℚ) : ℝ) = ∫ x in (0 : ℝ)..1, ∫ y in (0 : ℝ)..1, cosPoly (x * y) := by
    simp only [inner_poly]
    have e : ∀ x : ℝ, HasDerivAt (fun x : ℝ => x - 1 * x ^ 3 / 18 + 1 * x ^ 5 / 600 - 1 * x ^ 7 / 35280 + 1 * x ^ 9 / 3265920 -
        1 * x ^ 11 / 439084800 + 1 * x ^ 13 / 80951270400)
        (1 - x ^ 2 / 6 + x ^ 4 / 120 - x ^ 6 / 5040 + x ^ 8 / 362880 - x ^ 10 / 39916800 + x ^ 12 / 6227020800) x := by
      intro x
      have hp : ∀ (n : Nat) (c : ℝ), HasDerivAt (fun y : ℝ => c * y ^ (n + 1)) (c * ((n + 1 : Nat) * x ^ n)) x := fun n c => by
        simpa using (hasDerivAt_pow (n + 1) x).const_mul c
      have h := ((((((hasDerivAt_id x).sub ((hp 2 1).div_const 18)).add ((hp 4 1).div_const 600)).sub
        ((hp 6 1).div_const 35280)).add ((hp 8 1).div_const 3265920)).sub ((hp 10 1).div_const 439084800)).add
        ((hp 12 1).div_const 80951270400)
      refine HasDerivAt.congr_deriv (by exact h) ?_
      push_cast
      ring
    rw [intervalIntegral.integral_eq_sub_of_hasDerivAt (fun y _ => e y) (Continuous.intervalIntegrable (by fun_prop) _ _)]
    norm_num [polyIntegral]
  rw [e, ← intervalIntegral.integral_sub (inner_continuous.intervalIntegrable _ _)
    (Continuous.intervalIntegrable (by simp only [inner_poly]; fun_prop) _ _)]
  exact (intervalIntegral.norm_integral_le_of_norm_le_const hb).trans (by norm_num)

/-! ### the sums over the points of a mesh -/

/-- a coordinate of a point of a triangle -/
def pointOf (coords : List (List ℚ)) (index : List Nat) (ξ : Fin 2 → ℚ) (k : Nat) : ℚ :=
  ξ 0 * coordinate coords (index.getD 0 0) k + ξ 1 * coordinate coords (index.getD 1 0) k +
    (1 - ξ 0 - ξ 1) * coordinate coords (index.getD 2 0) k

/-- the quadrature of a function of rationals -/
def rationalSum (coords : List (List ℚ)) (cells : List (List Nat)) (g : ℚ → ℚ → ℚ) : ℚ :=
  (cells.map fun c => doubleArea coords c / 2 *
    (triangle2.map fun p => p.2 * g (pointOf coords c p.1 0) (pointOf coords c p.1 1)).sum).sum

theorem corner_volume (coords : List (List ℚ)) {c : List Nat} (h : c.length = 3) :
    simplexVolume (corners coords c) = ((doubleArea coords c / 2 : ℚ) : ℝ) := by
  obtain ⟨i, j, k, rfl⟩ : ∃ i j k, c = [i, j, k] := List.length_eq_three.mp h
  rw [show simplexVolume (corners coords [i, j, k]) = Fem.triangleArea (corners coords [i, j, k]) from simplexVolume_triangle _,
    Fem.triangleArea, doubleArea]
  simp [corners]

theorem point_eval (coords : List (List ℚ)) (c : List Nat) (ξ : Fin 2 → ℚ) (k : Fin 2) :
    (parametrization (corners coords c)).eval (fun i => (ξ i : ℝ)) k = ((pointOf coords c ξ k : ℚ) : ℝ) := by
  rw [Fem.tri_parametrization, pointOf]
  simp [corners]

theorem fileSum_eq (coords : List (List ℚ)) (cells : List (List Nat)) (h : ∀ c ∈ cells, c.length = 3) (f : Val (.vec 2) → ℝ) :
    fileSum triangle2 coords cells f = (cells.map fun c => ((doubleArea coords c / 2 : ℚ) : ℝ) * (triangle2.map fun p => (p.2 : ℝ) *
      f ((parametrization (corners coords c)).eval fun i => (p.1 i : ℝ))).sum).sum := by
  unfold fileSum
  refine congrArg List.sum (List.map_congr_left fun c hc => ?_)
  rw [corner_volume coords (h c hc), apply, Table.rule, List.map_map]
  rfl

/-- polynomials with rational coefficients -/
theorem fileSum_rational (coords : List (List ℚ)) (cells : List (List Nat)) (h : ∀ c ∈ cells, c.length = 3) (f : Val (.vec 2) → ℝ)
    (g : ℚ → ℚ → ℚ) (hg : ∀ (x : Val (.vec 2)) (a b : ℚ), x 0 = a → x 1 = b → f x = g a b) :
    fileSum triangle2 coords cells f = rationalSum coords cells g := by
  rw [fileSum_eq coords cells h, rationalSum, Rat.cast_list_sum, List.map_map]
  refine congrArg List.sum (List.map_congr_left fun c hc => ?_)
  rw [Function.comp_apply, Rat.cast_mul, Rat.cast_list_sum, List.map_map]
  congr 2
  refine List.map_congr_left fun p hp => ?_
  rw [Function.comp_apply, Rat.cast_mul, hg _ _ _ (point_eval coords c p.1 0) (point_eval coords c p.1 1)]
  rfl

theorem abs_sum_sub_le {α : Type*} (l : List α) (u v w : α → ℝ) (h : ∀ a ∈ l, |u a - v a| ≤ w a) :
    |(l.map u).sum - (l.map v).sum| ≤ (l.map w).sum := by
  induction l with
  | nil => simp
  | cons a l ih =>
    simp only [List.map_cons, List.sum_cons]
    rw [show u a + (l.map u).sum - (v a + (l.map v).sum) = (u a - v a) + ((l.map u).sum - (l.map v).sum) by ring]
    exact (abs_add_le _ _).trans (add_le_add (h a (by simp)) (ih fun b hb => h b (by simp [hb])))

/-- the quadrature of the cosine -/
theorem fileSum_cosine (coords : List (List ℚ)) (cells : List (List Nat)) (h : ∀ c ∈ cells, c.length = 3 ∧ 0 ≤ doubleArea coords c)
    (hp : ∀ c ∈ cells, ∀ p ∈ triangle2, |pointOf coords c p.1 0 * pointOf coords c p.1 1| ≤ 1) :
    |fileSum triangle2 coords cells (fun x => cosine.eval x ()) - rationalSum coords cells fun a b => cosPoly (a * b)| ≤
      cosError * ((cells.map (doubleArea coords)).sum / 2 : ℚ) := by
  rw [fileSum_eq coords cells fun c hc => (h c hc).1, rationalSum, Rat.cast_list_sum, List.map_map]
  have key : ∀ c ∈ cells, |((doubleArea coords c / 2 : ℚ) : ℝ) * (triangle2.map fun p => (p.2 : ℝ) *
      cosine.eval ((parametrization (corners coords c)).eval fun i => (p.1 i : ℝ)) ()).sum -
      ((doubleArea coords c / 2 * (triangle2.map fun p => p.2 * cosPoly (pointOf coords c p.1 0 * pointOf coords c p.1 1)).sum : ℚ) : ℝ)| ≤
      ((cosError * (doubleArea coords c / 2) : ℚ) : ℝ) := by
    intro c hc
    rw [Rat.cast_mul, ← mul_sub, abs_mul, abs_of_nonneg (by exact_mod_cast div_nonneg (h c hc).2 (by norm_num)), mul_comm cosError, Rat.cast_mul]
    refine mul_le_mul_of_nonneg_left ?_ (by exact_mod_cast div_nonneg (h c hc).2 (by norm_num))
    rw [Rat.cast_list_sum, List.map_map]
    refine (abs_sum_sub_le triangle2 _ _ (fun p => (p.2 : ℝ) * cosError) fun p hpm => ?_).trans ?_
    · have h0 : (0 : ℝ) ≤ (p.2 : ℝ) := by
        have : ∀ p ∈ triangle2, 0 ≤ p.2 := by decide +kernel
        exact_mod_cast this p hpm
      rw [Function.comp_apply, Rat.cast_mul, ← mul_sub, abs_mul, abs_of_nonneg h0]
      refine mul_le_mul_of_nonneg_left ?_ h0
      rw [cosine_eval, point_eval, point_eval, cosPoly_cast, ← Rat.cast_mul]
      refine cosPoly_error ?_
      exact_mod_cast hp c hc p hpm
    · rw [show (triangle2.map fun p => (p.2 : ℝ) * cosError) = triangle2.map fun p => ((p.2 * cosError : ℚ) : ℝ) by simp]
      norm_num [triangle2]
      linarith
  refine (abs_sum_sub_le cells _ _ _ key).trans (le_of_eq ?_)
  clear h hp key
  induction cells with
  | nil => simp
  | cons c l ih =>
    simp only [List.map_cons, List.sum_cons, ih]
    push_cast
    ring

theorem result_eq (debug : Bool) (coords : List (List ℚ)) (cells : List (List Nat)) (f : Val (.vec 2) → ℝ) :
    result debug coords cells f = .value (fileSum triangle2 coords cells f) := by
  rw [result, integrate_value _ _ _ _ _ ?_]
  · congr 1
    rw [quadratureSum, fileSum, fileCells, List.map_map]
    conv_rhs => rw [← List.zipIdx_map_fst 0 cells, List.map_map]
    refine congrArg List.sum (List.map_congr_left fun c _ => ?_)
    simp only [Function.comp_apply]
    rw [volume_cartesian (d := 2) (by norm_num) (by norm_num)]
  · rw [fileCells, List.map_map]
    have : (Cell.key ∘ fun c : List Nat × Nat => (⟨c.2, corners coords c.1⟩ : Cell 1 2)) = Prod.snd := rfl
    rw [this, List.zipIdx_map_snd]
    exact List.nodup_range'

/-! ### the two triangles of the benchmark -/

/-- the unit square -/
def unitSquare : Set (Val (.vec 2)) := {x | ∀ i, x i ∈ Set.Icc (0 : ℝ) 1}

/-- the triangle below the diagonal -/
theorem lower_hull : meshHull 1 2 [corner 0, corner 1, corner 2] = {x : Val (.vec 2) | 0 ≤ x 1 ∧ x 1 ≤ x 0 ∧ x 0 ≤ 1} := by
  rw [meshHull, ← parametrization_image]
  ext x
  constructor
  · rintro ⟨ξ, ⟨h1, h2⟩, rfl⟩
    have h3 := h1 0
    have h4 := h1 1
    rw [Fin.sum_univ_two] at h2
    simp only [Set.mem_setOf_eq, Fem.tri_parametrization]
    norm_num [coords, corner]
    exact ⟨by linarith, h4, h3⟩
  · rintro ⟨h1, h2, h3⟩
    refine ⟨![1 - x 0, x 0 - x 1], ⟨fun i => ?_, ?_⟩, ?_⟩
    · fin_cases i
      · simpa using h3
      · simpa using h2
    · rw [Fin.sum_univ_two]
      simpa using h1
    · funext i
      rw [Fem.tri_parametrization]
      fin_cases i <;> norm_num [coords, corner]

/-- the triangle above the diagonal -/
theorem upper_hull : meshHull 1 2 [corner 0, corner 2, corner 3] = {x : Val (.vec 2) | 0 ≤ x 0 ∧ x 0 ≤ x 1 ∧ x 1 ≤ 1} := by
  rw [meshHull, ← parametrization_image]
  ext x
  constructor
  · rintro ⟨ξ, ⟨h1, h2⟩, rfl⟩
    have h3 := h1 0
    have h4 := h1 1
    rw [Fin.sum_univ_two] at h2
    simp only [Set.mem_setOf_eq, Fem.tri_parametrization]
    norm_num [coords, corner]
    exact ⟨h4, by linarith, h3⟩
  · rintro ⟨h1, h2, h3⟩
    refine ⟨![1 - x 1, x 0], ⟨fun i => ?_, ?_⟩, ?_⟩
    · fin_cases i
      · simpa using h3
      · simpa using h1
    · rw [Fin.sum_univ_two]
      simp
      linarith
    · funext i
      rw [Fem.tri_parametrization]
      fin_cases i <;> norm_num [coords, corner]

theorem rotated_three {α : Type*} {l : List α} {p q r : α} (h : l ~r [p, q, r]) : l = [p, q, r] ∨ l = [q, r, p] ∨ l = [r, p, q] := by
  have := List.mem_cyclicPermutations_iff.mpr h
  simpa [List.cyclicPermutations, List.tails, List.inits] using this

theorem hull_rotate (p q r : PNode ℝ) : meshHull 1 2 [q, r, p] = meshHull 1 2 [p, q, r] := by
  have : Set.range (coords 1 2 [q, r, p]) = Set.range (coords 1 2 [p, q, r]) := by
    ext x
    simp only [Set.mem_range, Fin.exists_fin_succ, Fin.exists_fin_zero]
    simp [coords]
    tauto
  rw [meshHull, meshHull, this]

/-- what is needed of a triangle of the benchmark -/
structure Good (S : Set (Val (.vec 2))) (c : List (PNode ℝ)) : Prop where
  len : c.length = 3
  vol : simplexVolume (coords 1 2 c) = 1 / 2
  size : ∀ a b, dist (coords 1 2 c a) (coords 1 2 c b) ≤ 1
  hull : meshHull 1 2 c = S

theorem good_lower {c : List (PNode ℝ)} (h : c ~r [corner 0, corner 1, corner 2]) :
    Good {x : Val (.vec 2) | 0 ≤ x 1 ∧ x 1 ≤ x 0 ∧ x 0 ≤ 1} c := by
  refine ⟨?_, ?_, ?_, ?_⟩
  · rw [h.perm.length_eq]; rfl
  · rcases rotated_three h with rfl | rfl | rfl <;> rw [coords_volume (by norm_num) _ rfl] <;>
      norm_num [corner, signedVolume, Nat.factorial]
  · intro a b
    rw [dist_pi_le_iff (by norm_num)]
    intro i
    rw [Real.dist_eq]
    rcases rotated_three h with rfl | rfl | rfl <;> fin_cases a <;> fin_cases b <;> fin_cases i <;> norm_num [coords, corner]
  · rcases rotated_three h with rfl | rfl | rfl
    · exact lower_hull
    · rw [hull_rotate, lower_hull]
    · rw [hull_rotate, hull_rotate, lower_hull]

theorem good_upper {c : List (PNode ℝ)} (h : c ~r [corner 0, corner 2, corner 3]) :
    Good {x : Val (.vec 2) | 0 ≤ x 0 ∧ x 0 ≤ x 1 ∧ x 1 ≤ 1} c := by
  refine ⟨?_, ?_, ?_, ?_⟩
  · rw [h.perm.length_eq]; rfl
  · rcases rotated_three h with rfl | rfl | rfl <;> rw [coords_volume (by norm_num) _ rfl] <;>
      norm_num [corner, signedVolume, Nat.factorial]
  · intro a b
    rw [dist_pi_le_iff (by norm_num)]
    intro i
    rw [Real.dist_eq]
    rcases rotated_three h with rfl | rfl | rfl <;> fin_cases a <;> fin_cases b <;> fin_cases i <;> norm_num [coords, corner]
  · rcases rotated_three h with rfl | rfl | rfl
    · exact upper_hull
    · rw [hull_rotate, upper_hull]
    · rw [hull_rotate, hull_rotate, upper_hull]

theorem domain_square {A B : List (PNode ℝ)} {S T : Set (Val (.vec 2))} (hA : Good S A) (hB : Good T B) (h : S ∪ T = unitSquare) :
    meshDomain 1 2 [A, B] = unitSquare := by
  rw [meshDomain_cons, meshDomain_cons, hA.hull, hB.hull, ← h]
  simp [meshDomain]

theorem two_halves : {x : Val (.vec 2) | 0 ≤ x 1 ∧ x 1 ≤ x 0 ∧ x 0 ≤ 1} ∪ {x : Val (.vec 2) | 0 ≤ x 0 ∧ x 0 ≤ x 1 ∧ x 1 ≤ 1} = unitSquare := by
  ext x
  simp only [unitSquare, Set.mem_union, Set.mem_setOf_eq, Set.mem_Icc]
  constructor
  · rintro (h | h) i <;> fin_cases i <;> constructor <;> simp <;> linarith
  · intro h
    rcases le_total (x 0) (x 1) with hx | hx
    · exact Or.inr ⟨(h 0).1, hx, (h 1).2⟩
    · exact Or.inl ⟨(h 1).1, hx, (h 0).2⟩

theorem halves_null : volume ({x : Val (.vec 2) | 0 ≤ x 1 ∧ x 1 ≤ x 0 ∧ x 0 ≤ 1} ∩ {x : Val (.vec 2) | 0 ≤ x 0 ∧ x 0 ≤ x 1 ∧ x 1 ≤ 1}) = 0 :=
  measure_mono_null (fun _ hy => le_antisymm hy.2.2.1 hy.1.2.1) diagonal_null

/-- the integral over the square is the iterated integral -/
theorem square_integral {f : ℝ → ℝ → ℝ} (hf : Continuous fun p : ℝ × ℝ => f p.1 p.2) :
    (∫ x in unitSquare, f (x 0) (x 1)) = ∫ x in (0 : ℝ)..1, ∫ y in (0 : ℝ)..1, f x y := by
  have hm : MeasurePreserving (MeasurableEquiv.finTwoArrow (α := ℝ)) := volume_preserving_finTwoArrow ℝ
  have he : unitSquare = MeasurableEquiv.finTwoArrow (α := ℝ) ⁻¹' (Set.Icc 0 1 ×ˢ Set.Icc 0 1) := by
    ext x
    simp only [unitSquare, Set.mem_setOf_eq, Set.mem_preimage, Set.mem_prod, Fin.forall_fin_two]
    rfl
  have hk := hm.setIntegral_preimage_emb (MeasurableEquiv.measurableEmbedding _) (fun p : ℝ × ℝ => f p.1 p.2) (Set.Icc 0 1 ×ˢ Set.Icc 0 1)
  rw [he]
  refine hk.trans ?_
  rw [Measure.volume_eq_prod, setIntegral_prod]
  · rw [intervalIntegral.integral_of_le zero_le_one, ← integral_Icc_eq_integral_Ioc]
    refine setIntegral_congr_fun measurableSet_Icc fun x _ => ?_
    simp only
    rw [intervalIntegral.integral_of_le zero_le_one, ← integral_Icc_eq_integral_Ioc]
  · rw [← Measure.volume_eq_prod]
    exact hf.continuousOn.integrableOn_compact (isCompact_Icc.prod isCompact_Icc)

theorem cosine_taylor : TaylorOn (fun x => cosine.eval x ()) unitSquare 2 4 := by
  intro x hx
  let L : MvPolynomial (Fin 2) ℝ := MvPolynomial.C (x 1) * (MvPolynomial.X 0 - MvPolynomial.C (x 0)) +
    MvPolynomial.C (x 0) * (MvPolynomial.X 1 - MvPolynomial.C (x 1))
  let B : MvPolynomial (Fin 2) ℝ := (MvPolynomial.X 0 - MvPolynomial.C (x 0)) * (MvPolynomial.X 1 - MvPolynomial.C (x 1))
  have hX : ∀ (i : Fin 2) (c : ℝ), (MvPolynomial.X i - MvPolynomial.C c : MvPolynomial (Fin 2) ℝ).totalDegree ≤ 1 := fun i c =>
    (MvPolynomial.totalDegree_sub _ _).trans (max_le (MvPolynomial.totalDegree_X i).le (by rw [MvPolynomial.totalDegree_C]; norm_num))
  have hCm : ∀ (c : ℝ) (p : MvPolynomial (Fin 2) ℝ), (MvPolynomial.C c * p).totalDegree ≤ p.totalDegree := fun c p =>
    (MvPolynomial.totalDegree_mul _ _).trans (by rw [MvPolynomial.totalDegree_C, zero_add])
  have hL : L.totalDegree ≤ 1 := (MvPolynomial.totalDegree_add _ _).trans (max_le ((hCm _ _).trans (hX _ _)) ((hCm _ _).trans (hX _ _)))
  have hB : B.totalDegree ≤ 2 := (MvPolynomial.totalDegree_mul _ _).trans (add_le_add (hX _ _) (hX _ _))
  have hL2 : (L ^ 2).totalDegree ≤ 2 := (MvPolynomial.totalDegree_pow _ _).trans (by omega)
  refine ⟨MvPolynomial.C (Real.cos (x 0 * x 1)) - MvPolynomial.C (Real.sin (x 0 * x 1)) * (L + B) -
    MvPolynomial.C (Real.cos (x 0 * x 1) / 2) * L ^ 2, ?_, fun y hy => ?_⟩
  · refine (MvPolynomial.totalDegree_sub _ _).trans (max_le ((MvPolynomial.totalDegree_sub _ _).trans (max_le ?_ ?_)) ?_)
    · rw [MvPolynomial.totalDegree_C]; norm_num
    · exact (hCm _ _).trans ((MvPolynomial.totalDegree_add _ _).trans (max_le (by omega) hB))
    · exact (hCm _ _).trans hL2
  · have h0 := dist_le_pi_dist x y 0
    have h1 := dist_le_pi_dist x y 1
    rw [Real.dist_eq, abs_sub_comm] at h0 h1
    set ρ := dist x y
    have hρ : 0 ≤ ρ := dist_nonneg
    simp only [L, B, map_sub, map_add, map_mul, map_pow, MvPolynomial.eval_C, MvPolynomial.eval_X, cosine_eval]
    obtain ⟨hx0, hx0'⟩ := hx 0
    obtain ⟨hx1, hx1'⟩ := hx 1
    obtain ⟨hy0, hy0'⟩ := hy 0
    obtain ⟨hy1, hy1'⟩ := hy 1
    set d := x 1 * (y 0 - x 0) + x 0 * (y 1 - x 1) with hd
    set e := (y 0 - x 0) * (y 1 - x 1) with he
    have e1 : y 0 * y 1 = x 0 * x 1 + (d + e) := by rw [hd, he]; ring
    have b1 : |d| ≤ 2 * ρ := by
      rw [hd]
      refine (abs_add_le _ _).trans ?_
      rw [abs_mul, abs_mul, abs_of_nonneg hx0, abs_of_nonneg hx1]
      nlinarith [abs_nonneg (y 0 - x 0), abs_nonneg (y 1 - x 1)]
    have b2 : |d + e| ≤ 2 * ρ := by
      have : d + e = (y 0 - x 0) * y 1 + x 0 * (y 1 - x 1) := by rw [hd, he]; ring
      rw [this]
      refine (abs_add_le _ _).trans ?_
      rw [abs_mul, abs_mul, abs_of_nonneg hx0, abs_of_nonneg hy1]
      nlinarith [abs_nonneg (y 0 - x 0), abs_nonneg (y 1 - x 1)]
    have b3 : |d + e| ≤ 2 := by
      rw [show d + e = y 0 * y 1 - x 0 * x 1 by rw [e1]; ring, abs_le]
      constructor <;> nlinarith
    have b4 : |e| ≤ ρ ^ 2 := by
      rw [he, abs_mul, sq]
      exact mul_le_mul h0 h1 (abs_nonneg _) hρ
    have hc := cos_second (x 0 * x 1) (d + e) b3
    rw [e1]
    have hsplit : Real.cos (x 0 * x 1 + (d + e)) - (Real.cos (x 0 * x 1) - Real.sin (x 0 * x 1) * (d + e) - Real.cos (x 0 * x 1) / 2 * d ^ 2) =
        (Real.cos (x 0 * x 1 + (d + e)) - (Real.cos (x 0 * x 1) - Real.sin (x 0 * x 1) * (d + e) - Real.cos (x 0 * x 1) * (d + e) ^ 2 / 2)) -
          Real.cos (x 0 * x 1) * (e * ((d + e) + d) / 2) := by ring
    rw [hsplit]
    refine (abs_sub _ _).trans ?_
    have b5 : |Real.cos (x 0 * x 1) * (e * ((d + e) + d) / 2)| ≤ 2 * ρ ^ 3 := by
      rw [abs_mul, abs_div, abs_mul, abs_two]
      have c1 : |d + e + d| ≤ 4 * ρ := (abs_add_le _ _).trans (by linarith)
      have c2 : |e| * |d + e + d| ≤ ρ ^ 2 * (4 * ρ) := mul_le_mul b4 c1 (abs_nonneg _) (by positivity)
      have c3 := mul_le_mul (Real.abs_cos_le_one (x 0 * x 1)) (div_le_div_of_nonneg_right c2 (zero_le_two : (0 : ℝ) ≤ 2)) (by positivity) zero_le_one
      refine c3.trans (le_of_eq ?_)
      ring
    have b6 : |d + e| ^ 3 / 4 ≤ 2 * ρ ^ 3 := by
      have := pow_le_pow_left₀ (abs_nonneg _) b2 3
      have e8 : (2 * ρ) ^ 3 = 8 * ρ ^ 3 := by ring
      linarith
    have e3 : (4 : ℝ) * ρ ^ (2 + 1) = 2 * ρ ^ 3 + 2 * ρ ^ 3 := by ring
    rw [e3]
    exact add_le_add (hc.trans b6) b5

end Mito.CosineTests
