import Verif.Fem.QuadraticLemmas

/-! # Energy estimates on quadratic triangles -/

namespace Mito.Fem.Quadratic

open Mito.Functions Mito.Geometry Mito.Quadrature MeasureTheory

variable {x : Fin 3 → Fin 2 → ℝ}

/-! ## Functions of degree two -/

theorem hull_add (x : Fin 3 → Fin 2 → ℝ) {f g : (Fin 2 → ℝ) → ℝ} (hf : Continuous f) (hg : Continuous g) :
    ∫ y in hull x, (f y + g y) = (∫ y in hull x, f y) + ∫ y in hull x, g y :=
  integral_add (hull_integrable x hf) (hull_integrable x hg)

theorem hull_sub (x : Fin 3 → Fin 2 → ℝ) {f g : (Fin 2 → ℝ) → ℝ} (hf : Continuous f) (hg : Continuous g) :
    ∫ y in hull x, (f y - g y) = (∫ y in hull x, f y) - ∫ y in hull x, g y :=
  integral_sub (hull_integrable x hf) (hull_integrable x hg)

/-- quadratic functions -/
def IsQuad (x : Fin 3 → Fin 2 → ℝ) (g : (Fin 2 → ℝ) → ℝ) : Prop := ∃ c, ∀ ξ, g ((parametrization x).eval ξ) = poly2 c ξ

theorem IsQuad.add {g h : (Fin 2 → ℝ) → ℝ} (hg : IsQuad x g) (hh : IsQuad x h) : IsQuad x fun y => g y + h y := by
  obtain ⟨c, hc⟩ := hg
  obtain ⟨d, hd⟩ := hh
  refine ⟨fun i => c i + d i, fun ξ => ?_⟩
  simp only [hc, hd, poly2]
  ring

theorem IsQuad.const_mul {g : (Fin 2 → ℝ) → ℝ} (hg : IsQuad x g) (a : ℝ) : IsQuad x fun y => a * g y := by
  obtain ⟨c, hc⟩ := hg
  refine ⟨fun i => a * c i, fun ξ => ?_⟩
  simp only [hc, poly2]
  ring

theorem IsQuad.const (x : Fin 3 → Fin 2 → ℝ) (a : ℝ) : IsQuad x fun _ => a := by
  refine ⟨![a, 0, 0, 0, 0, 0], fun ξ => ?_⟩
  simp [poly2]

theorem IsQuad.coord (x : Fin 3 → Fin 2 → ℝ) (k : Fin 2) : IsQuad x fun y => y k := by
  refine ⟨![x 2 k, x 0 k - x 2 k, x 1 k - x 2 k, 0, 0, 0], fun ξ => ?_⟩
  beta_reduce
  rw [tri_param]
  simp [poly2]
  ring

theorem IsQuad.mul_linear (hx : triangleArea x ≠ 0) (v w : Fin 3 → ℝ) : IsQuad x fun y => linear x v y * linear x w y := by
  refine ⟨![v 2 * w 2, (v 0 - v 2) * w 2 + v 2 * (w 0 - w 2), (v 1 - v 2) * w 2 + v 2 * (w 1 - w 2), (v 0 - v 2) * (w 0 - w 2),
    (v 1 - v 2) * (w 1 - w 2), (v 0 - v 2) * (w 1 - w 2) + (v 1 - v 2) * (w 0 - w 2)], fun ξ => ?_⟩
  beta_reduce
  rw [linear_param hx, linear_param hx]
  simp [poly2]
  ring

theorem IsQuad.quad (hx : triangleArea x ≠ 0) (V : Fin 6 → ℝ) : IsQuad x (quad x V) := by
  refine ⟨![V 2, -V 0 - 3 * V 2 + 4 * V 5, -V 1 - 3 * V 2 + 4 * V 4, 2 * V 0 + 2 * V 2 - 4 * V 5, 2 * V 1 + 2 * V 2 - 4 * V 4,
    4 * V 2 + 4 * V 3 - 4 * V 4 - 4 * V 5], fun ξ => ?_⟩
  obtain ⟨b0, b1, b2⟩ := bary_param hx ξ
  rw [quad_eq, b0, b1, b2]
  simp [poly2]
  ring

theorem IsQuad.energy (hx : triangleArea x ≠ 0) (V W : Fin 6 → ℝ) : IsQuad x fun y => ∑ k, qslope x V k y * qslope x W k y := by
  simp only [Fin.sum_univ_two]
  have h : ∀ k, IsQuad x fun y => qslope x V k y * qslope x W k y := fun k => by
    have := IsQuad.mul_linear hx (fun i => qslope x V k (x i)) (fun i => qslope x W k (x i))
    simpa only [← qslope_linear hx] using this
  exact (h 0).add (h 1)

/-- rules of degree two are exact -/
theorem IsQuad.exact {tb : Table 2} (h : Accurate mean2 tb 2 0) (hx : 0 < triangleArea x) {g : (Fin 2 → ℝ) → ℝ} (hg : IsQuad x g) :
    triangleArea x * apply tb (fun ξ => g ((parametrization x).eval ξ)) = ∫ y in hull x, g y := by
  obtain ⟨c, hc⟩ := hg
  rw [apply_poly2 h hc, hull_poly2 hx hc]

theorem accurate_sum {tb : Table 2} (h : Accurate mean2 tb 2 0) : (tb.map Prod.snd).sum = 1 := by
  have h1 := accurate_poly2 h ![1, 0, 0, 0, 0, 0]
  rw [mean_poly2] at h1
  have h2 : (tb.rule.map Prod.snd).sum = 1 := by
    simpa [apply, poly2, poly2Mean] using h1
  have h3 : ∀ t : Table 2, (t.rule.map Prod.snd).sum = ((t.map Prod.snd).sum : ℚ) := by
    intro t
    induction t with
    | nil => simp [Table.rule]
    | cons p t ih =>
      simp only [Table.rule, List.map_cons, List.sum_cons] at ih ⊢
      rw [ih]
      push_cast
      ring
  rw [h3] at h2
  exact_mod_cast h2

/-! ## Bounds for the gradient -/

theorem linear_max (hx : 0 < triangleArea x) (w : Fin 3 → ℝ) {y : Fin 2 → ℝ} (hy : y ∈ hull x) :
    triangleArea x * linear x w y ^ 2 ≤ 12 * ∫ z in hull x, linear x w z ^ 2 := by
  have h1 : ∫ z in hull x, linear x w z ^ 2 = triangleArea x * ((w 0 ^ 2 + w 1 ^ 2 + w 2 ^ 2 + w 0 * w 1 + w 1 * w 2 + w 2 * w 0) / 6) := by
    rw [hull_poly2 hx (c := ![w 2 ^ 2, 2 * ((w 0 - w 2) * w 2), 2 * ((w 1 - w 2) * w 2), (w 0 - w 2) ^ 2, (w 1 - w 2) ^ 2,
      2 * ((w 0 - w 2) * (w 1 - w 2))]) fun ξ => ?_]
    · congr 1
      simp [poly2Mean]
      ring
    · rw [linear_param hx.ne']
      simp [poly2]
      ring
  rw [h1, mul_left_comm]
  refine mul_le_mul_of_nonneg_left ?_ hx.le
  have hl := bary_hull hx.ne' hy
  have hs := bary_sum x y
  rw [linear_eq_bary]
  have h0 := (hl 0).1
  have h1 := (hl 1).1
  have h2 := (hl 2).1
  set a := bary x 0 y
  set b := bary x 1 y
  set c := bary x 2 y
  have h3 : (w 0 * a + w 1 * b + w 2 * c) ^ 2 ≤ w 0 ^ 2 + w 1 ^ 2 + w 2 ^ 2 := by
    have hc : a + b + c = 1 := by linarith
    have h4 : (w 0 * a + w 1 * b + w 2 * c) ^ 2 ≤ (w 0 ^ 2 * a + w 1 ^ 2 * b + w 2 ^ 2 * c) * (a + b + c) := by
      nlinarith [mul_nonneg (mul_nonneg h0 h1) (sq_nonneg (w 0 - w 1)), mul_nonneg (mul_nonneg h1 h2) (sq_nonneg (w 1 - w 2)),
        mul_nonneg (mul_nonneg h0 h2) (sq_nonneg (w 0 - w 2))]
    rw [hc, mul_one] at h4
    nlinarith [mul_le_mul_of_nonneg_left (hl 0).2 (sq_nonneg (w 0)), mul_le_mul_of_nonneg_left (hl 1).2 (sq_nonneg (w 1)),
      mul_le_mul_of_nonneg_left (hl 2).2 (sq_nonneg (w 2))]
  nlinarith [sq_nonneg (w 0 + w 1 + w 2)]

theorem energy_continuous (x : Fin 3 → Fin 2 → ℝ) (V : Fin 6 → ℝ) : Continuous fun y => ∑ k, qslope x V k y ^ 2 :=
  continuous_finset_sum _ fun k _ => (qslope_continuous x V k).pow 2

/-- the largest gradient -/
theorem gradient_max (hx : 0 < triangleArea x) (V : Fin 6 → ℝ) :
    ∃ G, 0 ≤ G ∧ (∀ y ∈ hull x, ∑ k, |qslope x V k y| ≤ G) ∧
      triangleArea x * G ^ 2 = 24 * ∫ y in hull x, ∑ k, qslope x V k y ^ 2 := by
  have h0 : 0 ≤ ∫ y in hull x, ∑ k, qslope x V k y ^ 2 :=
    setIntegral_nonneg (hull_compact x).measurableSet fun y _ => Finset.sum_nonneg fun k _ => sq_nonneg _
  have hsq : triangleArea x * Real.sqrt (24 * (∫ y in hull x, ∑ k, qslope x V k y ^ 2) / triangleArea x) ^ 2 =
      24 * ∫ y in hull x, ∑ k, qslope x V k y ^ 2 := by
    rw [Real.sq_sqrt (by positivity), mul_div_cancel₀ _ hx.ne']
  refine ⟨_, Real.sqrt_nonneg _, fun y hy => ?_, hsq⟩
  refine Real.le_sqrt_of_sq_le ?_
  rw [le_div_iff₀ hx, mul_comm]
  have h1 : ∀ k, triangleArea x * qslope x V k y ^ 2 ≤ 12 * ∫ z in hull x, qslope x V k z ^ 2 := fun k => by
    have := linear_max hx (fun i => qslope x V k (x i)) hy
    simpa only [← qslope_linear hx.ne'] using this
  have h2 : ∫ y in hull x, ∑ k, qslope x V k y ^ 2 = ∑ k, ∫ y in hull x, qslope x V k y ^ 2 :=
    integral_finset_sum _ fun k _ => hull_integrable x ((qslope_continuous x V k).pow 2)
  rw [h2, Fin.sum_univ_two, Fin.sum_univ_two]
  have h3 := add_square' |qslope x V 0 y| |qslope x V 1 y|
  rw [sq_abs, sq_abs] at h3
  nlinarith [h1 0, h1 1, mul_le_mul_of_nonneg_left h3 hx.le]
where
  add_square' (a b : ℝ) : (a + b) ^ 2 ≤ 2 * a ^ 2 + 2 * b ^ 2 := by nlinarith [sq_nonneg (a - b)]

/-! ## The error of the rule -/

theorem rule_bound {tb : Table 2} (ht : Inside tb) (hsum : (tb.map Prod.snd).sum = 1) (hx : 0 < triangleArea x)
    {g : (Fin 2 → ℝ) → ℝ} (hg : Continuous g) {s : ℝ} (hs : ∀ y ∈ hull x, |g y| ≤ s) :
    |triangleArea x * apply tb (fun ξ => g ((parametrization x).eval ξ)) - ∫ y in hull x, g y| ≤ 2 * s * triangleArea x := by
  have hload := cell_error ht hsum x g (hull_integrable x hg) (ε := 2 * s) fun y hy z hz => by
    have := abs_sub (g y) (g z)
    linarith [hs y hy, hs z hz]
  rwa [show volume.real (convexHull ℝ (Set.range x)) = triangleArea x from area_hull x hx.le] at hload

theorem apply_add {d : Nat} (t : Table d) (f g : (Fin d → ℝ) → ℝ) : apply t (fun ξ => f ξ + g ξ) = apply t f + apply t g := by
  simp only [apply, mul_add]
  exact List.sum_map_add

/-- the error of the source term -/
theorem source_error {tb : Table 2} (ht : Inside tb) (hacc : Accurate mean2 tb 2 0) (hx : 0 < triangleArea x) {r : ℝ}
    (hr : ∀ a b, dist (x a) (x b) ≤ r) {f : (Fin 2 → ℝ) → ℝ} (hf : Continuous f) {ε η c : ℝ} {z g : Fin 2 → ℝ}
    (hε : ∀ y ∈ hull x, ∀ y' ∈ hull x, |f y - f y'| ≤ ε) (hη : ∀ y ∈ hull x, |f y - (c + ∑ k, g k * (y k - z k))| ≤ η) (V : Fin 6 → ℝ) {G : ℝ}
    (hG : ∀ y ∈ hull x, ∑ k, |qslope x V k y| ≤ G) :
    |triangleArea x * apply tb (fun ξ => f ((parametrization x).eval ξ) * quad x V ((parametrization x).eval ξ)) -
      ∫ y in hull x, f y * quad x V y| ≤ 2 * η * (∫ y in hull x, |quad x V y|) + 2 * (ε * (r * G)) * triangleArea x := by
  set A := triangleArea x with hA
  set m := (∫ y in hull x, quad x V y) / A with hm
  have hqc := quad_continuous x V
  have hsum := accurate_sum hacc
  have hη0 : 0 ≤ η := (abs_nonneg _).trans (hη _ (node_hull x 0))
  have hε0 : 0 ≤ ε := (abs_nonneg _).trans (hε _ (node_hull x 0) _ (node_hull x 0))
  -- the mean
  have hm1 : |m| * A ≤ ∫ y in hull x, |quad x V y| := by
    rw [hm, abs_div, abs_of_pos hx, div_mul_cancel₀ _ hx.ne']
    exact abs_integral_le_integral_abs
  have hm2 : ∀ y ∈ hull x, |quad x V y - m| ≤ r * G := by
    intro y hy
    have e : quad x V y - m = (∫ z in hull x, (quad x V y - quad x V z)) / A := by
      rw [integral_sub (hull_integrable x continuous_const) (hull_integrable x hqc), hull_const x hx.le, hm, sub_div,
        mul_div_cancel_left₀ _ hx.ne']
    rw [e, abs_div, abs_of_pos hx, div_le_iff₀ hx, mul_comm]
    exact hull_abs x hx.le (continuous_const.sub hqc) fun z hz => quad_variation hx.ne' hr V hG hy hz
  -- the three parts
  let ℓ : (Fin 2 → ℝ) → ℝ := fun y => c + ∑ k, g k * (y k - z k)
  have hℓ : Continuous ℓ := by fun_prop
  let g1 : (Fin 2 → ℝ) → ℝ := fun y => m * (f y - ℓ y)
  let g2 : (Fin 2 → ℝ) → ℝ := fun y => (f y - f (x 0)) * (quad x V y - m)
  let g3 : (Fin 2 → ℝ) → ℝ := fun y => m * ℓ y + (f (x 0) * quad x V y + -(f (x 0) * m))
  have e : ∀ y, f y * quad x V y = g1 y + (g2 y + g3 y) := fun y => by simp only [g1, g2, g3]; ring
  have c1 : Continuous g1 := by fun_prop
  have c2 : Continuous g2 := by fun_prop
  have c3 : Continuous g3 := by fun_prop
  have q3 : IsQuad x g3 := by
    have hl : IsQuad x ℓ := by
      have h : ℓ = fun y => (c - g 0 * z 0 - g 1 * z 1) + (g 0 * y 0 + g 1 * y 1) := by
        funext y
        simp only [ℓ, Fin.sum_univ_two]
        ring
      rw [h]
      exact (IsQuad.const x _).add (((IsQuad.coord x 0).const_mul _).add ((IsQuad.coord x 1).const_mul _))
    exact (hl.const_mul m).add (((IsQuad.quad hx.ne' V).const_mul _).add (IsQuad.const x _))
  have b1 := rule_bound ht hsum hx c1 (s := |m| * η) fun y hy => by
    rw [abs_mul]
    exact mul_le_mul_of_nonneg_left (hη y hy) (abs_nonneg _)
  have b2 := rule_bound ht hsum hx c2 (s := ε * (r * G)) fun y hy => by
    rw [abs_mul]
    exact mul_le_mul (hε y hy _ (node_hull x 0)) (hm2 y hy) (abs_nonneg _) hε0
  have b3 := q3.exact hacc hx
  simp only [e]
  have hsplit : ∫ y in hull x, (g1 y + (g2 y + g3 y)) = (∫ y in hull x, g1 y) + ((∫ y in hull x, g2 y) + ∫ y in hull x, g3 y) := by
    rw [hull_add x c1 (g := fun y => g2 y + g3 y) (c2.add c3), hull_add x c2 c3]
  rw [apply_add, apply_add, hsplit, ← b3]
  set P1 := apply tb fun ξ => g1 ((parametrization x).eval ξ)
  set P2 := apply tb fun ξ => g2 ((parametrization x).eval ξ)
  set P3 := apply tb fun ξ => g3 ((parametrization x).eval ξ)
  have e2 : A * (P1 + (P2 + P3)) - ((∫ y in hull x, g1 y) + ((∫ y in hull x, g2 y) + A * P3)) =
      (A * P1 - ∫ y in hull x, g1 y) + (A * P2 - ∫ y in hull x, g2 y) := by ring
  rw [e2]
  refine (abs_add_le _ _).trans (add_le_add (b1.trans ?_) b2)
  nlinarith [mul_le_mul_of_nonneg_left hm1 hη0]

/-! ## Green's identity and Friedrichs' inequality -/

theorem green_smooth {u w : (Fin 2 → ℝ) → ℝ} (hu : ContDiff ℝ 2 u) (hw : ContDiff ℝ 2 w) (x : Fin 3 → Fin 2 → ℝ) :
    ∫ y in hull x, ∑ k, fderiv ℝ (fun y => w y * partial2 u k y) y (Pi.single k 1) =
      (∫ y in hull x, ∑ k, partial2 w k y * partial2 u k y) - ∫ y in hull x, sourceOf u y * w y := by
  have hg : ∀ k, Differentiable ℝ (partial2 u k) := fun k => (partial_contDiff hu k).differentiable one_ne_zero
  have hc : ∀ k, Continuous (partial2 u k) := fun k => (partial_contDiff hu k).continuous
  have hcw : ∀ k, Continuous (partial2 w k) := fun k => (partial_contDiff hw k).continuous
  have e : ∀ y, ∑ k, fderiv ℝ (fun y => w y * partial2 u k y) y (Pi.single k 1) =
      (∑ k, partial2 w k y * partial2 u k y) - sourceOf u y * w y := by
    intro y
    simp only [partial_mul (hw.differentiable two_ne_zero) (hg _), sourceOf, Fin.sum_univ_two]
    ring
  simp only [e]
  rw [integral_sub]
  · exact hull_integrable x (continuous_finset_sum _ fun k _ => (hcw k).mul (hc k))
  · exact hull_integrable x ((source_continuous hu).mul hw.continuous)

theorem friedrichs_smooth {w : (Fin 2 → ℝ) → ℝ} (hw : ContDiff ℝ 2 w) (x : Fin 3 → Fin 2 → ℝ) :
    ∫ y in hull x, ∑ k, fderiv ℝ (firstTimes w k) y (Pi.single k 1) =
      (∫ y in hull x, w y ^ 2) + ∫ y in hull x, 2 * y 0 * w y * partial2 w 0 y := by
  have hd := hw.differentiable two_ne_zero
  have e : ∀ y, ∑ k, fderiv ℝ (firstTimes w k) y (Pi.single k 1) = w y ^ 2 + 2 * y 0 * w y * partial2 w 0 y := by
    intro y
    have h0 : HasFDerivAt (fun y : Fin 2 → ℝ => y 0) (ContinuousLinearMap.proj (R := ℝ) (φ := fun _ : Fin 2 => ℝ) 0) y :=
      hasFDerivAt_apply 0 y
    have h1 := (h0.mul ((hd y).hasFDerivAt.pow 2)).fderiv
    have e0 : firstTimes w 0 = (fun y : Fin 2 → ℝ => y 0) * fun y => w y ^ 2 := by funext y; simp [firstTimes]
    have e1 : firstTimes w 1 = fun _ => 0 := by funext y; simp [firstTimes]
    rw [Fin.sum_univ_two, e1, e0, h1]
    simp [partial2]
    ring
  simp only [e]
  have hc : Continuous (partial2 w 0) := (partial_contDiff hw 0).continuous
  have hcw := hw.continuous
  rw [integral_add]
  · exact hull_integrable x (hcw.pow 2)
  · exact hull_integrable x (by fun_prop)

theorem quad_friedrichs {α : Type} (L : List α) (x : α → Fin 3 → Fin 2 → ℝ) (V : α → Fin 6 → ℝ) {R : ℝ}
    (hR : ∀ a ∈ L, ∀ y ∈ hull (x a), |y 0| ≤ R)
    (h0 : (L.map fun a => (∫ y in hull (x a), quad (x a) (V a) y ^ 2) +
      ∫ y in hull (x a), 2 * y 0 * quad (x a) (V a) y * partial2 (quad (x a) (V a)) 0 y).sum = 0) :
    (L.map fun a => ∫ y in hull (x a), quad (x a) (V a) y ^ 2).sum ≤
      4 * R ^ 2 * (L.map fun a => ∫ y in hull (x a), ∑ k, qslope (x a) (V a) k y ^ 2).sum := by
  have hcell : ∀ a ∈ L, -(∫ y in hull (x a), 2 * y 0 * quad (x a) (V a) y * partial2 (quad (x a) (V a)) 0 y) ≤
      1 / 2 * (∫ y in hull (x a), quad (x a) (V a) y ^ 2) + 2 * R ^ 2 * ∫ y in hull (x a), ∑ k, qslope (x a) (V a) k y ^ 2 := by
    intro a ha
    have hq := quad_continuous (x a) (V a)
    have hs := qslope_continuous (x a) (V a)
    have he := energy_continuous (x a) (V a)
    simp only [quad_partial]
    rw [← integral_neg, ← integral_const_mul, ← integral_const_mul, ← hull_add _ (f := fun y => 1 / 2 * quad (x a) (V a) y ^ 2)
      (g := fun y => 2 * R ^ 2 * ∑ k, qslope (x a) (V a) k y ^ 2) (by fun_prop) (he.const_mul _)]
    have hs0 := hs 0
    refine hull_mono _ (by fun_prop) ((by fun_prop : Continuous fun y => 1 / 2 * quad (x a) (V a) y ^ 2).add (continuous_const.mul he)) fun y hy => ?_
    have hy0 := abs_le.mp (hR a ha y hy)
    have hsq : y 0 ^ 2 ≤ R ^ 2 := sq_le_sq' hy0.1 hy0.2
    rw [Fin.sum_univ_two]
    have h1 := mul_le_mul_of_nonneg_right hsq (sq_nonneg (qslope (x a) (V a) 0 y))
    have h2 : 0 ≤ R ^ 2 * qslope (x a) (V a) 1 y ^ 2 := by positivity
    nlinarith [sq_nonneg (quad (x a) (V a) y + 2 * (y 0 * qslope (x a) (V a) 0 y))]
  have hs := list_le L hcell
  rw [list_add, List.sum_map_mul_left, List.sum_map_mul_left, list_neg] at hs
  rw [list_add] at h0
  linarith

/-- the energy of the difference between the solution and the interpolating function -/
theorem quad_energy {α : Type} (L : List α) (x : α → Fin 3 → Fin 2 → ℝ) (v U : α → Fin 6 → ℝ) {t : Table 2} (ht : Inside t)
    (hacc : Accurate mean2 t 2 0) {u : (Fin 2 → ℝ) → ℝ} (hu : ContDiff ℝ 2 u) (hx : ∀ a ∈ L, 0 < triangleArea (x a))
    {r e ε η R : ℝ} (hr : ∀ a ∈ L, ∀ b c, dist (x a b) (x a c) ≤ r)
    (he : ∀ a ∈ L, ∀ k, ∀ y ∈ hull (x a), |qslope (x a) (fun b => u (nodesTri2 (x a) b)) k y - partial2 u k y| ≤ e)
    (hε : ∀ a ∈ L, ∀ y ∈ hull (x a), ∀ z ∈ hull (x a), |sourceOf u y - sourceOf u z| ≤ ε)
    (hη : ∀ a ∈ L, ∃ (c : ℝ) (z g : Fin 2 → ℝ), ∀ y ∈ hull (x a), |sourceOf u y - (c + ∑ k, g k * (y k - z k))| ≤ η)
    (hR0 : 0 < R) (hR : ∀ a ∈ L, ∀ y ∈ hull (x a), |y 0| ≤ R)
    (hv : ∀ a ∈ L, ∀ b, v a b = U a b - u (nodesTri2 (x a) b))
    (hG : (L.map fun a => (∫ y in hull (x a), ∑ k, partial2 (quad (x a) (v a)) k y * partial2 u k y) -
      ∫ y in hull (x a), sourceOf u y * quad (x a) (v a) y).sum = 0)
    (h0 : (L.map fun a => (∫ y in hull (x a), quad (x a) (v a) y ^ 2) +
      ∫ y in hull (x a), 2 * y 0 * quad (x a) (v a) y * partial2 (quad (x a) (v a)) 0 y).sum = 0)
    (hE : (L.map fun a => triangleArea (x a) * apply t fun ξ => ∑ k, qslope (x a) (v a) k ((parametrization (x a)).eval ξ) *
        qslope (x a) (U a) k ((parametrization (x a)).eval ξ)).sum =
      (L.map fun a => triangleArea (x a) *
        apply t fun ξ => sourceOf u ((parametrization (x a)).eval ξ) * quad (x a) (v a) ((parametrization (x a)).eval ξ)).sum) :
    (L.map fun a => ∫ y in hull (x a), ∑ k, qslope (x a) (v a) k y ^ 2).sum ≤
      (L.map fun a => triangleArea (x a)).sum * (8 * e ^ 2 + 384 * ε ^ 2 * r ^ 2 + 32 * R ^ 2 * η ^ 2) := by
  have hfr := quad_friedrichs L x v hR h0
  have hcell : ∀ a ∈ L, triangleArea (x a) *
        apply t (fun ξ => sourceOf u ((parametrization (x a)).eval ξ) * quad (x a) (v a) ((parametrization (x a)).eval ξ)) -
        (∫ y in hull (x a), sourceOf u y * quad (x a) (v a) y) +
        ∫ y in hull (x a), ∑ k, qslope (x a) (v a) k y * (partial2 u k y - qslope (x a) (fun b => u (nodesTri2 (x a) b)) k y) ≤
      triangleArea (x a) * (4 * e ^ 2 + 192 * ε ^ 2 * r ^ 2 + 16 * R ^ 2 * η ^ 2) +
        1 / 4 * (∫ y in hull (x a), ∑ k, qslope (x a) (v a) k y ^ 2) +
        1 / (16 * R ^ 2) * ∫ y in hull (x a), quad (x a) (v a) y ^ 2 := by
    intro a ha
    have hq := quad_continuous (x a) (v a)
    have hs := qslope_continuous (x a) (v a)
    have hs' := qslope_continuous (x a) (fun b => u (nodesTri2 (x a) b))
    have hpu : ∀ k, Continuous (partial2 u k) := fun k => (partial_contDiff hu k).continuous
    have hec := energy_continuous (x a) (v a)
    obtain ⟨G, hG0, hG1, hG2⟩ := gradient_max (hx a ha) (v a)
    obtain ⟨c, z, g, hη⟩ := hη a ha
    have h1 := (le_abs_self _).trans (source_error ht hacc (hx a ha) (hr a ha) (source_continuous hu) (hε a ha) hη (v a) hG1)
    have h2 : 2 * η * (∫ y in hull (x a), |quad (x a) (v a) y|) ≤
        triangleArea (x a) * (16 * R ^ 2 * η ^ 2) + 1 / (16 * R ^ 2) * ∫ y in hull (x a), quad (x a) (v a) y ^ 2 := by
      rw [← integral_const_mul, ← integral_const_mul, ← hull_const _ (hx a ha).le,
        ← hull_add _ (f := fun _ => 16 * R ^ 2 * η ^ 2) (g := fun y => 1 / (16 * R ^ 2) * quad (x a) (v a) y ^ 2) (by fun_prop) (by fun_prop)]
      refine hull_mono _ (hq.abs.const_mul _) (by fun_prop) fun y _ => ?_
      rw [← sq_abs (quad (x a) (v a) y)]
      have e2 : 1 / (16 * R ^ 2) * |quad (x a) (v a) y| ^ 2 = (|quad (x a) (v a) y| / (4 * R)) ^ 2 := by rw [div_pow, mul_pow]; ring
      have e3 : 2 * η * |quad (x a) (v a) y| = 2 * (4 * R * η) * (|quad (x a) (v a) y| / (4 * R)) := by field_simp
      rw [e2, e3]
      nlinarith [sq_nonneg (4 * R * η - |quad (x a) (v a) y| / (4 * R))]
    have h3 : 2 * (ε * (r * G)) * triangleArea (x a) ≤
        triangleArea (x a) * (192 * ε ^ 2 * r ^ 2) + 1 / 8 * ∫ y in hull (x a), ∑ k, qslope (x a) (v a) k y ^ 2 := by
      have h4 : 2 * (ε * (r * G)) ≤ 192 * ε ^ 2 * r ^ 2 + G ^ 2 / 192 := by
        nlinarith [sq_nonneg (192 * (ε * r) - G)]
      have h5 := mul_le_mul_of_nonneg_left h4 (hx a ha).le
      have h6 : triangleArea (x a) * (G ^ 2 / 192) = 1 / 8 * ∫ y in hull (x a), ∑ k, qslope (x a) (v a) k y ^ 2 := by
        rw [mul_div_assoc', hG2]; ring
      rw [mul_add, h6] at h5
      linarith
    have h4 : ∫ y in hull (x a), ∑ k, qslope (x a) (v a) k y * (partial2 u k y - qslope (x a) (fun b => u (nodesTri2 (x a) b)) k y) ≤
        triangleArea (x a) * (4 * e ^ 2) + 1 / 8 * ∫ y in hull (x a), ∑ k, qslope (x a) (v a) k y ^ 2 := by
      rw [← integral_const_mul, ← hull_const _ (hx a ha).le,
        ← hull_add _ (f := fun _ => 4 * e ^ 2) (g := fun y => 1 / 8 * ∑ k, qslope (x a) (v a) k y ^ 2) (by fun_prop) (hec.const_mul _)]
      refine hull_mono _ (continuous_finset_sum _ fun k _ => (hs k).mul ((hpu k).sub (hs' k))) (continuous_const.add (hec.const_mul _)) fun y hy => ?_
      have h5 : ∀ k, qslope (x a) (v a) k y * (partial2 u k y - qslope (x a) (fun b => u (nodesTri2 (x a) b)) k y) ≤
          2 * e ^ 2 + 1 / 8 * qslope (x a) (v a) k y ^ 2 := by
        intro k
        have h6 := abs_le.mp (he a ha k y hy)
        have h7 : (partial2 u k y - qslope (x a) (fun b => u (nodesTri2 (x a) b)) k y) ^ 2 ≤ e ^ 2 :=
          sq_le_sq' (by linarith) (by linarith)
        nlinarith [sq_nonneg (4 * (partial2 u k y - qslope (x a) (fun b => u (nodesTri2 (x a) b)) k y) - qslope (x a) (v a) k y)]
      rw [Fin.sum_univ_two, Fin.sum_univ_two]
      linarith [h5 0, h5 1]
    linarith
  have hs := list_le L hcell
  have e1 : (L.map fun a => ∫ y in hull (x a), ∑ k, qslope (x a) (v a) k y ^ 2).sum = (L.map fun a => triangleArea (x a) *
        apply t (fun ξ => sourceOf u ((parametrization (x a)).eval ξ) * quad (x a) (v a) ((parametrization (x a)).eval ξ)) -
        (∫ y in hull (x a), sourceOf u y * quad (x a) (v a) y) +
        ∫ y in hull (x a), ∑ k, qslope (x a) (v a) k y * (partial2 u k y - qslope (x a) (fun b => u (nodesTri2 (x a) b)) k y)).sum := by
    have hg : ∀ a ∈ L, ∫ y in hull (x a), ∑ k, qslope (x a) (v a) k y ^ 2 =
        triangleArea (x a) * (apply t fun ξ => ∑ k, qslope (x a) (v a) k ((parametrization (x a)).eval ξ) *
          qslope (x a) (U a) k ((parametrization (x a)).eval ξ)) -
          ∫ y in hull (x a), ∑ k, qslope (x a) (v a) k y * qslope (x a) (fun b => u (nodesTri2 (x a) b)) k y := by
      intro a ha
      have hs := qslope_continuous (x a) (v a)
      have hsU := qslope_continuous (x a) (U a)
      have hs' := qslope_continuous (x a) (fun b => u (nodesTri2 (x a) b))
      have := (IsQuad.energy (hx a ha).ne' (v a) (U a)).exact hacc (hx a ha)
      rw [this, ← hull_sub _ (f := fun y => ∑ k, qslope (x a) (v a) k y * qslope (x a) (U a) k y)
        (g := fun y => ∑ k, qslope (x a) (v a) k y * qslope (x a) (fun b => u (nodesTri2 (x a) b)) k y)
        (continuous_finset_sum _ fun k _ => (hs k).mul (hsU k)) (continuous_finset_sum _ fun k _ => (hs k).mul (hs' k))]
      congr 1
      funext y
      rw [← Finset.sum_sub_distrib]
      refine Finset.sum_congr rfl fun k _ => ?_
      have : qslope (x a) (v a) k y = qslope (x a) (U a) k y - qslope (x a) (fun b => u (nodesTri2 (x a) b)) k y := by
        rw [← qslope_sub]
        congr 1
        funext b
        exact hv a ha b
      rw [sq, ← mul_sub, ← this]
    rw [List.map_congr_left hg, list_sub, hE, ← list_sub, ← add_zero (List.sum _), ← hG, ← list_add]
    refine congrArg List.sum (List.map_congr_left fun a _ => ?_)
    have hs := qslope_continuous (x a) (v a)
    have hs' := qslope_continuous (x a) (fun b => u (nodesTri2 (x a) b))
    have hpu : ∀ k, Continuous (partial2 u k) := fun k => (partial_contDiff hu k).continuous
    simp only [quad_partial, mul_sub, Finset.sum_sub_distrib]
    rw [hull_sub _ (f := fun y => ∑ k, qslope (x a) (v a) k y * partial2 u k y)
      (g := fun y => ∑ k, qslope (x a) (v a) k y * qslope (x a) (fun b => u (nodesTri2 (x a) b)) k y)
      (continuous_finset_sum _ fun k _ => (hs k).mul (hpu k)) (continuous_finset_sum _ fun k _ => (hs k).mul (hs' k))]
    ring
  rw [← e1, list_add, list_add, List.sum_map_mul_right, List.sum_map_mul_left, List.sum_map_mul_left] at hs
  have h2 : 1 / (16 * R ^ 2) * (L.map fun a => ∫ y in hull (x a), quad (x a) (v a) y ^ 2).sum ≤
      1 / 4 * (L.map fun a => ∫ y in hull (x a), ∑ k, qslope (x a) (v a) k y ^ 2).sum := by
    refine (mul_le_mul_of_nonneg_left hfr (by positivity)).trans (le_of_eq ?_)
    field_simp
    norm_num
  nlinarith

end Mito.Fem.Quadratic
