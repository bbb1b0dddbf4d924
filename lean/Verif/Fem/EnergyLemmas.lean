import Verif.Fem.InterpolationLemmas

/-! # Energy estimates on triangles -/

namespace Mito.Fem

open Mito.Functions Mito.Geometry Mito.Quadrature MeasureTheory

/-- the points of a triangle -/
abbrev hull (x : Fin 3 → Fin 2 → ℝ) : Set (Fin 2 → ℝ) := convexHull ℝ (Set.range x)

theorem hull_compact (x : Fin 3 → Fin 2 → ℝ) : IsCompact (hull x) := (Set.finite_range x).isCompact_convexHull ℝ

theorem hull_integrable (x : Fin 3 → Fin 2 → ℝ) {g : (Fin 2 → ℝ) → ℝ} (hg : Continuous g) : IntegrableOn g (hull x) :=
  hg.continuousOn.integrableOn_compact (hull_compact x)

theorem hull_const (x : Fin 3 → Fin 2 → ℝ) (hx : 0 ≤ triangleArea x) (c : ℝ) : ∫ _ in hull x, c = triangleArea x * c := by
  rw [setIntegral_const, area_hull x hx, smul_eq_mul]

theorem hull_mono (x : Fin 3 → Fin 2 → ℝ) {g g' : (Fin 2 → ℝ) → ℝ} (hg : Continuous g) (hg' : Continuous g')
    (h : ∀ y ∈ hull x, g y ≤ g' y) : ∫ y in hull x, g y ≤ ∫ y in hull x, g' y :=
  setIntegral_mono_on (hull_integrable x hg) (hull_integrable x hg') (hull_compact x).measurableSet h

theorem hull_abs (x : Fin 3 → Fin 2 → ℝ) (hx : 0 ≤ triangleArea x) {g : (Fin 2 → ℝ) → ℝ} (hg : Continuous g) {c : ℝ}
    (h : ∀ y ∈ hull x, |g y| ≤ c) : |∫ y in hull x, g y| ≤ triangleArea x * c := by
  refine (abs_integral_le_integral_abs).trans ?_
  rw [← hull_const x hx]
  exact hull_mono x hg.abs continuous_const h

theorem partial_contDiff {u : (Fin 2 → ℝ) → ℝ} (hu : ContDiff ℝ 2 u) (k : Fin 2) : ContDiff ℝ 1 (partial2 u k) := by
  unfold partial2
  exact (hu.fderiv_right (m := 1) (by norm_num)).clm_apply contDiff_const

theorem partial_continuous {u : (Fin 2 → ℝ) → ℝ} (hu : ContDiff ℝ 1 u) (k : Fin 2) : Continuous (partial2 u k) := by
  unfold partial2
  exact (hu.continuous_fderiv one_ne_zero).clm_apply continuous_const

theorem source_continuous {u : (Fin 2 → ℝ) → ℝ} (hu : ContDiff ℝ 2 u) : Continuous (sourceOf u) := by
  unfold sourceOf
  exact (continuous_finset_sum _ fun k _ => partial_continuous (partial_contDiff hu k) k).neg

theorem partial_mul {w g : (Fin 2 → ℝ) → ℝ} (hw : Differentiable ℝ w) (hg : Differentiable ℝ g) (k : Fin 2) (y : Fin 2 → ℝ) :
    fderiv ℝ (fun y => w y * g y) y (Pi.single k 1) = w y * partial2 g k y + g y * partial2 w k y := by
  rw [fderiv_fun_mul (hw y) (hg y)]
  simp [partial2]

theorem linear_partial (x : Fin 3 → Fin 2 → ℝ) (v : Fin 3 → ℝ) (k : Fin 2) (y : Fin 2 → ℝ) : partial2 (linear x v) k y = slope2 x v k :=
  linear_fderiv x v y k

theorem linear_continuous (x : Fin 3 → Fin 2 → ℝ) (v : Fin 3 → ℝ) : Continuous (linear x v) := (linear_smooth x v).continuous

/-- the divergence of the product with the gradient of a function -/
theorem green_cell {u : (Fin 2 → ℝ) → ℝ} (hu : ContDiff ℝ 2 u) (x : Fin 3 → Fin 2 → ℝ) (v : Fin 3 → ℝ) :
    ∫ y in hull x, ∑ k, fderiv ℝ (fun y => linear x v y * partial2 u k y) y (Pi.single k 1) =
      (∑ k, slope2 x v k * ∫ y in hull x, partial2 u k y) - ∫ y in hull x, sourceOf u y * linear x v y := by
  have hw := (linear_smooth x v).differentiable two_ne_zero
  have hg : ∀ k, Differentiable ℝ (partial2 u k) := fun k => (partial_contDiff hu k).differentiable one_ne_zero
  have hc : ∀ k, Continuous (partial2 u k) := fun k => (partial_contDiff hu k).continuous
  have e : ∀ y, ∑ k, fderiv ℝ (fun y => linear x v y * partial2 u k y) y (Pi.single k 1) =
      (∑ k, slope2 x v k * partial2 u k y) - sourceOf u y * linear x v y := by
    intro y
    simp only [partial_mul hw (hg _), linear_partial, sourceOf, Fin.sum_univ_two]
    ring
  simp only [e]
  rw [integral_sub, integral_finset_sum]
  · simp only [integral_const_mul]
  · exact fun k _ => hull_integrable x ((hc k).const_mul _)
  · exact hull_integrable x (continuous_finset_sum _ fun k _ => (hc k).const_mul _)
  · exact hull_integrable x ((source_continuous hu).mul (linear_continuous x v))

/-- the field with the components `y_0 w²` and `0` -/
noncomputable def firstTimes (w : (Fin 2 → ℝ) → ℝ) (k : Fin 2) (y : Fin 2 → ℝ) : ℝ := if k = 0 then y 0 * w y ^ 2 else 0

theorem friedrichs_cell (x : Fin 3 → Fin 2 → ℝ) (v : Fin 3 → ℝ) :
    ∫ y in hull x, ∑ k, fderiv ℝ (firstTimes (linear x v) k) y (Pi.single k 1) =
      (∫ y in hull x, linear x v y ^ 2) + 2 * slope2 x v 0 * ∫ y in hull x, y 0 * linear x v y := by
  have hw := (linear_smooth x v).differentiable two_ne_zero
  have e : ∀ y, ∑ k, fderiv ℝ (firstTimes (linear x v) k) y (Pi.single k 1) =
      linear x v y ^ 2 + 2 * slope2 x v 0 * (y 0 * linear x v y) := by
    intro y
    have h0 : HasFDerivAt (fun y : Fin 2 → ℝ => y 0) (ContinuousLinearMap.proj (R := ℝ) (φ := fun _ : Fin 2 => ℝ) 0) y :=
      hasFDerivAt_apply 0 y
    have h1 := (h0.mul ((hw y).hasFDerivAt.pow 2)).fderiv
    have e0 : firstTimes (linear x v) 0 = (fun y : Fin 2 → ℝ => y 0) * fun y => linear x v y ^ 2 := by funext y; simp [firstTimes]
    have e1 : firstTimes (linear x v) 1 = fun _ => 0 := by funext y; simp [firstTimes]
    rw [Fin.sum_univ_two, e1, e0, h1]
    have := linear_fderiv x v y 0
    simp [this]
    ring
  simp only [e]
  rw [integral_add, integral_const_mul]
  · exact hull_integrable x ((linear_continuous x v).pow 2)
  · exact hull_integrable x (((continuous_apply 0).mul (linear_continuous x v)).const_mul _)

/-- what an element adds to the residual -/
theorem residual_cell {t : Table 2} (ht : Inside t) (hsum : (t.map Prod.snd).sum = 1) {u : (Fin 2 → ℝ) → ℝ} (hu : ContDiff ℝ 2 u)
    {x : Fin 3 → Fin 2 → ℝ} (hx : 0 < triangleArea x) {r e ε F : ℝ} (hr : ∀ a b, dist (x a) (x b) ≤ r)
    (he : ∀ k, ∀ y ∈ hull x, |slope2 x (fun a => u (x a)) k - partial2 u k y| ≤ e)
    (hε : ∀ y ∈ hull x, ∀ z ∈ hull x, |sourceOf u y - sourceOf u z| ≤ ε) (hF : ∀ y ∈ hull x, |sourceOf u y| ≤ F) (v : Fin 3 → ℝ) :
    triangleArea x * apply t (fun ξ => sourceOf u ((parametrization x).eval ξ) * linear x v ((parametrization x).eval ξ)) -
        (∫ y in hull x, sourceOf u y * linear x v y) +
        ∑ k, slope2 x v k * ((∫ y in hull x, partial2 u k y) - triangleArea x * slope2 x (fun a => u (x a)) k) ≤
      triangleArea x * (∑ k, |slope2 x v k|) * (e + (F + ε) * r) + ε * ∫ y in hull x, |linear x v y| := by
  have hlc := linear_continuous x v
  set S := ∑ k, |slope2 x v k| with hS
  set A := triangleArea x with hA
  set N := ∫ y in hull x, |linear x v y| with hN
  have hr0 : 0 ≤ r := dist_nonneg.trans (hr 0 0)
  have hε0 : 0 ≤ ε := (abs_nonneg _).trans (hε _ (node_hull x 0) _ (node_hull x 0))
  have hF0 : 0 ≤ F := (abs_nonneg _).trans (hF _ (node_hull x 0))
  have hmax : ∀ y ∈ hull x, |linear x v y| ≤ N / A + r * S := by
    intro y hy
    have h1 : ∫ _ in hull x, |linear x v y| ≤ ∫ z in hull x, (|linear x v z| + r * S) := by
      refine hull_mono x continuous_const (hlc.abs.add continuous_const) fun z hz => ?_
      have h2 := linear_variation hr v hy hz
      have h3 := abs_sub_abs_le_abs_sub (linear x v y) (linear x v z)
      linarith
    rw [hull_const x hx.le, integral_add (hull_integrable x hlc.abs) (hull_integrable x continuous_const), hull_const x hx.le] at h1
    rw [← hN] at h1
    have h2 : A * |linear x v y| ≤ A * (N / A + r * S) := by
      rw [mul_add, mul_div_cancel₀ _ hx.ne']
      linarith
    exact le_of_mul_le_mul_left h2 hx
  have hload := cell_error ht hsum x (fun y => sourceOf u y * linear x v y)
    (hull_integrable x ((source_continuous hu).mul hlc)) (ε := ε * (N / A + r * S) + F * (r * S)) fun y hy z hz => by
      have e1 : sourceOf u y * linear x v y - sourceOf u z * linear x v z =
          (sourceOf u y - sourceOf u z) * linear x v y + sourceOf u z * (linear x v y - linear x v z) := by ring
      rw [e1]
      refine (abs_add_le _ _).trans (add_le_add ?_ ?_)
      · rw [abs_mul]
        exact mul_le_mul (hε y hy z hz) (hmax y hy) (abs_nonneg _) hε0
      · rw [abs_mul]
        exact mul_le_mul (hF z hz) (linear_variation hr v hy hz) (abs_nonneg _) hF0
  have hvol : volume.real (convexHull ℝ (Set.range x)) = A := area_hull x hx.le
  rw [hvol] at hload
  have hload' := (le_abs_self _).trans hload
  have hgrad : ∀ k, slope2 x v k * ((∫ y in hull x, partial2 u k y) - A * slope2 x (fun a => u (x a)) k) ≤ |slope2 x v k| * (A * e) := by
    intro k
    refine (le_abs_self _).trans ?_
    rw [abs_mul]
    refine mul_le_mul_of_nonneg_left ?_ (abs_nonneg _)
    have hc : Continuous (partial2 u k) := (partial_contDiff hu k).continuous
    have e1 : (∫ y in hull x, partial2 u k y) - A * slope2 x (fun a => u (x a)) k =
        ∫ y in hull x, (partial2 u k y - slope2 x (fun a => u (x a)) k) := by
      rw [integral_sub (hull_integrable x hc) (hull_integrable x continuous_const), hull_const x hx.le]
    rw [e1]
    have hc' : Continuous fun y => partial2 u k y - slope2 x (fun a => u (x a)) k := hc.sub continuous_const
    refine hull_abs x hx.le hc' fun y hy => ?_
    rw [abs_sub_comm]
    exact he k y hy
  have hgrad' := Finset.sum_le_sum fun k (_ : k ∈ Finset.univ) => hgrad k
  rw [← Finset.sum_mul, ← hS] at hgrad'
  have e2 : (ε * (N / A + r * S) + F * (r * S)) * A = ε * N + A * S * ((F + ε) * r) := by
    have := hx.ne'
    field_simp
    ring
  rw [e2] at hload'
  have e3 : A * S * (e + (F + ε) * r) = A * S * ((F + ε) * r) + S * (A * e) := by ring
  rw [e3]
  linarith

theorem list_le {α : Type} (l : List α) {f g : α → ℝ} (h : ∀ a ∈ l, f a ≤ g a) : (l.map f).sum ≤ (l.map g).sum :=
  List.sum_le_sum h

theorem list_add {α : Type} (l : List α) (f g : α → ℝ) : (l.map fun a => f a + g a).sum = (l.map f).sum + (l.map g).sum :=
  List.sum_map_add

theorem list_sub {α : Type} (l : List α) (f g : α → ℝ) : (l.map fun a => f a - g a).sum = (l.map f).sum - (l.map g).sum := by
  induction l with
  | nil => simp
  | cons a l ih => simp only [List.map_cons, List.sum_cons, ih]; ring

theorem list_neg {α : Type} (l : List α) (f : α → ℝ) : (l.map fun a => -f a).sum = -(l.map f).sum := by
  induction l with
  | nil => simp
  | cons a l ih => simp only [List.map_cons, List.sum_cons, ih]; ring

/-- Friedrichs' inequality -/
theorem friedrichs {α : Type} (L : List α) (x : α → Fin 3 → Fin 2 → ℝ) (v : α → Fin 3 → ℝ) (hx : ∀ a ∈ L, 0 < triangleArea (x a)) {R : ℝ}
    (hR : ∀ a ∈ L, ∀ y ∈ hull (x a), |y 0| ≤ R)
    (h0 : (L.map fun a => (∫ y in hull (x a), linear (x a) (v a) y ^ 2) +
      2 * slope2 (x a) (v a) 0 * ∫ y in hull (x a), y 0 * linear (x a) (v a) y).sum = 0) :
    (L.map fun a => ∫ y in hull (x a), linear (x a) (v a) y ^ 2).sum ≤
      4 * R ^ 2 * (L.map fun a => triangleArea (x a) * ∑ k, slope2 (x a) (v a) k ^ 2).sum := by
  have hcell : ∀ a ∈ L, -(2 * slope2 (x a) (v a) 0 * ∫ y in hull (x a), y 0 * linear (x a) (v a) y) ≤
      1 / 2 * (∫ y in hull (x a), linear (x a) (v a) y ^ 2) + 2 * R ^ 2 * (triangleArea (x a) * ∑ k, slope2 (x a) (v a) k ^ 2) := by
    intro a ha
    have hlc := linear_continuous (x a) (v a)
    have hc2 : ∀ c : ℝ, Continuous fun y => c * linear (x a) (v a) y ^ 2 := fun c => continuous_const.mul (hlc.pow 2)
    have h1 : ∫ y in hull (x a), -(2 * slope2 (x a) (v a) 0) * (y 0 * linear (x a) (v a) y) ≤
        ∫ y in hull (x a), (1 / 2 * linear (x a) (v a) y ^ 2 + 2 * R ^ 2 * slope2 (x a) (v a) 0 ^ 2) := by
      refine hull_mono _ (((continuous_apply 0).mul hlc).const_mul _) ((hc2 _).add continuous_const) fun y hy => ?_
      have hy0 := abs_le.mp (hR a ha y hy)
      have hsq : y 0 ^ 2 ≤ R ^ 2 := sq_le_sq' hy0.1 hy0.2
      nlinarith [sq_nonneg (linear (x a) (v a) y + 2 * (y 0 * slope2 (x a) (v a) 0)), sq_nonneg (slope2 (x a) (v a) 0),
        mul_le_mul_of_nonneg_right hsq (sq_nonneg (slope2 (x a) (v a) 0))]
    rw [integral_const_mul, integral_add (hull_integrable _ (hc2 _)) (hull_integrable _ continuous_const),
      integral_const_mul, hull_const _ (hx a ha).le] at h1
    have h2 : triangleArea (x a) * (2 * R ^ 2 * slope2 (x a) (v a) 0 ^ 2) ≤
        2 * R ^ 2 * (triangleArea (x a) * ∑ k, slope2 (x a) (v a) k ^ 2) := by
      rw [Fin.sum_univ_two]
      have : 0 ≤ R ^ 2 * (triangleArea (x a) * slope2 (x a) (v a) 1 ^ 2) :=
        mul_nonneg (sq_nonneg _) (mul_nonneg (hx a ha).le (sq_nonneg _))
      nlinarith
    linarith
  have hs := list_le L hcell
  rw [list_add, List.sum_map_mul_left, List.sum_map_mul_left, list_neg] at hs
  rw [list_add] at h0
  linarith

/-- the energy of the difference between the solution and the interpolating function -/
theorem energy_estimate {α : Type} (L : List α) (x : α → Fin 3 → Fin 2 → ℝ) (v U : α → Fin 3 → ℝ) {t : Table 2} (ht : Inside t)
    (hsum : (t.map Prod.snd).sum = 1) {u : (Fin 2 → ℝ) → ℝ} (hu : ContDiff ℝ 2 u) (hx : ∀ a ∈ L, 0 < triangleArea (x a))
    {h e ε F R : ℝ} (hr : ∀ a ∈ L, ∀ b c, dist (x a b) (x a c) ≤ h)
    (he : ∀ a ∈ L, ∀ k, ∀ y ∈ hull (x a), |slope2 (x a) (fun b => u (x a b)) k - partial2 u k y| ≤ e)
    (hε : ∀ a ∈ L, ∀ y ∈ hull (x a), ∀ z ∈ hull (x a), |sourceOf u y - sourceOf u z| ≤ ε)
    (hF : ∀ a ∈ L, ∀ y ∈ hull (x a), |sourceOf u y| ≤ F) (hR0 : 0 < R) (hR : ∀ a ∈ L, ∀ y ∈ hull (x a), |y 0| ≤ R)
    (hv : ∀ a ∈ L, ∀ b, v a b = U a b - u (x a b))
    (hG : (L.map fun a => (∑ k, slope2 (x a) (v a) k * ∫ y in hull (x a), partial2 u k y) -
      ∫ y in hull (x a), sourceOf u y * linear (x a) (v a) y).sum = 0)
    (h0 : (L.map fun a => (∫ y in hull (x a), linear (x a) (v a) y ^ 2) +
      2 * slope2 (x a) (v a) 0 * ∫ y in hull (x a), y 0 * linear (x a) (v a) y).sum = 0)
    (hE : (L.map fun a => triangleArea (x a) * ∑ k, slope2 (x a) (v a) k * slope2 (x a) (U a) k).sum =
      (L.map fun a => triangleArea (x a) *
        apply t fun ξ => sourceOf u ((parametrization (x a)).eval ξ) * linear (x a) (v a) ((parametrization (x a)).eval ξ)).sum) :
    (L.map fun a => triangleArea (x a) * ∑ k, slope2 (x a) (v a) k ^ 2).sum ≤
      (L.map fun a => triangleArea (x a)).sum * (4 * (e + (F + ε) * h) ^ 2 + 8 * R ^ 2 * ε ^ 2) := by
  have hfr := friedrichs L x v hx hR h0
  have hcell : ∀ a ∈ L, triangleArea (x a) *
        apply t (fun ξ => sourceOf u ((parametrization (x a)).eval ξ) * linear (x a) (v a) ((parametrization (x a)).eval ξ)) -
        (∫ y in hull (x a), sourceOf u y * linear (x a) (v a) y) +
        ∑ k, slope2 (x a) (v a) k * ((∫ y in hull (x a), partial2 u k y) - triangleArea (x a) * slope2 (x a) (fun b => u (x a b)) k) ≤
      triangleArea (x a) * (2 * (e + (F + ε) * h) ^ 2 + 4 * R ^ 2 * ε ^ 2) +
        1 / 4 * (triangleArea (x a) * ∑ k, slope2 (x a) (v a) k ^ 2) +
        1 / (16 * R ^ 2) * ∫ y in hull (x a), linear (x a) (v a) y ^ 2 := by
    intro a ha
    have hlc := linear_continuous (x a) (v a)
    have hc2 : ∀ c : ℝ, Continuous fun y => c * linear (x a) (v a) y ^ 2 := fun c => continuous_const.mul (hlc.pow 2)
    refine (residual_cell ht hsum hu (hx a ha) (hr a ha) (he a ha) (hε a ha) (hF a ha) (v a)).trans ?_
    have h1 : ε * ∫ y in hull (x a), |linear (x a) (v a) y| ≤
        triangleArea (x a) * (4 * R ^ 2 * ε ^ 2) + 1 / (16 * R ^ 2) * ∫ y in hull (x a), linear (x a) (v a) y ^ 2 := by
      rw [← integral_const_mul, ← integral_const_mul, ← hull_const _ (hx a ha).le,
        ← integral_add (hull_integrable _ continuous_const) (hull_integrable _ (hc2 _))]
      refine hull_mono _ (hlc.abs.const_mul _) (continuous_const.add (hc2 _)) fun y _ => ?_
      have e1 : linear (x a) (v a) y ^ 2 = |linear (x a) (v a) y| ^ 2 := (sq_abs _).symm
      rw [e1]
      have e2 : 1 / (16 * R ^ 2) * |linear (x a) (v a) y| ^ 2 = (|linear (x a) (v a) y| / (4 * R)) ^ 2 := by rw [div_pow, mul_pow]; ring
      have e3 : ε * |linear (x a) (v a) y| = 2 * (2 * R * ε) * (|linear (x a) (v a) y| / (4 * R)) := by field_simp; ring
      rw [e2, e3]
      nlinarith [sq_nonneg (2 * R * ε - |linear (x a) (v a) y| / (4 * R))]
    have h2 : triangleArea (x a) * (∑ k, |slope2 (x a) (v a) k|) * (e + (F + ε) * h) ≤
        triangleArea (x a) * (2 * (e + (F + ε) * h) ^ 2) + 1 / 4 * (triangleArea (x a) * ∑ k, slope2 (x a) (v a) k ^ 2) := by
      have h3 : (∑ k, |slope2 (x a) (v a) k|) * (e + (F + ε) * h) ≤
          2 * (e + (F + ε) * h) ^ 2 + 1 / 4 * ∑ k, slope2 (x a) (v a) k ^ 2 := by
        rw [Fin.sum_univ_two, Fin.sum_univ_two, ← sq_abs (slope2 (x a) (v a) 0), ← sq_abs (slope2 (x a) (v a) 1)]
        nlinarith [sq_nonneg (|slope2 (x a) (v a) 0| / 2 - (e + (F + ε) * h)), sq_nonneg (|slope2 (x a) (v a) 1| / 2 - (e + (F + ε) * h))]
      have := mul_le_mul_of_nonneg_left h3 (hx a ha).le
      nlinarith
    linarith
  have hs := list_le L hcell
  have e1 : (L.map fun a => triangleArea (x a) * ∑ k, slope2 (x a) (v a) k ^ 2).sum = (L.map fun a => triangleArea (x a) *
        apply t (fun ξ => sourceOf u ((parametrization (x a)).eval ξ) * linear (x a) (v a) ((parametrization (x a)).eval ξ)) -
        (∫ y in hull (x a), sourceOf u y * linear (x a) (v a) y) +
        ∑ k, slope2 (x a) (v a) k * ((∫ y in hull (x a), partial2 u k y) - triangleArea (x a) * slope2 (x a) (fun b => u (x a b)) k)).sum := by
    have hg : ∀ a ∈ L, triangleArea (x a) * ∑ k, slope2 (x a) (v a) k ^ 2 =
        triangleArea (x a) * (∑ k, slope2 (x a) (v a) k * slope2 (x a) (U a) k) -
          triangleArea (x a) * ∑ k, slope2 (x a) (v a) k * slope2 (x a) (fun b => u (x a b)) k := by
      intro a ha
      rw [← mul_sub, ← Finset.sum_sub_distrib]
      congr 1
      refine Finset.sum_congr rfl fun k _ => ?_
      have : slope2 (x a) (v a) k = slope2 (x a) (U a) k - slope2 (x a) (fun b => u (x a b)) k := by
        rw [← slope_sub]
        congr 1
        funext b
        exact hv a ha b
      rw [sq, ← mul_sub, ← this]
    rw [List.map_congr_left hg, list_sub, hE, ← list_sub, ← add_zero (List.sum _), ← hG, ← list_add]
    refine congrArg List.sum (List.map_congr_left fun a _ => ?_)
    simp only [mul_sub, Finset.sum_sub_distrib, Finset.mul_sum]
    have : ∀ k, triangleArea (x a) * (slope2 (x a) (v a) k * slope2 (x a) (fun b => u (x a b)) k) =
        slope2 (x a) (v a) k * (triangleArea (x a) * slope2 (x a) (fun b => u (x a b)) k) := fun k => by ring
    simp only [this]
    ring
  rw [← e1, list_add, list_add, List.sum_map_mul_right, List.sum_map_mul_left, List.sum_map_mul_left] at hs
  have h2 : 1 / (16 * R ^ 2) * (L.map fun a => ∫ y in hull (x a), linear (x a) (v a) y ^ 2).sum ≤
      1 / 4 * (L.map fun a => triangleArea (x a) * ∑ k, slope2 (x a) (v a) k ^ 2).sum := by
    refine (mul_le_mul_of_nonneg_left hfr (by positivity)).trans (le_of_eq ?_)
    field_simp
    norm_num
  nlinarith

end Mito.Fem
