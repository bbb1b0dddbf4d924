import Verif.Fem.EnergyLemmas
import Verif.Props.Integrator

/-! # Quadratic functions on triangles -/

namespace Mito.Fem.Quadratic

open Mito.Functions Mito.Geometry Mito.Quadrature MeasureTheory

/-- barycentric coordinates -/
noncomputable def bary (x : Fin 3 → Fin 2 → ℝ) (i : Fin 3) (y : Fin 2 → ℝ) : ℝ := linear x (Pi.single i 1) y

/-- their derivatives -/
noncomputable def dbary (x : Fin 3 → Fin 2 → ℝ) (i : Fin 3) (k : Fin 2) : ℝ := slope2 x (Pi.single i 1) k

/-- the quadratic shape functions in barycentric coordinates -/
def quadShape (l : Fin 3 → ℝ) : Fin 6 → ℝ :=
  ![l 0 * (2 * l 0 - 1), l 1 * (2 * l 1 - 1), l 2 * (2 * l 2 - 1), 4 * l 0 * l 1, 4 * l 1 * l 2, 4 * l 2 * l 0]

/-- their derivatives -/
def quadSlope (l g : Fin 3 → ℝ) : Fin 6 → ℝ :=
  ![(4 * l 0 - 1) * g 0, (4 * l 1 - 1) * g 1, (4 * l 2 - 1) * g 2, 4 * (l 0 * g 1 + l 1 * g 0), 4 * (l 1 * g 2 + l 2 * g 1),
    4 * (l 2 * g 0 + l 0 * g 2)]

/-- the quadratic function with the given values at the nodes -/
noncomputable def quad (x : Fin 3 → Fin 2 → ℝ) (V : Fin 6 → ℝ) (y : Fin 2 → ℝ) : ℝ := ∑ a, V a * quadShape (fun i => bary x i y) a

/-- its gradient -/
noncomputable def qslope (x : Fin 3 → Fin 2 → ℝ) (V : Fin 6 → ℝ) (k : Fin 2) (y : Fin 2 → ℝ) : ℝ :=
  ∑ a, V a * quadSlope (fun i => bary x i y) (fun i => dbary x i k) a

theorem sum_six (f : Fin 6 → ℝ) : ∑ a, f a = f 0 + f 1 + f 2 + f 3 + f 4 + f 5 := Fin.sum_univ_six f

theorem quad_eq (x : Fin 3 → Fin 2 → ℝ) (V : Fin 6 → ℝ) (y : Fin 2 → ℝ) : quad x V y =
    V 0 * (bary x 0 y * (2 * bary x 0 y - 1)) + V 1 * (bary x 1 y * (2 * bary x 1 y - 1)) + V 2 * (bary x 2 y * (2 * bary x 2 y - 1)) +
      V 3 * (4 * bary x 0 y * bary x 1 y) + V 4 * (4 * bary x 1 y * bary x 2 y) + V 5 * (4 * bary x 2 y * bary x 0 y) := by
  rw [quad, sum_six]
  rfl

theorem qslope_eq (x : Fin 3 → Fin 2 → ℝ) (V : Fin 6 → ℝ) (k : Fin 2) (y : Fin 2 → ℝ) : qslope x V k y =
    V 0 * ((4 * bary x 0 y - 1) * dbary x 0 k) + V 1 * ((4 * bary x 1 y - 1) * dbary x 1 k) + V 2 * ((4 * bary x 2 y - 1) * dbary x 2 k) +
      V 3 * (4 * (bary x 0 y * dbary x 1 k + bary x 1 y * dbary x 0 k)) + V 4 * (4 * (bary x 1 y * dbary x 2 k + bary x 2 y * dbary x 1 k)) +
      V 5 * (4 * (bary x 2 y * dbary x 0 k + bary x 0 y * dbary x 2 k)) := by
  rw [qslope, sum_six]
  rfl

variable {x : Fin 3 → Fin 2 → ℝ}

theorem dbary_eq (x : Fin 3 → Fin 2 → ℝ) :
    (dbary x 0 0 = (x 1 1 - x 2 1) / (2 * triangleArea x) ∧ dbary x 1 0 = (x 2 1 - x 0 1) / (2 * triangleArea x) ∧
      dbary x 2 0 = (x 0 1 - x 1 1) / (2 * triangleArea x)) ∧
    dbary x 0 1 = -(x 1 0 - x 2 0) / (2 * triangleArea x) ∧ dbary x 1 1 = -(x 2 0 - x 0 0) / (2 * triangleArea x) ∧
      dbary x 2 1 = -(x 0 0 - x 1 0) / (2 * triangleArea x) := by
  refine ⟨⟨?_, ?_, ?_⟩, ?_, ?_, ?_⟩ <;> simp [dbary, slope2]

theorem dbary_sum (x : Fin 3 → Fin 2 → ℝ) (k : Fin 2) : dbary x 2 k = -dbary x 0 k - dbary x 1 k := by
  obtain ⟨⟨h0, h1, h2⟩, h3, h4, h5⟩ := dbary_eq x
  fin_cases k
  · show dbary x 2 0 = -dbary x 0 0 - dbary x 1 0
    rw [h0, h1, h2]; ring
  · show dbary x 2 1 = -dbary x 0 1 - dbary x 1 1
    rw [h3, h4, h5]; ring

theorem bary_param (hx : triangleArea x ≠ 0) (ξ : Fin 2 → ℝ) :
    bary x 0 ((parametrization x).eval ξ) = ξ 0 ∧ bary x 1 ((parametrization x).eval ξ) = ξ 1 ∧
      bary x 2 ((parametrization x).eval ξ) = 1 - ξ 0 - ξ 1 := by
  refine ⟨?_, ?_, ?_⟩ <;> rw [bary, linear_param hx] <;> simp

/-- the nodes of the quadratic triangle and their barycentric coordinates -/
theorem bary_node (hx : triangleArea x ≠ 0) (i j : Fin 3) : bary x i (x j) = if j = i then 1 else 0 := by
  rw [bary, linear_node hx, Pi.single_apply]

theorem linear_bary (x : Fin 3 → Fin 2 → ℝ) (v : Fin 3 → ℝ) (y : Fin 2 → ℝ) : 
    linear x v y = ∑ k : Fin 2, (v 0 * dbary x 0 k + v 1 * dbary x 1 k + v 2 * dbary x 2 k) * (y k - x 2 k) + v 2 := by
  obtain ⟨⟨h0, h1, h2⟩, h3, h4, h5⟩ := dbary_eq x
  rw [linear, Fin.sum_univ_two, Fin.sum_univ_two, h0, h1, h2, h3, h4, h5]
  simp only [slope2]
  ring

theorem bary_sum (x : Fin 3 → Fin 2 → ℝ) (y : Fin 2 → ℝ) : bary x 2 y = 1 - bary x 0 y - bary x 1 y := by
  simp only [bary, linear_bary, Fin.sum_univ_two, dbary_sum]
  simp
  ring

theorem linear_eq_bary (x : Fin 3 → Fin 2 → ℝ) (v : Fin 3 → ℝ) (y : Fin 2 → ℝ) :
    linear x v y = v 0 * bary x 0 y + v 1 * bary x 1 y + v 2 * bary x 2 y := by
  simp only [bary, linear_bary, Fin.sum_univ_two, dbary_sum]
  simp
  ring

/-- coordinates in terms of barycentric coordinates -/
theorem coord_bary (hx : triangleArea x ≠ 0) (y : Fin 2 → ℝ) (k : Fin 2) :
    y k = bary x 0 y * x 0 k + bary x 1 y * x 1 k + bary x 2 y * x 2 k := by
  obtain ⟨⟨h0, h1, h2⟩, h3, h4, h5⟩ := dbary_eq x
  have hA : triangleArea x = 1 / 2 * ((x 1 0 - x 0 0) * (x 2 1 - x 0 1) - (x 2 0 - x 0 0) * (x 1 1 - x 0 1)) := by
    unfold triangleArea; ring
  rw [bary_sum]
  simp only [bary, linear_bary, Fin.sum_univ_two, h0, h1, h2, h3, h4, h5]
  fin_cases k
  · simp
    field_simp
    rw [hA]
    ring
  · simp
    field_simp
    rw [hA]
    ring

theorem quad_shape (hx : triangleArea x ≠ 0) (V : Fin 6 → ℝ) (ξ : Fin 2 → ℝ) :
    ∑ a, V a * ((triP2 x).shape a).eval ξ () = quad x V ((parametrization x).eval ξ) := by
  obtain ⟨b0, b1, b2⟩ := bary_param hx ξ
  obtain ⟨h0, h1, h2, h3, h4, h5⟩ := tri2_eval ξ
  rw [quad_eq, b0, b1, b2, sum_six]
  simp only [triP2, h0, h1, h2, h3, h4, h5]
  ring

theorem qslope_gradient (hx : triangleArea x ≠ 0) (V : Fin 6 → ℝ) (ξ : Fin 2 → ℝ) (k : Fin 2) :
    ∑ a, V a * (triP2 x).gradient a ξ k = qslope x V k ((parametrization x).eval ξ) := by
  obtain ⟨b0, b1, b2⟩ := bary_param hx ξ
  obtain ⟨h0, h1, h2, h3, h4, h5⟩ := tri2_dshape ξ 0
  obtain ⟨g0, g1, g2, g3, g4, g5⟩ := tri2_dshape ξ 1
  obtain ⟨⟨d0, d1, d2⟩, d3, d4, d5⟩ := dbary_eq x
  obtain ⟨i1, i2, i3, i4⟩ := inverse_tri x ξ
  rw [qslope_eq, b0, b1, b2, sum_six]
  simp only [Element.gradient, mul, Fin.sum_univ_two, Element.dshape]
  have e : (triP2 x).shape = shapeTri2 := rfl
  simp only [e, h0, h1, h2, h3, h4, h5, g0, g1, g2, g3, g4, g5]
  fin_cases k
  · simp only [Fin.zero_eta, Fin.isValue, i1, i3, d0, d1, d2]
    simp
    ring
  · simp only [Fin.mk_one, Fin.isValue, i2, i4, d3, d4, d5]
    simp
    ring

theorem bary_smooth (x : Fin 3 → Fin 2 → ℝ) (i : Fin 3) : ContDiff ℝ 2 (bary x i) := linear_smooth x _

theorem quad_smooth (x : Fin 3 → Fin 2 → ℝ) (V : Fin 6 → ℝ) : ContDiff ℝ 2 (quad x V) := by
  have h := bary_smooth x
  have e : quad x V = fun y => V 0 * (bary x 0 y * (2 * bary x 0 y - 1)) + V 1 * (bary x 1 y * (2 * bary x 1 y - 1)) +
      V 2 * (bary x 2 y * (2 * bary x 2 y - 1)) +
      V 3 * (4 * bary x 0 y * bary x 1 y) + V 4 * (4 * bary x 1 y * bary x 2 y) + V 5 * (4 * bary x 2 y * bary x 0 y) := by
    funext y; exact quad_eq x V y
  rw [e]
  have h0 := h 0
  have h1 := h 1
  have h2 := h 2
  fun_prop

theorem quad_continuous (x : Fin 3 → Fin 2 → ℝ) (V : Fin 6 → ℝ) : Continuous (quad x V) := (quad_smooth x V).continuous

theorem quad_partial (x : Fin 3 → Fin 2 → ℝ) (V : Fin 6 → ℝ) (k : Fin 2) (y : Fin 2 → ℝ) : partial2 (quad x V) k y = qslope x V k y := by
  have hb : ∀ i, HasFDerivAt (bary x i) (fderiv ℝ (bary x i) y) y := fun i =>
    ((bary_smooth x i).differentiable two_ne_zero y).hasFDerivAt
  have hd : ∀ i, fderiv ℝ (bary x i) y (Pi.single k 1) = dbary x i k := fun i => linear_fderiv x _ y k
  have e : quad x V = fun y => V 0 * (bary x 0 y * (2 * bary x 0 y - 1)) + V 1 * (bary x 1 y * (2 * bary x 1 y - 1)) +
      V 2 * (bary x 2 y * (2 * bary x 2 y - 1)) +
      V 3 * (4 * bary x 0 y * bary x 1 y) + V 4 * (4 * bary x 1 y * bary x 2 y) + V 5 * (4 * bary x 2 y * bary x 0 y) := by
    funext y; exact quad_eq x V y
  have hc : ∀ i, HasFDerivAt (fun y => bary x i y * (2 * bary x i y - 1)) _ y := fun i => (hb i).mul (((hb i).const_mul 2).sub_const 1)
  have hm : ∀ i j, HasFDerivAt (fun y => 4 * bary x i y * bary x j y) _ y := fun i j => ((hb i).const_mul 4).mul (hb j)
  have := (((((((hc 0).const_mul (V 0)).add ((hc 1).const_mul (V 1))).add ((hc 2).const_mul (V 2))).add ((hm 0 1).const_mul (V 3))).add
    ((hm 1 2).const_mul (V 4))).add ((hm 2 0).const_mul (V 5)))
  rw [partial2, e, qslope_eq]
  refine (congrArg (fun L : (Fin 2 → ℝ) →L[ℝ] ℝ => L (Pi.single k 1)) (HasFDerivAt.fderiv this)).trans ?_
  simp [hd]
  ring

theorem qslope_continuous (x : Fin 3 → Fin 2 → ℝ) (V : Fin 6 → ℝ) (k : Fin 2) : Continuous (qslope x V k) := by
  have : partial2 (quad x V) k = qslope x V k := by funext y; exact quad_partial x V k y
  rw [← this]
  exact (partial_contDiff (quad_smooth x V) k).continuous

theorem quad_sub (x : Fin 3 → Fin 2 → ℝ) (V W : Fin 6 → ℝ) (y : Fin 2 → ℝ) :
    quad x (fun a => V a - W a) y = quad x V y - quad x W y := by
  simp only [quad, sub_mul, Finset.sum_sub_distrib]

theorem qslope_sub (x : Fin 3 → Fin 2 → ℝ) (V W : Fin 6 → ℝ) (k : Fin 2) (y : Fin 2 → ℝ) :
    qslope x (fun a => V a - W a) k y = qslope x V k y - qslope x W k y := by
  simp only [qslope, sub_mul, Finset.sum_sub_distrib]

/-! ## Values along edges -/

/-- the node between two nodes of a triangle -/
def midNode : Fin 3 → Fin 3 → Fin 6
  | 0, 1 => 3
  | 1, 0 => 3
  | 1, 2 => 4
  | 2, 1 => 4
  | 2, 0 => 5
  | 0, 2 => 5
  | 0, 0 => 0
  | 1, 1 => 1
  | 2, 2 => 2

/-- the quadratic function along a segment with the given values at its ends and in the middle -/
def alongEdge (a m b s : ℝ) : ℝ := a * ((1 - s) * (1 - 2 * s)) + 4 * m * (s * (1 - s)) + b * (s * (2 * s - 1))

theorem alongEdge_comm (a m b s : ℝ) : alongEdge a m b s = alongEdge b m a (1 - s) := by unfold alongEdge; ring

theorem quad_edge (hx : triangleArea x ≠ 0) (V : Fin 6 → ℝ) (a b : Fin 3) (s : ℝ) :
    quad x V (fun k => x a k + s * (x b k - x a k)) = alongEdge (V (a.castLE (by decide))) (V (midNode a b)) (V (b.castLE (by decide))) s := by
  have hb : ∀ i, bary x i (fun k => x a k + s * (x b k - x a k)) = (if a = i then 1 else 0) + s * ((if b = i then 1 else 0) - if a = i then 1 else 0) := by
    intro i
    rw [bary, linear_edge hx, Pi.single_apply, Pi.single_apply]
  rw [quad_eq, hb, hb, hb]
  fin_cases a <;> fin_cases b <;> simp [midNode, alongEdge] <;> ring

/-! ## Interpolation -/

/-- quadratic polynomials -/
noncomputable def taylor (z : Fin 2 → ℝ) (c : ℝ) (g : Fin 2 → ℝ) (H : Fin 2 → Fin 2 → ℝ) (y : Fin 2 → ℝ) : ℝ :=
  c + ∑ k, g k * (y k - z k) + 1 / 2 * ∑ j, ∑ k, H j k * ((y j - z j) * (y k - z k))

theorem quad_reproduces (hx : triangleArea x ≠ 0) (z : Fin 2 → ℝ) (c : ℝ) (g : Fin 2 → ℝ) (H : Fin 2 → Fin 2 → ℝ) (y : Fin 2 → ℝ) :
    quad x (fun a => taylor z c g H (nodesTri2 x a)) y = taylor z c g H y := by
  have h0 := coord_bary hx y 0
  have h1 := coord_bary hx y 1
  have hb := bary_sum x y
  rw [quad_eq]
  simp only [taylor, Fin.sum_univ_two]
  rw [h0, h1, hb]
  simp only [nodesTri2]
  simp
  ring

theorem taylor_partial (z : Fin 2 → ℝ) (c : ℝ) (g : Fin 2 → ℝ) (H : Fin 2 → Fin 2 → ℝ) (k : Fin 2) :
    partial2 (taylor z c g H) k z = g k := by
  have hb : ∀ i, HasFDerivAt (fun y : Fin 2 → ℝ => y i - z i) (ContinuousLinearMap.proj (R := ℝ) (φ := fun _ : Fin 2 => ℝ) i) z :=
    fun i => (hasFDerivAt_apply i z).sub_const _
  have h1 : HasFDerivAt (fun y : Fin 2 → ℝ => ∑ k, g k * (y k - z k)) _ z := HasFDerivAt.fun_sum fun i (_ : i ∈ Finset.univ) => (hb i).const_mul (g i)
  have h2 : HasFDerivAt (fun y : Fin 2 → ℝ => ∑ j, ∑ k, H j k * ((y j - z j) * (y k - z k))) _ z :=
    HasFDerivAt.fun_sum fun j (_ : j ∈ Finset.univ) => HasFDerivAt.fun_sum fun i (_ : i ∈ Finset.univ) => ((hb j).mul (hb i)).const_mul (H j i)
  have h3 := (h1.const_add c).add (h2.const_mul (1 / 2))
  unfold partial2
  refine (congrArg (fun L : (Fin 2 → ℝ) →L[ℝ] ℝ => L (Pi.single k 1)) (HasFDerivAt.fderiv h3)).trans ?_
  fin_cases k <;> simp [Fin.sum_univ_two]

theorem qslope_reproduces (hx : triangleArea x ≠ 0) (z : Fin 2 → ℝ) (c : ℝ) (g : Fin 2 → ℝ) (H : Fin 2 → Fin 2 → ℝ) (k : Fin 2) :
    qslope x (fun a => taylor z c g H (nodesTri2 x a)) k z = g k := by
  have e : quad x (fun a => taylor z c g H (nodesTri2 x a)) = taylor z c g H := by funext y; exact quad_reproduces hx z c g H y
  rw [← quad_partial, e, taylor_partial]

theorem bary_hull (hx : triangleArea x ≠ 0) {y : Fin 2 → ℝ} (hy : y ∈ hull x) : ∀ i, 0 ≤ bary x i y ∧ bary x i y ≤ 1 := by
  rw [hull, ← parametrization_image] at hy
  obtain ⟨ξ, ⟨h1, h2⟩, rfl⟩ := hy
  obtain ⟨b0, b1, b2⟩ := bary_param hx ξ
  have hs := h2
  rw [Fin.sum_univ_two] at hs
  have := h1 0
  have := h1 1
  intro i
  fin_cases i
  · exact b0 ▸ ⟨by linarith, by linarith⟩
  · exact b1 ▸ ⟨by linarith, by linarith⟩
  · exact b2 ▸ ⟨by linarith, by linarith⟩

theorem shape_bound {l : Fin 3 → ℝ} (h : ∀ i, 0 ≤ l i ∧ l i ≤ 1) (hs : l 2 = 1 - l 0 - l 1) (a : Fin 6) : |quadShape l a| ≤ 1 := by
  have h0 := h 0
  have h1 := h 1
  have h2 := h 2
  have key : ∀ s : ℝ, 0 ≤ s ∧ s ≤ 1 → |s * (2 * s - 1)| ≤ 1 := fun s hs => by rw [abs_le]; constructor <;> nlinarith
  have key2 : ∀ s t : ℝ, 0 ≤ s → 0 ≤ t → s + t ≤ 1 → |4 * s * t| ≤ 1 := fun s t h1 h2 h3 => by
    rw [abs_of_nonneg (by positivity)]
    nlinarith [sq_nonneg (s - t)]
  fin_cases a
  · exact key _ h0
  · exact key _ h1
  · exact key _ h2
  · exact key2 _ _ h0.1 h1.1 (by linarith)
  · exact key2 _ _ h1.1 h2.1 (by linarith)
  · exact key2 _ _ h2.1 h0.1 (by linarith)

theorem slope_bound {l g : Fin 3 → ℝ} (h : ∀ i, 0 ≤ l i ∧ l i ≤ 1) (hs : l 2 = 1 - l 0 - l 1) {G : ℝ} (hg : ∀ i, |g i| ≤ G) (a : Fin 6) :
    |quadSlope l g a| ≤ 4 * G := by
  have h0 := h 0
  have h1 := h 1
  have h2 := h 2
  have hG : 0 ≤ G := (abs_nonneg _).trans (hg 0)
  have key : ∀ s i, 0 ≤ s ∧ s ≤ 1 → |(4 * s - 1) * g i| ≤ 4 * G := fun s i hs => by
    rw [abs_mul]
    exact mul_le_mul (abs_le.mpr ⟨by linarith, by linarith⟩) (hg i) (abs_nonneg _) (by norm_num)
  have key2 : ∀ s t i j, 0 ≤ s → 0 ≤ t → s + t ≤ 1 → |4 * (s * g i + t * g j)| ≤ 4 * G := fun s t i j h1 h2 h3 => by
    rw [abs_mul, abs_of_pos (by norm_num : (0 : ℝ) < 4)]
    refine mul_le_mul_of_nonneg_left ((abs_add_le _ _).trans ?_) (by norm_num)
    rw [abs_mul, abs_mul, abs_of_nonneg h1, abs_of_nonneg h2]
    nlinarith [mul_le_mul_of_nonneg_left (hg i) h1, mul_le_mul_of_nonneg_left (hg j) h2]
  fin_cases a
  · exact key _ _ h0
  · exact key _ _ h1
  · exact key _ _ h2
  · exact key2 _ _ _ _ h0.1 h1.1 (by linarith)
  · exact key2 _ _ _ _ h1.1 h2.1 (by linarith)
  · exact key2 _ _ _ _ h2.1 h0.1 (by linarith)

theorem dbary_bound (hx : 0 < triangleArea x) {r : ℝ} (hr : ∀ a b, dist (x a) (x b) ≤ r) (i : Fin 3) (k : Fin 2) :
    |dbary x i k| ≤ r / (2 * triangleArea x) := by
  have hcoord : ∀ a b i, |x a i - x b i| ≤ r := fun a b i => by
    have h1 := dist_le_pi_dist (x a) (x b) i
    rw [Real.dist_eq] at h1
    exact h1.trans (hr a b)
  have hA : 0 < 2 * triangleArea x := by linarith
  obtain ⟨⟨h0, h1, h2⟩, h3, h4, h5⟩ := dbary_eq x
  have key : ∀ a b k, |(x a k - x b k) / (2 * triangleArea x)| ≤ r / (2 * triangleArea x) := fun a b k => by
    rw [abs_div, abs_of_pos hA]
    exact div_le_div_of_nonneg_right (hcoord a b k) hA.le
  have key2 : ∀ a b k, |-(x a k - x b k) / (2 * triangleArea x)| ≤ r / (2 * triangleArea x) := fun a b k => by
    rw [neg_div, abs_neg]; exact key a b k
  fin_cases k <;> fin_cases i
  · exact h0 ▸ key _ _ _
  · exact h1 ▸ key _ _ _
  · exact h2 ▸ key _ _ _
  · exact h3 ▸ key2 _ _ _
  · exact h4 ▸ key2 _ _ _
  · exact h5 ▸ key2 _ _ _

theorem node2_hull (x : Fin 3 → Fin 2 → ℝ) (a : Fin 6) : nodesTri2 x a ∈ hull x := by
  have key : ∀ a b, (1 / 2 : ℝ) • (x a + x b) ∈ hull x := fun a b => by
    have := (convex_convexHull ℝ (Set.range x)) (node_hull x a) (node_hull x b) (show (0 : ℝ) ≤ 1 / 2 by norm_num)
      (show (0 : ℝ) ≤ 1 / 2 by norm_num) (by norm_num)
    rwa [← smul_add] at this
  fin_cases a
  · exact node_hull x 0
  · exact node_hull x 1
  · exact node_hull x 2
  · exact key 0 1
  · exact key 1 2
  · exact key 2 0

/-- the interpolating function and its gradient, if the values at the nodes are those of a polynomial up to `τ` -/
theorem quad_error (hx : 0 < triangleArea x) {r τ : ℝ} (hr : ∀ a b, dist (x a) (x b) ≤ r) {u : (Fin 2 → ℝ) → ℝ} {y : Fin 2 → ℝ}
    (hy : y ∈ hull x) {H : Fin 2 → Fin 2 → ℝ}
    (hτ : ∀ a, |u (nodesTri2 x a) - taylor y (u y) (fun k => partial2 u k y) H (nodesTri2 x a)| ≤ τ) :
    |quad x (fun a => u (nodesTri2 x a)) y - u y| ≤ 6 * τ ∧
      ∀ k, |qslope x (fun a => u (nodesTri2 x a)) k y - partial2 u k y| ≤ 12 * r * τ / triangleArea x := by
  have hl := bary_hull hx.ne' hy
  have hs := bary_sum x y
  have hτ0 : 0 ≤ τ := (abs_nonneg _).trans (hτ 0)
  constructor
  · have e1 := quad_reproduces hx.ne' y (u y) (fun k => partial2 u k y) H y
    have e2 : taylor y (u y) (fun k => partial2 u k y) H y = u y := by simp [taylor]
    rw [e2] at e1
    conv_lhs => rw [← e1]
    rw [← quad_sub]
    refine (Finset.abs_sum_le_sum_abs _ _).trans ?_
    refine (Finset.sum_le_sum (g := fun _ => τ) fun a _ => ?_).trans (by simp)
    rw [abs_mul]
    exact (mul_le_mul (hτ a) (shape_bound hl hs a) (abs_nonneg _) hτ0).trans (by simp)
  · intro k
    have e1 := qslope_reproduces hx.ne' y (u y) (fun k => partial2 u k y) H k
    conv_lhs => rw [← e1]
    rw [← qslope_sub]
    refine (Finset.abs_sum_le_sum_abs _ _).trans ?_
    refine (Finset.sum_le_sum (g := fun _ => τ * (4 * (r / (2 * triangleArea x)))) fun a _ => ?_).trans (le_of_eq ?_)
    · rw [abs_mul]
      exact mul_le_mul (hτ a) (slope_bound hl hs (fun i => dbary_bound hx hr i k) a) (abs_nonneg _) hτ0
    · simp
      ring

/-! ## The gradient is linear -/

theorem qslope_linear (hx : triangleArea x ≠ 0) (V : Fin 6 → ℝ) (k : Fin 2) (y : Fin 2 → ℝ) :
    qslope x V k y = linear x (fun i => qslope x V k (x i)) y := by
  rw [linear_eq_bary]
  simp only [qslope_eq, bary_node hx, dbary_sum, bary_sum x y]
  simp
  ring

/-- the variation of a quadratic function -/
theorem quad_variation (hx : triangleArea x ≠ 0) {r G : ℝ} (hr : ∀ a b, dist (x a) (x b) ≤ r) (V : Fin 6 → ℝ)
    (hG : ∀ y ∈ hull x, ∑ k, |qslope x V k y| ≤ G) {y z : Fin 2 → ℝ} (hy : y ∈ hull x) (hz : z ∈ hull x) :
    |quad x V y - quad x V z| ≤ r * G := by
  obtain ⟨s, hs, h⟩ := mean_value ((quad_smooth x V).differentiable two_ne_zero) z y
  have hseg := segment_hull hz hy hs
  have hr0 : 0 ≤ r := dist_nonneg.trans (hr 0 0)
  rw [h]
  refine (Finset.abs_sum_le_sum_abs _ _).trans ?_
  refine le_trans ?_ (mul_le_mul_of_nonneg_left (hG _ hseg) hr0)
  rw [Finset.mul_sum]
  refine Finset.sum_le_sum fun k _ => ?_
  rw [abs_mul, quad_partial, mul_comm]
  have h1 := dist_le_pi_dist y z k
  rw [Real.dist_eq] at h1
  exact mul_le_mul_of_nonneg_right (h1.trans (hull_dist hr hy hz)) (abs_nonneg _)

/-! ## Rules -/

/-- the polynomial of degree two with the given coefficients -/
def poly2 (c : Fin 6 → ℝ) (ξ : Fin 2 → ℝ) : ℝ :=
  c 0 + c 1 * ξ 0 + c 2 * ξ 1 + c 3 * ξ 0 ^ 2 + c 4 * ξ 1 ^ 2 + c 5 * (ξ 0 * ξ 1)

/-- its mean over the triangle -/
noncomputable def poly2Mean (c : Fin 6 → ℝ) : ℝ := c 0 + c 1 / 3 + c 2 / 3 + c 3 / 6 + c 4 / 6 + c 5 / 12

open MvPolynomial in
theorem accurate_poly2 {tb : Table 2} (h : Accurate mean2 tb 2 0) (c : Fin 6 → ℝ) : apply tb (poly2 c) = meanOver 2 (poly2 c) := by
  have h1 := accurate_two h (C (c 0) + C (c 1) * X 0 + C (c 2) * X 1 + C (c 3) * X 0 ^ 2 + C (c 4) * X 1 ^ 2 + C (c 5) * (X 0 * X 1)) ?_
  · rw [zero_mul] at h1
    have h2 := sub_eq_zero.mp (abs_nonpos_iff.mp h1)
    simp only [map_add, map_mul, map_pow, eval_C, eval_X] at h2
    exact h2
  · have hX : ∀ i : Fin 2, (X i : MvPolynomial (Fin 2) ℝ).totalDegree ≤ 1 := fun i => (totalDegree_X i).le
    have hC : ∀ (a : ℝ) (p : MvPolynomial (Fin 2) ℝ) {n : Nat}, p.totalDegree ≤ n → (C a * p).totalDegree ≤ n := fun a p n hp =>
      (totalDegree_mul _ _).trans (by rw [totalDegree_C]; omega)
    have hA : ∀ (p q : MvPolynomial (Fin 2) ℝ), p.totalDegree ≤ 2 → q.totalDegree ≤ 2 → (p + q).totalDegree ≤ 2 := fun p q hp hq =>
      (totalDegree_add _ _).trans (max_le hp hq)
    have hM : ∀ i j : Fin 2, (X i * X j : MvPolynomial (Fin 2) ℝ).totalDegree ≤ 2 := fun i j =>
      (totalDegree_mul _ _).trans (by have := hX i; have := hX j; omega)
    refine hA _ _ (hA _ _ (hA _ _ (hA _ _ (hA _ _ ?_ ?_) ?_) ?_) ?_) ?_
    · rw [totalDegree_C]; omega
    · exact hC _ _ ((hX _).trans (by omega))
    · exact hC _ _ ((hX _).trans (by omega))
    · exact hC _ _ (by rw [pow_two]; exact hM _ _)
    · exact hC _ _ (by rw [pow_two]; exact hM _ _)
    · exact hC _ _ (hM _ _)

theorem mean_poly2 (c : Fin 6 → ℝ) : meanOver 2 (poly2 c) = poly2Mean c := by
  rw [← accurate_poly2 triangle2_accurate]
  have h : triangle2.rule = [(![2 / 3, 1 / 6], 1 / 3), (![1 / 6, 2 / 3], 1 / 3), (![1 / 6, 1 / 6], 1 / 3)] := by
    simp only [Table.rule, triangle2, List.map_cons, List.map_nil]
    norm_num
    refine ⟨?_, ?_, ?_⟩ <;> funext i <;> fin_cases i <;> norm_num
  rw [apply, h]
  simp [poly2, poly2Mean]
  ring

/-- the integral over a triangle -/
theorem hull_poly2 (hx : 0 < triangleArea x) {g : (Fin 2 → ℝ) → ℝ} {c : Fin 6 → ℝ}
    (hg : ∀ ξ, g ((parametrization x).eval ξ) = poly2 c ξ) : ∫ y in hull x, g y = triangleArea x * poly2Mean c := by
  rw [hull, integral_hull (n := 1), simplexVolume_area, abs_of_pos hx]
  simp only [hg]
  rw [← mean_poly2]

theorem apply_poly2 {tb : Table 2} (h : Accurate mean2 tb 2 0) {g : (Fin 2 → ℝ) → ℝ} {c : Fin 6 → ℝ}
    (hg : ∀ ξ, g ((parametrization x).eval ξ) = poly2 c ξ) : apply tb (fun ξ => g ((parametrization x).eval ξ)) = poly2Mean c := by
  simp only [hg]
  rw [← mean_poly2, ← accurate_poly2 h]

end Mito.Fem.Quadratic
