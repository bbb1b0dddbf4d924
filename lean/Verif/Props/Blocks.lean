import Verif.Fem.BlocksLemmas
import Verif.Spec.Blocks

/-! # C52, C59, C70: element matrices and norms -/

namespace Mito.Fem

open Mito.Functions Mito.Geometry

variable {d n : Nat}

/-! ## C52: element matrices -/

theorem gradGrad_symmetric (rule : Rule d) (e : Element d n) (a b : Fin n) : gradGrad rule e a b = gradGrad rule e b a := by
  simp only [gradGrad_sum, mul_comm (e.gradient a _ _)]

theorem mass_symmetric (rule : Rule d) (e : Element d n) (a b : Fin n) : mass rule e a b = mass rule e b a := by
  simp only [mass_sum, mul_assoc, mul_comm ((e.shape a).eval _ _)]

/-- the stiffness matrix annihilates constants -/
theorem gradGrad_constants (rule : Rule d) {e : Element d n} (h : IsElement e) (a : Fin n) : ∑ b, gradGrad rule e a b = 0 := by
  simp only [gradGrad_sum]
  rw [sum_list_comm]
  refine List.sum_eq_zero fun y hy => ?_
  obtain ⟨p, _, rfl⟩ := List.mem_map.mp hy
  rw [← Finset.mul_sum, Finset.sum_comm]
  simp [← Finset.mul_sum, gradient_sum h]

/-- the stiffness matrix is positive semidefinite -/
theorem gradGrad_psd {rule : Rule d} {e : Element d n} (hw : ∀ p ∈ rule, 0 ≤ p.2) (hd : ∀ ξ, 0 ≤ e.detJ ξ) (u : Fin n → ℝ) :
    0 ≤ ∑ a, ∑ b, u a * gradGrad rule e a b * u b := by
  rw [gradGrad_form]
  refine list_sum_nonneg _ _ fun p hp => mul_nonneg (factor_nonneg (hw p hp) hd) (Finset.sum_nonneg fun k _ => ?_)
  exact mul_self_nonneg _

/-- the mass matrix is positive semidefinite -/
theorem mass_psd {rule : Rule d} {e : Element d n} (hw : ∀ p ∈ rule, 0 ≤ p.2) (hd : ∀ ξ, 0 ≤ e.detJ ξ) (u : Fin n → ℝ) :
    0 ≤ ∑ a, ∑ b, u a * mass rule e a b * u b := by
  rw [mass_form]
  exact list_sum_nonneg _ _ fun p hp => mul_nonneg (factor_nonneg (hw p hp) hd) (mul_self_nonneg _)

/-- the entries of the mass matrix sum to the length of the segment or to the area of the triangle, times the sum of the weights of
the rule -/
theorem mass_volume :
    (∀ (rule : Rule 1) (x : Fin 2 → Val (.vec 1)), ∑ a, ∑ b, mass rule (segP1 x) a b = (rule.map fun p => p.2).sum * length x) ∧
    (∀ (rule : Rule 2) (x : Fin 3 → Val (.vec 2)),
      ∑ a, ∑ b, mass rule (triP1 x) a b = (rule.map fun p => p.2).sum * triangleArea x) ∧
    (∀ (rule : Rule 2) (x : Fin 3 → Val (.vec 2)),
      ∑ a, ∑ b, mass rule (triP2 x) a b = (rule.map fun p => p.2).sum * triangleArea x) := by
  refine ⟨fun rule x => ?_, fun rule x => ?_, fun rule x => ?_⟩
  · rw [mass_total (.seg1 x) _ (seg1_detJ x)]; simp [area]
  · rw [mass_total (.tri1 x) _ (tri1_detJ x)]; simp [area, Nat.factorial]; ring
  · rw [mass_total (.tri2 x) _ (tri2_detJ x)]; simp [area, Nat.factorial]; ring

/-- on linear elements only constants have no energy -/
theorem gradGrad_definite :
    (∀ (rule : Rule 1) (x : Fin 2 → Val (.vec 1)) (u : Fin 2 → ℝ), (∀ p ∈ rule, 0 ≤ p.2) → (∃ p ∈ rule, 0 < p.2) →
      0 < length x → ∑ a, ∑ b, u a * gradGrad rule (segP1 x) a b * u b = 0 → ∀ a b, u a = u b) ∧
    (∀ (rule : Rule 2) (x : Fin 3 → Val (.vec 2)) (u : Fin 3 → ℝ), (∀ p ∈ rule, 0 ≤ p.2) → (∃ p ∈ rule, 0 < p.2) →
      0 < triangleArea x → ∑ a, ∑ b, u a * gradGrad rule (triP1 x) a b * u b = 0 → ∀ a b, u a = u b) := by
  refine ⟨fun rule x u hw ⟨p, hp, hpos⟩ hx h0 => ?_, fun rule x u hw ⟨p, hp, hpos⟩ hx h0 => ?_⟩
  · have h := gradGrad_kernel hw (fun ξ => by rw [seg1_detJ]; exact hx) u h0 hp hpos 0
    obtain ⟨k0, k1⟩ := seg1_dshape p.1 0
    simp only [segP1, Element.dshape, Fin.sum_univ_two, k0, k1] at h
    have h1 : u 0 = u 1 := by linarith
    intro a b
    fin_cases a <;> fin_cases b <;> simp [h1]
  · have hd : ∀ ξ, 0 < (triP1 x).detJ ξ := fun ξ => by rw [tri1_detJ]; linarith
    have ha := gradGrad_kernel hw hd u h0 hp hpos 0
    have hb := gradGrad_kernel hw hd u h0 hp hpos 1
    obtain ⟨k0, k1, k2⟩ := tri1_dshape p.1 0
    obtain ⟨l0, l1, l2⟩ := tri1_dshape p.1 1
    simp only [triP1, Element.dshape, Fin.sum_univ_three, k0, k1, k2] at ha
    simp only [triP1, Element.dshape, Fin.sum_univ_three, l0, l1, l2] at hb
    simp at ha hb
    have h1 : u 0 = u 2 := by linarith
    have h2 : u 1 = u 2 := by linarith
    intro a b
    fin_cases a <;> fin_cases b <;> simp [h1, h2]

/-- the stiffness matrix of a segment, for every rule -/
theorem gradGrad_seg1 (rule : Rule 1) (x : Fin 2 → Val (.vec 1)) (hx : length x ≠ 0) (a b : Fin 2) :
    gradGrad rule (segP1 x) a b = (rule.map fun p => p.2).sum * ((if a = b then 1 else -1) / length x) := by
  have hinv := seg1_inverse x
  have hg : ∀ ξ, (segP1 x).gradient 0 ξ 0 = -(length x)⁻¹ ∧ (segP1 x).gradient 1 ξ 0 = (length x)⁻¹ := by
    intro ξ
    obtain ⟨k0, k1⟩ := seg1_dshape ξ 0
    constructor
    · simp [Element.gradient, mul, hinv]
      simp [segP1, Element.dshape, k0]
    · simp [Element.gradient, mul, hinv]
      simp [segP1, Element.dshape, k1]
  rw [gradGrad_sum]
  simp only [factor, seg1_detJ, Fin.sum_univ_one, Fin.isValue]
  have key : ∀ c : ℝ, (∀ ξ, (segP1 x).gradient a ξ 0 * (segP1 x).gradient b ξ 0 = c * (length x)⁻¹ * (length x)⁻¹) →
      (rule.map fun p => area 1 * p.2 * length x * ((segP1 x).gradient a p.1 0 * (segP1 x).gradient b p.1 0)).sum =
        (rule.map fun p => p.2).sum * (c / length x) := by
    intro c hc
    simp only [hc]
    rw [List.sum_map_mul_right, List.sum_map_mul_right, List.sum_map_mul_left]
    simp [area]
    field_simp
  apply key
  intro ξ
  obtain ⟨g0, g1⟩ := hg ξ
  fin_cases a <;> fin_cases b <;> simp [g0, g1]

/-- source terms: linear in the source, and the entries sum to the integral of the source by the rule -/
theorem sourceTerm_total (f : Val (.vec d) → ℝ) (rule : Rule d) {e : Element d n} (h : IsElement e) :
    ∑ a, sourceTerm f rule e a = (rule.map fun p => factor e p * f (e.parametrization.eval p.1)).sum := by
  simp only [sourceTerm_sum]
  rw [sum_list_comm]
  simp only [← Finset.mul_sum, shape_sum h, mul_one]

theorem sourceTerm_linear (s t : ℝ) (f g : Val (.vec d) → ℝ) (rule : Rule d) (e : Element d n) (a : Fin n) :
    sourceTerm (fun y => s * f y + t * g y) rule e a = s * sourceTerm f rule e a + t * sourceTerm g rule e a := by
  simp only [sourceTerm_sum]
  rw [← List.sum_map_mul_left, ← List.sum_map_mul_left, ← List.sum_map_add]
  congr 2
  funext p
  ring

/-! ## Localization -/

/-- a finite element field on an element is the sum of its nodal values times the shape functions -/
theorem localize_fem {κ : Type} (e : Element d n) (c : Fin n → κ) (u : κ → ℝ) (ξ : Val (.vec d)) :
    (localize e c (.fem u)).eval ξ () = ∑ a, (e.shape a).eval ξ () * u (c a) := by
  rw [localize, eval_sumList, List.map_map, ← List.ofFn_eq_map, List.sum_ofFn, Finset.sum_apply]
  rfl

/-- the gradient of a finite element field in parametric coordinates -/
theorem localize_fem_gradient {κ : Type} (e : Element d n) (c : Fin n → κ) (u : κ → ℝ) (ξ : Val (.vec d)) (k : Fin d) :
    (Functions.gradient (localize e c (.fem u))).eval ξ k = ∑ a, (e.dshape a).eval ξ k * u (c a) := by
  rw [gradient_eval, localize, derivative_sumList, List.map_map, ← List.ofFn_eq_map, List.sum_ofFn, Finset.sum_apply]
  refine Finset.sum_congr rfl fun a _ => ?_
  rw [Element.dshape, gradient_eval]
  simp [Expr.derivative, Expr.eval, mul]

/-- a field on an element is its value at the physical point -/
theorem localize_field {κ : Type} (e : Element d n) (c : Fin n → κ) (f : Expr (.vec d) .scalar) (ξ : Val (.vec d)) :
    (localize e c (.field f)).eval ξ () = f.eval (e.parametrization.eval ξ) () := rfl

/-! ## C70: the L2 norm -/

theorem l2Norm_eq {κ : Type} (rule : Rule d) (space : Space κ d n) (u v : Localizable κ d) :
    l2Norm rule space u v = Real.sqrt ((space.map fun ec => (rule.map fun p => factor ec.1 p *
      ((localize ec.1 ec.2 u).eval p.1 () - (localize ec.1 ec.2 v).eval p.1 ()) ^ 2).sum).sum) := by
  rw [l2Norm, foldl_add]
  simp only [l2Block_sum, eval_sub, Pi.sub_apply]

/-- the L2 norm of a difference is a distance (up to functions that agree at the quadrature points), if no element is inverted -/
theorem l2Norm_distance {κ : Type} {rule : Rule d} {space : Space κ d n} (h : Positive rule space)
    (u v w : Localizable κ d) :
    0 ≤ l2Norm rule space u v ∧ l2Norm rule space u u = 0 ∧ l2Norm rule space u v = l2Norm rule space v u ∧
      l2Norm rule space u w ≤ l2Norm rule space u v + l2Norm rule space v w := by
  refine ⟨Real.sqrt_nonneg _, ?_, ?_, ?_⟩
  · rw [l2Norm_eq]
    simp
  · rw [l2Norm_eq, l2Norm_eq]
    congr 1
    simp only [sub_sq_comm]
  · simp only [l2Norm_eq, list_sum_flat]
    have := sqrt_sum_triangle (space.flatMap fun a => rule.map fun b => (a, b)) (fun ab => factor ab.1.1 ab.2)
      (fun ab => (localize ab.1.1 ab.1.2 u).eval ab.2.1 () - (localize ab.1.1 ab.1.2 v).eval ab.2.1 ())
      (fun ab => (localize ab.1.1 ab.1.2 v).eval ab.2.1 () - (localize ab.1.1 ab.1.2 w).eval ab.2.1 ()) (by
        intro ab hab
        simp only [List.mem_flatMap, List.mem_map] at hab
        obtain ⟨ec, hec, p, hp, rfl⟩ := hab
        exact factor_nonneg (h.1 p hp) (h.2 ec hec))
    simpa only [sub_add_sub_cancel] using this

/-- with an inverted element the sum under the root is negative: the real root of the model is zero and that of the code is NaN -/
theorem l2Norm_inverted :
    ∃ (rule : Rule 1) (e : Element 1 2) (f : Expr (.vec 1) .scalar), IsElement e ∧ (∀ p ∈ rule, 0 ≤ p.2) ∧
      l2Block rule f e < 0 := by
  refine ⟨[(![1 / 2], 1)], segP1 fun a => if a = 0 then ![1] else ![0], .const (sc 1), .seg1 _, by simp, ?_⟩
  rw [l2Block_sum]
  simp [factor, seg1_detJ, length, Expr.eval, area]

/-! ## C59: the H1 norm -/

theorem h1Norm_eq {κ : Type} (rule : Rule d) (space : Space κ d n) (u v : Localizable κ d) :
    h1Norm rule space u v = Real.sqrt ((space.map fun ec => (rule.map fun p => factor ec.1 p *
      (((localize ec.1 ec.2 u).sub (localize ec.1 ec.2 v)).eval p.1 () ^ 2 + ∑ i : Fin d,
        (Functions.gradient ((localize ec.1 ec.2 u).sub (localize ec.1 ec.2 v))).eval p.1 i ^ 2)).sum).sum) := by
  rw [h1Norm, foldl_add]
  congr 3
  funext ec
  rw [l2Block_sum, l2BlockV_sum, ← List.sum_map_add]
  congr 2
  funext p
  rw [← mul_add]
  congr 3
  funext i
  congr 1
  rw [eval_sub, Pi.sub_apply]
  simp only [gradient_eval]
  simp [Expr.sub, Expr.add, Expr.neg, Expr.smul, Expr.derivative, Expr.eval, mul, sub_eq_add_neg]

/-- The H1 norm is the H1 norm when all jacobians are orthogonal. -/
theorem h1Norm_partial {κ : Type} (rule : Rule d) (space : Space κ d n) (u v : Localizable κ d)
    (ho : ∀ ec ∈ space, ∀ ξ, toMatrix (ec.1.jacobian ξ) * (toMatrix (ec.1.jacobian ξ)).transpose = 1) :
    h1Norm rule space u v = trueH1Norm rule space u v := by
  rw [h1Norm_eq, trueH1Norm]
  congr 2
  refine List.map_congr_left fun ec hec => ?_
  rw [h1Square]
  congr 2
  funext p
  congr 2
  rw [← orthogonal_square _ (ho ec hec p.1)]
  rfl

/-- It is not otherwise: `u(x) = x` on the segment from 0 to 2. -/
theorem h1Norm_fails :
    ∃ (rule : Rule 1) (space : Space Nat 1 2) (u v : Localizable Nat 1), Positive rule space ∧
      (∀ ec ∈ space, IsElement ec.1) ∧ h1Norm rule space u v ≠ trueH1Norm rule space u v := by
  refine ⟨[(![1 / 2], 1)], [(segP1 fun a => if a = 0 then ![0] else ![2], fun a => (a : Nat))],
    .fem fun i => 2 * i, .fem fun _ => 0, ⟨by simp, ?_⟩, ?_, ?_⟩
  · intro ec hec ξ
    simp only [List.mem_singleton] at hec
    subst hec
    rw [seg1_detJ]
    simp [length]
  · intro ec hec
    simp only [List.mem_singleton] at hec
    subst hec
    exact .seg1 _
  · have hg : (Functions.gradient (localize (segP1 fun a => if a = 0 then ![0] else ![2]) (fun a : Fin 2 => (a : Nat))
        (.fem fun i => 2 * (i : ℝ)))).eval ![1 / 2] 0 = 2 := by
      obtain ⟨k0, k1⟩ := seg1_dshape ![1 / 2] 0
      rw [localize_fem_gradient, Fin.sum_univ_two]
      simp only [segP1, Element.dshape, k0, k1]
      simp
    have hg0 : (Functions.gradient (localize (segP1 fun a => if a = 0 then ![0] else ![2]) (fun a : Fin 2 => (a : Nat))
        (.fem fun _ => (0 : ℝ)))).eval ![1 / 2] 0 = 0 := by
      rw [localize_fem_gradient]
      simp
    have hv : (localize (segP1 fun a => if a = 0 then ![0] else ![2]) (fun a : Fin 2 => (a : Nat))
        (.fem fun i => 2 * (i : ℝ))).eval ![1 / 2] () = 1 := by
      obtain ⟨k0, k1⟩ := seg1_eval ![1 / 2]
      rw [localize_fem, Fin.sum_univ_two]
      simp only [segP1, k0, k1]
      simp
    have hv0 : (localize (segP1 fun a => if a = 0 then ![0] else ![2]) (fun a : Fin 2 => (a : Nat))
        (.fem fun _ => (0 : ℝ))).eval ![1 / 2] () = 0 := by
      rw [localize_fem]
      simp
    rw [h1Norm_eq, trueH1Norm]
    simp only [List.map_cons, List.map_nil, List.sum_cons, List.sum_nil, add_zero, h1Square, factor, seg1_detJ,
      physicalGradient, Fin.sum_univ_one, mul, seg1_inverse, gradient_sub, eval_sub, Pi.sub_apply, hg, hg0, hv, hv0]
    intro h
    have h1 := (Real.sqrt_inj (by simp [area, length]; norm_num) (by simp [area, length])).mp h
    simp [area, length] at h1
    norm_num at h1

/-! ## Examples -/

/-- two points on a segment -/
noncomputable def exampleRule : Rule 1 := [(![1 / 4], 1 / 2), (![3 / 4], 1 / 2)]

noncomputable def exampleSegment : Fin 2 → Val (.vec 1) := fun a => if a = 0 then ![1] else ![3]

example : (∀ p ∈ exampleRule, 0 ≤ p.2) ∧ (∃ p ∈ exampleRule, 0 < p.2) ∧ (exampleRule.map fun p => p.2).sum = 1 ∧
    0 < length exampleSegment := by
  refine ⟨by simp [exampleRule], ⟨(![1 / 4], 1 / 2), by simp [exampleRule], by norm_num⟩, ?_, ?_⟩
  · simp [exampleRule]; norm_num
  · simp [exampleSegment, length]

example : Positive exampleRule [(segP1 exampleSegment, fun a : Fin 2 => (a : Nat))] := by
  refine ⟨by simp [exampleRule], fun ec hec ξ => ?_⟩
  simp only [List.mem_singleton] at hec
  subst hec
  rw [seg1_detJ]
  simp [exampleSegment, length]

example : gradGrad exampleRule (segP1 exampleSegment) 0 1 = -1 / 2 := by
  have hl : length exampleSegment = 2 := by simp [exampleSegment, length]; norm_num
  rw [gradGrad_seg1 _ _ (by rw [hl]; norm_num), hl]
  simp [exampleRule]
  norm_num

/-- a segment of length one has an orthogonal jacobian -/
example (ξ : Val (.vec 1)) : toMatrix ((segP1 fun a => if a = 0 then ![1] else ![2]).jacobian ξ) *
    (toMatrix ((segP1 fun a => if a = 0 then ![1] else ![2]).jacobian ξ)).transpose = 1 := by
  obtain ⟨k0, k1⟩ := seg1_dshape ξ 0
  ext i j
  fin_cases i; fin_cases j
  simp [Matrix.mul_apply, toMatrix, segP1, mul, k0, k1]
  norm_num

end Mito.Fem
