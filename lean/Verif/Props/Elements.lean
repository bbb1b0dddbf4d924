import Verif.Fem.ElementsLemmas
import Mathlib.Analysis.Calculus.FDeriv.Linear
import Mathlib.LinearAlgebra.Matrix.NonsingularInverse

/-! # C50, C51: shape functions, jacobians and gradients -/

namespace Mito.Fem

open Mito.Functions Mito.Geometry

/-! ## C50: shape functions -/

/-- the shape functions sum to one everywhere -/
theorem shape_partition {d n : Nat} {e : Element d n} (h : IsElement e) (ξ : Val (.vec d)) :
    ∑ a, (e.shape a).eval ξ () = 1 := shape_sum h ξ

/-- one at the own node and zero at the others: the segment -/
theorem shape_seg1_nodal (a b : Fin 2) : (shapeSeg1 a).eval (nodesSeg1 b) () = if a = b then 1 else 0 := by
  obtain ⟨h0, h1⟩ := seg1_eval (nodesSeg1 b)
  fin_cases a <;> simp only [h0, h1, Fin.zero_eta, Fin.mk_one] <;> fin_cases b <;> simp [nodesSeg1]

/-- the linear triangle -/
theorem shape_tri1_nodal (a b : Fin 3) : (shapeTri1 a).eval (nodesRef b) () = if a = b then 1 else 0 := by
  obtain ⟨h0, h1, h2⟩ := tri1_eval (nodesRef b)
  fin_cases a <;> simp only [h0, h1, h2, Fin.zero_eta, Fin.mk_one, Fin.reduceFinMk] <;> fin_cases b <;> simp [nodesRef]

/-- the quadratic triangle: the vertices and the midpoints of the sides are its nodes -/
theorem shape_tri2_nodal (a b : Fin 6) : (shapeTri2 a).eval (nodesTri2 nodesRef b) () = if a = b then 1 else 0 := by
  obtain ⟨h0, h1, h2, h3, h4, h5⟩ := tri2_eval (nodesTri2 nodesRef b)
  fin_cases a <;> simp only [h0, h1, h2, h3, h4, h5, Fin.zero_eta, Fin.mk_one, Fin.reduceFinMk] <;> fin_cases b <;>
    simp [nodesRef, nodesTri2] <;> norm_num

/-- linear elements reproduce affine functions: on every segment ... -/
theorem shape_seg1_affine (x : Fin 2 → Val (.vec 1)) (c : ℝ) (l : Fin 1 → ℝ) (ξ : Val (.vec 1)) :
    ∑ a, affine c l (x a) * ((segP1 x).shape a).eval ξ () = affine c l ((segP1 x).parametrization.eval ξ) := by
  obtain ⟨h0, h1⟩ := seg1_eval ξ
  simp [segP1, affine, Fin.sum_univ_two, h0, h1, Expr.eval, mul]
  ring

/-- ... and on every triangle -/
theorem shape_tri1_affine (x : Fin 3 → Val (.vec 2)) (c : ℝ) (l : Fin 2 → ℝ) (ξ : Val (.vec 2)) :
    ∑ a, affine c l (x a) * ((triP1 x).shape a).eval ξ () = affine c l ((triP1 x).parametrization.eval ξ) := by
  obtain ⟨h0, h1, h2⟩ := tri1_eval ξ
  simp only [triP1, affine, Fin.sum_univ_two, Fin.sum_univ_three, h0, h1, h2, tri_parametrization]
  ring

/-- quadratic elements reproduce quadratic functions on every triangle -/
theorem shape_tri2_quadratic (x : Fin 3 → Val (.vec 2)) (c : ℝ) (l : Fin 2 → ℝ) (q : Fin 2 → Fin 2 → ℝ) (ξ : Val (.vec 2)) :
    ∑ a, quadratic c l q (nodesTri2 x a) * ((triP2 x).shape a).eval ξ () =
      quadratic c l q ((triP2 x).parametrization.eval ξ) := by
  obtain ⟨h0, h1, h2, h3, h4, h5⟩ := tri2_eval ξ
  simp only [triP2, quadratic, affine, Fin.sum_univ_two, Fin.sum_univ_six, h0, h1, h2, h3, h4, h5, tri_parametrization,
    nodesTri2, Pi.smul_apply, Pi.add_apply, smul_eq_mul]
  ring

/-- linear elements do not reproduce quadratic functions -/
example : ¬ ∀ (x : Fin 2 → Val (.vec 1)) (ξ : Val (.vec 1)),
    ∑ a, x a 0 ^ 2 * ((segP1 x).shape a).eval ξ () = (segP1 x).parametrization.eval ξ 0 ^ 2 := by
  intro h
  have := h nodesSeg1 ![1 / 2]
  obtain ⟨h0, h1⟩ := seg1_eval ![1 / 2]
  simp only [segP1, Fin.sum_univ_two, h0, h1, Expr.eval, mul, nodesSeg1, Pi.add_apply] at this
  norm_num at this

/-! ## C51: jacobians and gradients -/

/-- the parametrization maps the parametric nodes to the nodes -/
theorem parametrization_nodes :
    (∀ x b, (segP1 x).parametrization.eval (nodesSeg1 b) = x b) ∧
    (∀ x b, (triP1 x).parametrization.eval (nodesRef b) = x b) ∧
    (∀ x b, (triP2 x).parametrization.eval (nodesTri2 nodesRef b) = nodesTri2 x b) := by
  refine ⟨fun x b => ?_, fun x b => ?_, fun x b => ?_⟩
  · funext i
    obtain ⟨h0, h1⟩ := seg1_eval (nodesSeg1 b)
    fin_cases i
    simp only [segP1, Expr.eval, mul, Fin.sum_univ_two, Pi.add_apply, h0, h1]
    fin_cases b <;> simp [nodesSeg1]
  · funext i
    simp only [triP1, tri_parametrization]
    fin_cases b <;> simp [nodesRef]
  · funext i
    simp only [triP2, tri_parametrization]
    fin_cases b <;> simp [nodesRef, nodesTri2] <;> ring

/-- the jacobian is the derivative of the parametrization -/
theorem jacobian_correct {d n : Nat} {e : Element d n} (h : IsElement e) (ξ : Val (.vec d)) :
    HasFDerivAt e.parametrization.eval (Matrix.mulVecLin (toMatrix (e.jacobian ξ))).toContinuousLinearMap ξ := by
  obtain ⟨c, A, h1, h2⟩ := element_affine h
  have he : e.parametrization.eval = fun ξ => c + (Matrix.mulVecLin (toMatrix A)).toContinuousLinearMap ξ := by
    funext ξ i
    rw [h1]
    simp [Matrix.mulVec, dotProduct, toMatrix]
  rw [he, h2]
  exact (ContinuousLinearMap.hasFDerivAt _).const_add c

/-- entry by entry: row by component, column by direction -/
theorem jacobian_entries {d n : Nat} {e : Element d n} (h : IsElement e) (ξ : Val (.vec d)) (i j : Fin d) :
    HasDerivAt (fun t => e.parametrization.eval (Function.update ξ j t) i) (e.jacobian ξ (i, j)) (ξ j) := by
  have h1 : HasDerivAt (fun t : ℝ => Function.update ξ j t) (Pi.single j 1) (ξ j) := hasDerivAt_update ξ j (ξ j)
  have h2 := jacobian_correct h ξ
  rw [← Function.update_eq_self j ξ] at h2
  have h3 := hasDerivAt_pi.mp (h2.comp_hasDerivAt (ξ j) h1) i
  simp only [Function.update_eq_self] at h3
  refine h3.congr_deriv ?_
  simp [toMatrix]

/-- the determinants: twice the area, or the length -/
theorem jacobian_det :
    (∀ x ξ, (segP1 x).detJ ξ = length x) ∧ (∀ x ξ, (triP1 x).detJ ξ = 2 * triangleArea x) ∧
    (∀ x ξ, (triP2 x).detJ ξ = 2 * triangleArea x) := ⟨seg1_detJ, tri1_detJ, tri2_detJ⟩

/-- the shape functions as functions on a non-degenerate physical element have the physical gradients -/
theorem gradient_correct {d n : Nat} {e : Element d n} (h : IsElement e) (hd : ∀ ξ, e.detJ ξ ≠ 0) (a : Fin n) :
    ∃! g : Val (.vec d) → ℝ, (∀ ξ, g (e.parametrization.eval ξ) = (e.shape a).eval ξ ()) ∧
      ∀ ξ, HasGradient g (e.gradient a ξ) (e.parametrization.eval ξ) := by
  obtain ⟨c, A, h1, h2⟩ := element_affine h
  have hdet : IsUnit (toMatrix A).det := by
    have := hd 0
    rw [Element.detJ, h2] at this
    exact isUnit_iff_ne_zero.mpr this
  have hP : ∀ ξ, e.parametrization.eval ξ = c + (toMatrix A).mulVec ξ := by
    intro ξ
    funext i
    rw [h1]
    simp [Matrix.mulVec, dotProduct, toMatrix]
  have hinv : ∀ ξ, ((toMatrix A)⁻¹).mulVec (e.parametrization.eval ξ - c) = ξ := by
    intro ξ
    rw [hP, add_sub_cancel_left, Matrix.mulVec_mulVec, Matrix.nonsing_inv_mul _ hdet, Matrix.one_mulVec]
  have hsurj : ∀ y, e.parametrization.eval (((toMatrix A)⁻¹).mulVec (y - c)) = y := by
    intro y
    rw [hP, Matrix.mulVec_mulVec, Matrix.mul_nonsing_inv _ hdet, Matrix.one_mulVec, add_sub_cancel]
  refine ⟨fun y => (e.shape a).eval (((toMatrix A)⁻¹).mulVec (y - c)) (), ⟨fun ξ => by simp only [hinv], fun ξ => ?_⟩, ?_⟩
  · have h3 : HasFDerivAt (fun y : Val (.vec d) => ((toMatrix A)⁻¹).mulVec (y - c))
        (Matrix.mulVecLin (toMatrix A)⁻¹).toContinuousLinearMap (e.parametrization.eval ξ) := by
      have := (Matrix.mulVecLin (toMatrix A)⁻¹).toContinuousLinearMap.hasFDerivAt.comp (e.parametrization.eval ξ)
        ((hasFDerivAt_id (𝕜 := ℝ) (e.parametrization.eval ξ)).sub_const c)
      simpa using this
    have h4 := Functions.hasFDerivAt (e.shape a) (shape_hasRule h a) ξ (shape_smooth h a ξ)
    have h5 := (hasFDerivAt_pi'.mp h4) ()
    rw [← hinv ξ] at h5
    have h6 := h5.comp (e.parametrization.eval ξ) h3
    refine HasFDerivAt.congr_fderiv h6 ?_
    rw [hinv]
    ext1 w
    simp only [ContinuousLinearMap.comp_apply, ContinuousLinearMap.proj_apply, jac_apply (b := .scalar), Finset.sum_apply,
      Pi.smul_apply, smul_eq_mul, ContinuousLinearMap.sum_apply, ContinuousLinearMap.smul_apply, LinearMap.coe_toContinuousLinearMap',
      Matrix.mulVecLin_apply, Matrix.mulVec, dotProduct, Element.gradient, mul, inverse, h2, Element.dshape,
      gradient_eval, Finset.sum_mul]
    rw [Finset.sum_comm]
    exact Finset.sum_congr rfl fun i _ => Finset.sum_congr rfl fun j _ => by ring
  · rintro g ⟨hg, _⟩
    funext y
    rw [← hg, hsurj]

/-- the physical gradients sum to zero -/
theorem gradients_zero {d n : Nat} {e : Element d n} (h : IsElement e) (ξ : Val (.vec d)) : ∑ a, e.gradient a ξ = 0 := by
  funext k
  rw [Finset.sum_apply]
  simp only [Element.gradient, mul]
  rw [Finset.sum_comm]
  refine Finset.sum_eq_zero fun j _ => ?_
  rw [← Finset.sum_mul, dshape_sum h, zero_mul]

/-- the quadratic triangle has straight sides: its jacobian is that of the linear triangle -/
theorem jacobian_tri2 (x : Fin 3 → Val (.vec 2)) (ξ : Val (.vec 2)) : (triP2 x).jacobian ξ = (triP1 x).jacobian ξ := by
  funext ⟨i, j⟩
  obtain ⟨h0, h1, h2, h3, h4, h5⟩ := tri2_dshape ξ j
  obtain ⟨k0, k1, k2⟩ := tri1_dshape ξ j
  simp only [triP2, triP1, dyadic, Pi.add_apply, h0, h1, h2, h3, h4, h5, k0, k1, k2, nodesTri2]
  fin_cases j <;> simp <;> ring

/-- the reference triangle is not degenerate -/
example (ξ : Val (.vec 2)) : (triP2 nodesRef).detJ ξ ≠ 0 := by
  rw [tri2_detJ]
  simp [triangleArea, nodesRef]

/-- a degenerate triangle -/
example (ξ : Val (.vec 2)) : (triP1 fun _ => ![1, 2]).detJ ξ = 0 := by
  rw [tri1_detJ]
  simp [triangleArea]

end Mito.Fem
