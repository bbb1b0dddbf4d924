import Verif.Spec.Elements
import Verif.Functions.DerivativeLemmas
import Mathlib.Algebra.BigOperators.Fin
import Mathlib.LinearAlgebra.Matrix.Determinant.Basic
import Mathlib.LinearAlgebra.Matrix.ToLin
import Mathlib.Tactic.FinCases
import Mathlib.Tactic.LinearCombination

/-! # Helper lemmas on elements -/

namespace Mito.Fem

open Mito.Functions Mito.Geometry

/-! ## Values -/

@[simp] theorem xi2_eval (ξ : Val (.vec 2)) (u : Unit) : xi2.eval ξ u = 1 - ξ 0 - ξ 1 := by
  simp [xi2, Expr.eval]

theorem seg1_eval (ξ : Val (.vec 1)) : (shapeSeg1 0).eval ξ () = 1 - ξ 0 ∧ (shapeSeg1 1).eval ξ () = ξ 0 := by
  simp [shapeSeg1, Expr.eval]

theorem tri1_eval (ξ : Val (.vec 2)) :
    (shapeTri1 0).eval ξ () = ξ 0 ∧ (shapeTri1 1).eval ξ () = ξ 1 ∧ (shapeTri1 2).eval ξ () = 1 - ξ 0 - ξ 1 := by
  simp [shapeTri1, Expr.eval]

theorem tri2_eval (ξ : Val (.vec 2)) :
    (shapeTri2 0).eval ξ () = ξ 0 * (2 * ξ 0 - 1) ∧
    (shapeTri2 1).eval ξ () = ξ 1 * (2 * ξ 1 - 1) ∧
    (shapeTri2 2).eval ξ () = (1 - ξ 0 - ξ 1) * (2 * (1 - ξ 0 - ξ 1) - 1) ∧
    (shapeTri2 3).eval ξ () = 4 * ξ 0 * ξ 1 ∧
    (shapeTri2 4).eval ξ () = 4 * ξ 1 * (1 - ξ 0 - ξ 1) ∧
    (shapeTri2 5).eval ξ () = 4 * ξ 0 * (1 - ξ 0 - ξ 1) := by
  refine ⟨?_, ?_, ?_, ?_, ?_, ?_⟩ <;> simp [shapeTri2, phi3, phi4, phi5, Expr.eval] <;> ring

/-! ## Gradients -/

theorem seg1_dshape (ξ : Val (.vec 1)) (k : Fin 1) :
    (Functions.gradient (shapeSeg1 0)).eval ξ k = -1 ∧ (Functions.gradient (shapeSeg1 1)).eval ξ k = 1 := by
  fin_cases k
  simp [gradient_eval, shapeSeg1, Expr.derivative, Expr.eval, Expr.constSub, Expr.addConst, Expr.neg, Expr.smul, mul]

theorem tri1_dshape (ξ : Val (.vec 2)) (k : Fin 2) :
    (Functions.gradient (shapeTri1 0)).eval ξ k = (![1, 0] : Fin 2 → ℝ) k ∧
    (Functions.gradient (shapeTri1 1)).eval ξ k = (![0, 1] : Fin 2 → ℝ) k ∧
    (Functions.gradient (shapeTri1 2)).eval ξ k = (![-1, -1] : Fin 2 → ℝ) k := by
  fin_cases k <;>
  simp [gradient_eval, shapeTri1, xi2, Expr.derivative, Expr.eval, Expr.constSub, Expr.addConst, Expr.neg, Expr.smul, mul,
    Expr.sub, Expr.add]

theorem tri2_dshape (ξ : Val (.vec 2)) (k : Fin 2) :
    (Functions.gradient (shapeTri2 0)).eval ξ k = (![4 * ξ 0 - 1, 0] : Fin 2 → ℝ) k ∧
    (Functions.gradient (shapeTri2 1)).eval ξ k = (![0, 4 * ξ 1 - 1] : Fin 2 → ℝ) k ∧
    (Functions.gradient (shapeTri2 2)).eval ξ k = (![4 * (ξ 0 + ξ 1) - 3, 4 * (ξ 0 + ξ 1) - 3] : Fin 2 → ℝ) k ∧
    (Functions.gradient (shapeTri2 3)).eval ξ k = (![4 * ξ 1, 4 * ξ 0] : Fin 2 → ℝ) k ∧
    (Functions.gradient (shapeTri2 4)).eval ξ k = (![-4 * ξ 1, 4 * (1 - ξ 0 - 2 * ξ 1)] : Fin 2 → ℝ) k ∧
    (Functions.gradient (shapeTri2 5)).eval ξ k = (![4 * (1 - 2 * ξ 0 - ξ 1), -4 * ξ 0] : Fin 2 → ℝ) k := by
  fin_cases k <;> refine ⟨?_, ?_, ?_, ?_, ?_, ?_⟩ <;>
  simp [gradient_eval, shapeTri2, phi3, phi4, phi5, xi2, Expr.derivative, Expr.eval, Expr.constSub, Expr.addConst, Expr.neg,
    Expr.smul, mul, Expr.sub, Expr.add, Expr.mul] <;> ring

/-! ## Parametrizations -/

theorem xi_eval (n : Nat) (a : Fin (n + 2)) (ξ : Val (.vec (n + 1))) :
    (xi n a).eval ξ () = if h : (a : Nat) < n + 1 then ξ ⟨a, h⟩ else 1 - ∑ i : Fin (n + 1), ξ i := by
  unfold xi
  split
  · rfl
  · have key : ∀ (l : List (Fin n)) (e : Expr (.vec (n + 1)) .scalar),
        (l.foldl (fun e i => e.sub (.component (a := .vec (n + 1)) i.succ)) e).eval ξ () =
          e.eval ξ () - (l.map fun i => ξ i.succ).sum := by
      intro l
      induction l with
      | nil => simp
      | cons i l ih => intro e; rw [List.foldl_cons, ih]; simp [Expr.eval]; ring
    rw [lastXi, key, ← List.ofFn_eq_map, List.sum_ofFn, Fin.sum_univ_succ]
    simp [Expr.eval]; ring

theorem parametrization_eval {n d : Nat} (x : Fin (n + 2) → Val (.vec d)) (ξ : Val (.vec (n + 1))) (i : Fin d) :
    (Geometry.parametrization x).eval ξ i = ∑ a, (xi n a).eval ξ () * x a i := by
  rw [Geometry.parametrization, eval_sumList, List.map_map, ← List.ofFn_eq_map, List.sum_ofFn, Finset.sum_apply]
  rfl

theorem tri_parametrization (x : Fin 3 → Val (.vec 2)) (ξ : Val (.vec 2)) (i : Fin 2) :
    (Geometry.parametrization x).eval ξ i = ξ 0 * x 0 i + ξ 1 * x 1 i + (1 - ξ 0 - ξ 1) * x 2 i := by
  rw [parametrization_eval, Fin.sum_univ_three]
  simp only [xi_eval]
  simp
  exact Or.inl (by ring)

/-- the parametrization is affine and the jacobian is its linear part -/
theorem element_affine {d n : Nat} {e : Element d n} (h : IsElement e) :
    ∃ (c : Val (.vec d)) (A : Val (.mat d d)), (∀ ξ i, e.parametrization.eval ξ i = c i + ∑ j : Fin d, A (i, j) * ξ j) ∧
      ∀ ξ, e.jacobian ξ = A := by
  cases h with
  | seg1 x =>
    refine ⟨x 0, fun _ => x 1 0 - x 0 0, fun ξ i => ?_, fun ξ => ?_⟩
    · obtain ⟨h0, h1⟩ := seg1_eval ξ
      fin_cases i
      simp [segP1, Expr.eval, mul, h0, h1, Fin.sum_univ_two]
      ring
    · funext ij
      obtain ⟨h0, h1⟩ := seg1_dshape ξ 0
      simp [segP1, mul, h0, h1]
      ring
  | tri1 x =>
    refine ⟨x 2, fun ij => if ij.2 = 0 then x 0 ij.1 - x 2 ij.1 else x 1 ij.1 - x 2 ij.1, fun ξ i => ?_, fun ξ => ?_⟩
    · simp only [triP1, tri_parametrization, Fin.sum_univ_two]
      simp
      ring
    · funext ⟨i, j⟩
      obtain ⟨h0, h1, h2⟩ := tri1_dshape ξ j
      simp only [triP1, dyadic, Pi.add_apply, h0, h1, h2]
      fin_cases j <;> simp <;> ring
  | tri2 x =>
    refine ⟨x 2, fun ij => if ij.2 = 0 then x 0 ij.1 - x 2 ij.1 else x 1 ij.1 - x 2 ij.1, fun ξ i => ?_, fun ξ => ?_⟩
    · simp only [triP2, tri_parametrization, Fin.sum_univ_two]
      simp
      ring
    · funext ⟨i, j⟩
      obtain ⟨h0, h1, h2, h3, h4, h5⟩ := tri2_dshape ξ j
      simp only [triP2, dyadic, Pi.add_apply, h0, h1, h2, h3, h4, h5, nodesTri2]
      fin_cases j <;> simp <;> ring

/-! ## Sums -/

theorem shape_sum {d n : Nat} {e : Element d n} (h : IsElement e) (ξ : Val (.vec d)) :
    ∑ a, (e.shape a).eval ξ () = 1 := by
  cases h with
  | seg1 x =>
    obtain ⟨h0, h1⟩ := seg1_eval ξ
    simp [segP1, Fin.sum_univ_two, h0, h1]
  | tri1 x =>
    obtain ⟨h0, h1, h2⟩ := tri1_eval ξ
    simp [triP1, Fin.sum_univ_three, h0, h1, h2]
  | tri2 x =>
    obtain ⟨h0, h1, h2, h3, h4, h5⟩ := tri2_eval ξ
    simp [triP2, Fin.sum_univ_six, h0, h1, h2, h3, h4, h5]
    ring

theorem dshape_sum {d n : Nat} {e : Element d n} (h : IsElement e) (ξ : Val (.vec d)) (k : Fin d) :
    ∑ a, (e.dshape a).eval ξ k = 0 := by
  cases h with
  | seg1 x =>
    obtain ⟨h0, h1⟩ := seg1_dshape ξ k
    simp [segP1, Element.dshape, Fin.sum_univ_two, h0, h1]
  | tri1 x =>
    obtain ⟨h0, h1, h2⟩ := tri1_dshape ξ k
    simp only [triP1, Element.dshape, Fin.sum_univ_three, h0, h1, h2]
    fin_cases k <;> simp
  | tri2 x =>
    obtain ⟨h0, h1, h2, h3, h4, h5⟩ := tri2_dshape ξ k
    simp only [triP2, Element.dshape, Fin.sum_univ_six, h0, h1, h2, h3, h4, h5]
    fin_cases k <;> simp <;> ring

theorem shape_hasRule {d n : Nat} {e : Element d n} (h : IsElement e) (a : Fin n) : (e.shape a).HasRule := by
  cases h <;> fin_cases a <;>
  simp [segP1, triP1, triP2, shapeSeg1, shapeTri1, shapeTri2, phi3, phi4, phi5, xi2, Expr.HasRule, Expr.constSub, Expr.addConst,
    Expr.neg, Expr.smul, Expr.sub, Expr.add, Expr.mul]

theorem shape_smooth {d n : Nat} {e : Element d n} (h : IsElement e) (a : Fin n) (ξ : Val (.vec d)) : (e.shape a).Smooth ξ := by
  cases h <;> fin_cases a <;>
  simp [segP1, triP1, triP2, shapeSeg1, shapeTri1, shapeTri2, phi3, phi4, phi5, xi2, Expr.Smooth, Expr.All, Expr.constSub,
    Expr.addConst, Expr.neg, Expr.smul, Expr.sub, Expr.add, Expr.mul]

/-! ## Determinants -/

theorem seg1_detJ (x : Fin 2 → Val (.vec 1)) (ξ : Val (.vec 1)) : (segP1 x).detJ ξ = length x := by
  obtain ⟨h0, h1⟩ := seg1_dshape ξ 0
  simp [Element.detJ, toMatrix, segP1, mul, h0, h1, length]
  ring

theorem tri1_detJ (x : Fin 3 → Val (.vec 2)) (ξ : Val (.vec 2)) : (triP1 x).detJ ξ = 2 * triangleArea x := by
  obtain ⟨h0, h1, h2⟩ := tri1_dshape ξ 0
  obtain ⟨k0, k1, k2⟩ := tri1_dshape ξ 1
  simp only [Element.detJ, toMatrix, triP1, Matrix.det_fin_two, Matrix.of_apply, Pi.add_apply, dyadic, h0, h1, h2, k0, k1, k2,
    triangleArea]
  simp
  ring

theorem tri2_detJ (x : Fin 3 → Val (.vec 2)) (ξ : Val (.vec 2)) : (triP2 x).detJ ξ = 2 * triangleArea x := by
  obtain ⟨h0, h1, h2, h3, h4, h5⟩ := tri2_dshape ξ 0
  obtain ⟨k0, k1, k2, k3, k4, k5⟩ := tri2_dshape ξ 1
  simp only [Element.detJ, toMatrix, triP2, Matrix.det_fin_two, Matrix.of_apply, Pi.add_apply, dyadic, h0, h1, h2, h3, h4, h5,
    k0, k1, k2, k3, k4, k5, nodesTri2, triangleArea]
  simp
  ring

end Mito.Fem
