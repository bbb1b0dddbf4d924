import Mathlib.Analysis.InnerProductSpace.PiL2
import Mathlib.Algebra.Order.BigOperators.Group.Finset
import Verif.Fem.Blocks
import Verif.Fem.ElementsLemmas

/-! # Helper lemmas on blocks -/

namespace Mito.Fem

open Mito.Functions Mito.Geometry

theorem foldl_add {α : Type} (f : α → ℝ) (l : List α) : l.foldl (fun m p => m + f p) 0 = (l.map f).sum := by
  have key : ∀ (l : List α) (s : ℝ), l.foldl (fun m p => m + f p) s = s + (l.map f).sum := by
    intro l
    induction l with
    | nil => simp
    | cons p l ih => intro s; rw [List.foldl_cons, ih]; simp; ring
  rw [key, zero_add]

theorem sum_list_comm {ι α : Type} [Fintype ι] (l : List α) (f : ι → α → ℝ) :
    ∑ i, (l.map (f i)).sum = (l.map fun p => ∑ i, f i p).sum := by
  induction l with
  | nil => simp
  | cons p l ih => simp [Finset.sum_add_distrib, ih]

variable {d n : Nat}

theorem gradGrad_sum (rule : Rule d) (e : Element d n) (a b : Fin n) :
    gradGrad rule e a b = (rule.map fun p => factor e p * ∑ k : Fin d, e.gradient a p.1 k * e.gradient b p.1 k).sum := by
  rw [gradGrad, foldl_add]
  congr 2
  funext p
  simp [mul, Finset.mul_sum, mul_assoc]

theorem mass_sum (rule : Rule d) (e : Element d n) (a b : Fin n) :
    mass rule e a b = (rule.map fun p => factor e p * (e.shape a).eval p.1 () * (e.shape b).eval p.1 ()).sum := by
  rw [mass, foldl_add]

theorem sourceTerm_sum (f : Val (.vec d) → ℝ) (rule : Rule d) (e : Element d n) (a : Fin n) :
    sourceTerm f rule e a =
      (rule.map fun p => factor e p * f (e.parametrization.eval p.1) * (e.shape a).eval p.1 ()).sum := by
  rw [sourceTerm, foldl_add]

theorem l2Block_sum (rule : Rule d) (f : Expr (.vec d) .scalar) (e : Element d n) :
    l2Block rule f e = (rule.map fun p => factor e p * f.eval p.1 () ^ 2).sum := by
  rw [l2Block, foldl_add]
  congr 2
  funext p
  ring

theorem l2BlockV_sum (rule : Rule d) {k : Nat} (f : Expr (.vec d) (.vec k)) (e : Element d n) :
    l2BlockV rule f e = (rule.map fun p => factor e p * ∑ i : Fin k, f.eval p.1 i ^ 2).sum := by
  rw [l2BlockV, foldl_add]
  congr 2
  funext p
  simp only [mul, Pi.smul_apply, smul_eq_mul, Finset.mul_sum]
  exact Finset.sum_congr rfl fun i _ => by ring

theorem gradient_sum {e : Element d n} (h : IsElement e) (ξ : Val (.vec d)) (k : Fin d) : ∑ a, e.gradient a ξ k = 0 := by
  simp only [Element.gradient, mul]
  rw [Finset.sum_comm]
  refine Finset.sum_eq_zero fun j _ => ?_
  rw [← Finset.sum_mul, dshape_sum h, zero_mul]

theorem list_sum_nonneg {α : Type} (l : List α) (f : α → ℝ) (h : ∀ p ∈ l, 0 ≤ f p) : 0 ≤ (l.map f).sum :=
  List.sum_nonneg (by simpa using h)

theorem area_pos (d : Nat) : 0 < area d := by
  have : (0 : ℝ) < (Nat.factorial d : ℝ) := by exact_mod_cast Nat.factorial_pos d
  unfold area
  positivity

theorem factor_nonneg {e : Element d n} {p : Val (.vec d) × ℝ} (hw : 0 ≤ p.2) (hd : ∀ ξ, 0 ≤ e.detJ ξ) : 0 ≤ factor e p :=
  mul_nonneg (mul_nonneg (area_pos d).le hw) (hd _)

theorem gradGrad_form (rule : Rule d) (e : Element d n) (u v : Fin n → ℝ) :
    ∑ a, ∑ b, u a * gradGrad rule e a b * v b =
      (rule.map fun p => factor e p * ∑ k : Fin d, (∑ a, u a * e.gradient a p.1 k) * ∑ b, v b * e.gradient b p.1 k).sum := by
  simp only [gradGrad_sum]
  have h1 : ∀ a b, u a * (rule.map fun p => factor e p * ∑ k : Fin d, e.gradient a p.1 k * e.gradient b p.1 k).sum * v b =
      (rule.map fun p => factor e p * ∑ k : Fin d, (u a * e.gradient a p.1 k) * (v b * e.gradient b p.1 k)).sum := by
    intro a b
    rw [← List.sum_map_mul_left, ← List.sum_map_mul_right]
    congr 2
    funext p
    simp only [Finset.mul_sum, Finset.sum_mul]
    exact Finset.sum_congr rfl fun k _ => by ring
  simp only [h1]
  simp only [sum_list_comm]
  congr 2
  funext p
  simp only [← Finset.mul_sum]
  congr 1
  rw [Finset.sum_congr rfl fun a _ => Finset.sum_comm, Finset.sum_comm]
  simp only [Finset.sum_mul_sum]

theorem mass_form (rule : Rule d) (e : Element d n) (u v : Fin n → ℝ) :
    ∑ a, ∑ b, u a * mass rule e a b * v b =
      (rule.map fun p => factor e p * ((∑ a, u a * (e.shape a).eval p.1 ()) * ∑ b, v b * (e.shape b).eval p.1 ())).sum := by
  simp only [mass_sum]
  have h1 : ∀ a b, u a * (rule.map fun p => factor e p * (e.shape a).eval p.1 () * (e.shape b).eval p.1 ()).sum * v b =
      (rule.map fun p => factor e p * ((u a * (e.shape a).eval p.1 ()) * (v b * (e.shape b).eval p.1 ()))).sum := by
    intro a b
    rw [← List.sum_map_mul_left, ← List.sum_map_mul_right]
    congr 2
    funext p
    ring
  simp only [h1]
  simp only [sum_list_comm]
  congr 2
  funext p
  simp only [Finset.sum_mul_sum]
  simp only [← Finset.mul_sum]

theorem mass_total {rule : Rule d} {e : Element d n} (h : IsElement e) (det : ℝ) (hd : ∀ ξ, e.detJ ξ = det) :
    ∑ a, ∑ b, mass rule e a b = area d * (rule.map fun p => p.2).sum * det := by
  have h1 := mass_form rule e (fun _ => 1) fun _ => 1
  simp only [one_mul, mul_one, shape_sum h] at h1
  rw [h1]
  simp only [factor, hd]
  rw [← List.sum_map_mul_left, ← List.sum_map_mul_right]

theorem gradGrad_kernel {rule : Rule d} {e : Element d n} (hw : ∀ p ∈ rule, 0 ≤ p.2) (hd : ∀ ξ, 0 < e.detJ ξ)
    (u : Fin n → ℝ) (h0 : ∑ a, ∑ b, u a * gradGrad rule e a b * u b = 0) {p : Val (.vec d) × ℝ} (hp : p ∈ rule)
    (hpos : 0 < p.2) (k : Fin d) : ∑ a, u a * (e.dshape a).eval p.1 k = 0 := by
  rw [gradGrad_form] at h0
  have hterm : ∀ y ∈ rule.map (fun p => factor e p * ∑ k : Fin d, (∑ a, u a * e.gradient a p.1 k) *
      ∑ b, u b * e.gradient b p.1 k), 0 ≤ y := by
    intro y hy
    obtain ⟨q, hq, rfl⟩ := List.mem_map.mp hy
    exact mul_nonneg (factor_nonneg (hw q hq) fun ξ => (hd ξ).le) (Finset.sum_nonneg fun k _ => mul_self_nonneg _)
  have h1 : factor e p * ∑ k : Fin d, (∑ a, u a * e.gradient a p.1 k) * ∑ b, u b * e.gradient b p.1 k = 0 := by
    refine le_antisymm ?_ (hterm _ (List.mem_map_of_mem hp))
    rw [← h0]
    exact List.single_le_sum hterm _ (List.mem_map_of_mem hp)
  have h2 : 0 < factor e p := mul_pos (mul_pos (area_pos d) hpos) (hd _)
  have h3 := (mul_eq_zero.mp h1).resolve_left h2.ne'
  have h4 : ∀ k : Fin d, ∑ a, u a * e.gradient a p.1 k = 0 := by
    intro k
    have := (Finset.sum_eq_zero_iff_of_nonneg fun k _ => mul_self_nonneg _).mp h3 k (Finset.mem_univ k)
    exact mul_self_eq_zero.mp this
  have hu : IsUnit (toMatrix (e.jacobian p.1)).det := isUnit_iff_ne_zero.mpr (hd p.1).ne'
  have h5 : Matrix.vecMul (fun j : Fin d => ∑ a, u a * (e.dshape a).eval p.1 j) (toMatrix (e.jacobian p.1))⁻¹ = 0 := by
    funext k
    rw [Pi.zero_apply, ← h4 k]
    simp only [Matrix.vecMul, dotProduct, Element.gradient, mul, inverse, Finset.sum_mul, Finset.mul_sum, mul_assoc]
    exact Finset.sum_comm
  have h6 := congrArg (fun v => Matrix.vecMul v (toMatrix (e.jacobian p.1))) h5
  simp only [Matrix.vecMul_vecMul, Matrix.nonsing_inv_mul _ hu, Matrix.vecMul_one, Matrix.zero_vecMul] at h6
  exact congrFun h6 k

theorem seg1_inverse (x : Fin 2 → Val (.vec 1)) (ξ : Val (.vec 1)) : inverse ((segP1 x).jacobian ξ) (0, 0) = (length x)⁻¹ := by
  have : toMatrix ((segP1 x).jacobian ξ) = Matrix.of fun _ _ => length x := by
    ext i j
    obtain ⟨k0, k1⟩ := seg1_dshape ξ 0
    simp [toMatrix, segP1, mul, k0, k1, length]
    ring
  rw [inverse, this, Matrix.inv_def]
  simp

theorem derivative_sumList {a b : Ty} (l : List (Expr a b)) (i : Idx a) (x : Val a) :
    ((sumList l).derivative i).eval x = (l.map fun f => (f.derivative i).eval x).sum := by
  induction l with
  | nil => simp [sumList, Expr.derivative, Expr.eval]
  | cons f l ih =>
    cases l with
    | nil => simp [sumList]
    | cons g l => rw [sumList, Expr.derivative, Expr.eval, ih]; simp

theorem gradient_sub (f g : Expr (.vec d) .scalar) (ξ : Val (.vec d)) :
    (Functions.gradient (f.sub g)).eval ξ = (Functions.gradient f).eval ξ - (Functions.gradient g).eval ξ := by
  funext k
  rw [Pi.sub_apply]
  simp only [gradient_eval]
  simp [Expr.sub, Expr.add, Expr.neg, Expr.smul, Expr.derivative, Expr.eval, mul, sub_eq_add_neg]

/-- weighted sums of squares: the triangle inequality -/
theorem sqrt_sum_triangle {α : Type} (l : List α) (w f g : α → ℝ) (hw : ∀ p ∈ l, 0 ≤ w p) :
    Real.sqrt ((l.map fun p => w p * (f p + g p) ^ 2).sum) ≤
      Real.sqrt ((l.map fun p => w p * f p ^ 2).sum) + Real.sqrt ((l.map fun p => w p * g p ^ 2).sum) := by
  have key : ∀ h : α → ℝ, Real.sqrt ((l.map fun p => w p * h p ^ 2).sum) =
      ‖(WithLp.toLp 2 fun i : Fin l.length => Real.sqrt (w (l.get i)) * h (l.get i) : EuclideanSpace ℝ (Fin l.length))‖ := by
    intro h
    rw [EuclideanSpace.norm_eq]
    congr 1
    have : (l.map fun p => w p * h p ^ 2).sum = ∑ i : Fin l.length, w (l.get i) * h (l.get i) ^ 2 := by
      conv_lhs => rw [← List.ofFn_get l]
      rw [List.map_ofFn, List.sum_ofFn]
      rfl
    rw [this]
    refine Finset.sum_congr rfl fun i _ => ?_
    rw [Real.norm_eq_abs, sq_abs, mul_pow, Real.sq_sqrt (hw _ (List.get_mem l i))]
  rw [key, key, key]
  refine le_trans (le_of_eq ?_) (norm_add_le _ _)
  congr 1
  ext i
  simp [mul_add]

theorem list_sum_flat {α β : Type} (l : List α) (r : List β) (f : α → β → ℝ) :
    (l.map fun a => (r.map fun b => f a b).sum).sum = ((l.flatMap fun a => r.map fun b => (a, b)).map fun ab => f ab.1 ab.2).sum := by
  induction l with
  | nil => simp
  | cons a l ih => simp [ih, List.map_map, Function.comp_def]

/-- the sum of the squares of the entries does not change under an orthogonal matrix -/
theorem orthogonal_square (A : Matrix (Fin d) (Fin d) ℝ) (hA : A * A.transpose = 1) (v : Fin d → ℝ) :
    ∑ i, (Matrix.vecMul v A⁻¹ i) ^ 2 = ∑ i, v i ^ 2 := by
  have h1 : A⁻¹ = A.transpose := Matrix.inv_eq_right_inv hA
  have h2 : A.transpose * A = 1 := mul_eq_one_comm.mp hA
  have h3 : A.mulVec v ⬝ᵥ A.mulVec v = v ⬝ᵥ v := by
    rw [Matrix.dotProduct_mulVec, ← Matrix.vecMul_transpose, Matrix.vecMul_vecMul, h2, Matrix.vecMul_one]
  rw [h1, Matrix.vecMul_transpose]
  simpa only [dotProduct, sq] using h3

end Mito.Fem
