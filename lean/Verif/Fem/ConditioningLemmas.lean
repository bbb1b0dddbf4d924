import Verif.Props.Poisson
import Verif.Spec.Conditioning
import Mathlib.Algebra.Order.BigOperators.Ring.Finset

/-! # Discrete systems with bounds on the energy, and solvers with a tolerance -/

namespace Mito.DiscreteSystem

open Mito.Assoc

theorem square_nonneg (n : Nat) (v : Nat → ℝ) : 0 ≤ square n v := Finset.sum_nonneg fun _ _ => sq_nonneg _

theorem square_scale (n : Nat) (c : ℝ) (v : Nat → ℝ) : square n (fun i => c * v i) = c ^ 2 * square n v := by
  simp only [square, mul_pow, Finset.mul_sum]

theorem residual_scale (n : Nat) (c : ℝ) (A : Nat → Nat → ℝ) (f x : Nat → ℝ) :
    residual n (fun i j => c * A i j) (fun i => c * f i) x = fun i => c * residual n A f x i := by
  funext i
  simp only [residual, mul_assoc, ← Finset.mul_sum]
  ring

/-- Cauchy's inequality -/
theorem dot_le (n : Nat) (v w : Nat → ℝ) : (∑ i : Fin n, v i * w i) ^ 2 ≤ square n v * square n w :=
  Finset.sum_mul_sq_le_sq_mul_sq _ _ _

/-- the numbers of the equations as nodes -/
theorem square_extend (V : FunctionSpace ℝ) (v : Nat → ℝ) :
    square (buildEquationMap V).2 v = ∑ x ∈ V.elements.flatten.toFinset, extend V v x ^ 2 := by
  classical
  have hN := (equations_number V).1
  choose x hx using fun i : Fin (buildEquationMap V).2 => hN.surj i i.isLt
  have hext : ∀ i, extend V v (x i) = v i := fun i => by simp [extend, hx i]
  have hinj : Function.Injective x := fun i j h => by
    have := hx i
    rw [h, hx j] at this
    exact Fin.ext (by simpa using this.symm)
  have h1 : square (buildEquationMap V).2 v = ∑ y ∈ Finset.univ.image x, extend V v y ^ 2 := by
    rw [Finset.sum_image fun i _ j _ h => hinj h]
    simp only [hext]
    rfl
  rw [h1]
  refine Finset.sum_subset (fun y hy => ?_) fun y hy hy' => ?_
  · obtain ⟨i, -, rfl⟩ := Finset.mem_image.mp hy
    exact List.mem_toFinset.mpr ((hN.isSome (x i)).mp (by rw [hx]; rfl)).1
  · unfold extend
    rcases he : equationOf (buildEquationMap V).1 y with _ | i
    · simp
    · refine absurd (Finset.mem_image.mpr ⟨⟨i, hN.lt y i he⟩, Finset.mem_univ _, ?_⟩) hy'
      exact hN.inj _ _ i (hx _) he

theorem square_le (V : FunctionSpace ℝ) (v : Nat → ℝ) :
    square (buildEquationMap V).2 v ≤ (V.elements.flatten.map fun x => extend V v x ^ 2).sum := by
  rw [square_extend, Finset.sum_list_map_count]
  refine Finset.sum_le_sum fun x hx => ?_
  rw [nsmul_eq_mul]
  refine le_mul_of_one_le_left (sq_nonneg _) ?_
  exact_mod_cast List.count_pos_iff.mpr (List.mem_toFinset.mp hx)

theorem le_square (V : FunctionSpace ℝ) {D : Nat} (hD : ∀ x, V.elements.flatten.count x ≤ D) (v : Nat → ℝ) :
    (V.elements.flatten.map fun x => extend V v x ^ 2).sum ≤ D * square (buildEquationMap V).2 v := by
  rw [square_extend, Finset.sum_list_map_count, Finset.mul_sum]
  refine Finset.sum_le_sum fun x _ => ?_
  rw [nsmul_eq_mul]
  refine mul_le_mul_of_nonneg_right ?_ (sq_nonneg _)
  exact_mod_cast hD x

theorem extend_sq_le (V : FunctionSpace ℝ) (v : Nat → ℝ) (x : Nat) : extend V v x ^ 2 ≤ square (buildEquationMap V).2 v := by
  unfold extend
  rcases he : equationOf (buildEquationMap V).1 x with _ | i
  · simpa using square_nonneg _ v
  · have hi := (equations_number V).1.lt x i he
    exact Finset.single_le_sum (f := fun i : Fin (buildEquationMap V).2 => v i ^ 2) (fun _ _ => sq_nonneg _) (Finset.mem_univ ⟨i, hi⟩)

/-- the eigenvalues are between the bounds of the energy -/
theorem eigenvalue_bounds {V : FunctionSpace ℝ} {blocks : Nat → Blocks ℝ} {m M : ℝ}
    (hm : ∀ v, m * square (buildEquationMap V).2 v ≤ form V blocks (extend V v) (extend V v))
    (hM : ∀ v, form V blocks (extend V v) (extend V v) ≤ M * square (buildEquationMap V).2 v) {ev : ℝ}
    (h : Eigenvalue (buildEquationMap V).2 (K V blocks) ev) : m ≤ ev ∧ ev ≤ M := by
  obtain ⟨v, hv, he⟩ := h
  have hpos : 0 < square (buildEquationMap V).2 v := lt_of_le_of_ne (square_nonneg _ _) (Ne.symm hv)
  have h1 := hm v
  have h2 := hM v
  have e : form V blocks (extend V v) (extend V v) = ev * square (buildEquationMap V).2 v := by
    rw [← matrix_form, square, Finset.mul_sum]
    refine Finset.sum_congr rfl fun i _ => ?_
    simp only [mul_assoc, ← Finset.mul_sum]
    rw [he i i.isLt]
    ring
  rw [e] at h1 h2
  exact ⟨le_of_mul_le_mul_right h1 hpos, le_of_mul_le_mul_right h2 hpos⟩

theorem form_sub (V : FunctionSpace ℝ) (blocks : Nat → Blocks ℝ) (w u v : Nat → ℝ) :
    form V blocks w (fun x => u x - v x) = form V blocks w u - form V blocks w v := by
  have := form_add_smul V blocks w u v (-1)
  simp only [neg_one_mul, ← sub_eq_add_neg] at this
  exact this

/-- an exact solver -/
noncomputable def inverseSolver (n : Nat) (A : Nat → Nat → ℝ) (f : Nat → ℝ) (i : Nat) : ℝ :=
  if h : i < n then ((asMatrix n A)⁻¹.mulVec fun j : Fin n => f j) ⟨i, h⟩ else 0

theorem inverseSolver_exact : Exact inverseSolver := by
  intro n A f hA
  have e : (fun j : Fin n => inverseSolver n A f j) = (asMatrix n A)⁻¹.mulVec fun j : Fin n => f j := by
    funext j
    simp [inverseSolver]
  rw [e, Matrix.mulVec_mulVec, Matrix.mul_nonsing_inv _ hA, Matrix.one_mulVec]

/-- What a solver with the tolerance `ρ` leaves in the field: the energy of the difference to the solution is at most the square of the
norm of the residual divided by the lower bound of the energy. -/
theorem relative_energy {ρ m : ℝ} {solver : Nat → (Nat → Nat → ℝ) → (Nat → ℝ) → Nat → ℝ} (hs : Relative ρ solver) {V : FunctionSpace ℝ}
    {blocks : Nat → Blocks ℝ} (hE : Elliptic V blocks) (hA : Anchored V) (hm0 : 0 < m)
    (hm : ∀ v, m * square (buildEquationMap V).2 v ≤ form V blocks (extend V v) (extend V v)) {u : Nat → ℝ} (hu : Galerkin V blocks u)
    (k : Nat) : ∃ S v, solveTimes solver blocks (k + 1) (create V) = some S ∧ Admissible V v ∧
      (∀ x ∈ V.elements.flatten, get S.field x = some (v x)) ∧
      form V blocks (fun x => v x - u x) (fun x => v x - u x) ≤ ρ ^ 2 * square (buildEquationMap V).2 (F V blocks) / m := by
  have hK := matrix_isUnit hE hA
  obtain ⟨S, h1, _, _, h2, h3⟩ := solveTimes_eq solver V blocks (k + 1)
  set n := (buildEquationMap V).2 with hn
  set κ : ℝ := ((k + 1 : Nat) : ℝ) with hκ
  have hκ0 : κ ≠ 0 := Nat.cast_ne_zero.mpr (by omega)
  set c : Nat → ℝ := solver n (fun i j => κ * K V blocks i j) (fun i => κ * F V blocks i) with hc
  -- the residual of the system assembled once
  have hres : square n (residual n (K V blocks) (F V blocks) c) ≤ ρ ^ 2 * square n (F V blocks) := by
    have hK' : IsUnit (asMatrix n fun i j => κ * K V blocks i j).det := by
      have : asMatrix n (fun i j => κ * K V blocks i j) = κ • asMatrix n (K V blocks) := by
        ext a b; simp [asMatrix]
      rw [this, Matrix.det_smul]
      exact (isUnit_iff_ne_zero.mpr hκ0).pow _ |>.mul hK
    have := hs n _ (fun i => κ * F V blocks i) hK'
    rw [residual_scale, square_scale, square_scale] at this
    have hp : 0 < κ ^ 2 := by positivity
    refine le_of_mul_le_mul_left ?_ hp
    linarith
  refine ⟨S, extend V c, h1, extend_admissible V c, fun x hx => ?_, ?_⟩
  · unfold extend
    rcases he : equationOf (buildEquationMap V).1 x with _ | i
    · rw [h2 x he, create_field, if_pos hx]; rfl
    · rw [h3 (by omega) x i he]
      rfl
  -- the difference as test function
  set d : Nat → ℝ := fun i => c i - restrict V u i with hd
  have hdx : ∀ x ∈ V.elements.flatten, extend V c x - u x = extend V d x := by
    intro x hx
    rw [← extend_restrict hu.1 x hx]
    unfold extend
    rcases he : equationOf (buildEquationMap V).1 x with _ | i <;> simp [hd]
  rw [form_congr hdx hdx]
  have hm' := hm d
  set E := form V blocks (extend V d) (extend V d) with hEdef
  have hE1 : E = -∑ i : Fin n, d i * residual n (K V blocks) (F V blocks) c i := by
    have e1 : E = form V blocks (extend V d) (extend V c) - load V blocks (extend V d) := by
      rw [hEdef, ← hu.2 _ (extend_admissible V d), ← form_sub]
      exact form_congr (fun _ _ => rfl) fun x hx => (hdx x hx).symm
    rw [e1, ← matrix_form, ← rhs_load, ← Finset.sum_neg_distrib, ← Finset.sum_sub_distrib]
    refine Finset.sum_congr rfl fun i _ => ?_
    simp only [mul_assoc, ← Finset.mul_sum, residual]
    ring
  have hcs := dot_le n d (residual n (K V blocks) (F V blocks) c)
  have hE2 : E ^ 2 ≤ square n d * (ρ ^ 2 * square n (F V blocks)) := by
    rw [hE1, neg_sq]
    exact hcs.trans (mul_le_mul_of_nonneg_left hres (square_nonneg _ _))
  have hd0 := square_nonneg n d
  have hf0 : 0 ≤ ρ ^ 2 * square n (F V blocks) := mul_nonneg (sq_nonneg _) (square_nonneg _ _)
  have hE0 : 0 ≤ E := (mul_nonneg hm0.le hd0).trans hm'
  rw [le_div_iff₀ hm0]
  rcases hE0.eq_or_lt with h0 | h0
  · rw [← h0, zero_mul]; exact hf0
  · refine le_of_mul_le_mul_left ?_ h0
    have := mul_le_mul_of_nonneg_right hm' hf0
    nlinarith

end Mito.DiscreteSystem
