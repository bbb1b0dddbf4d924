import Verif.Quadrature.SpaceTests
import Verif.Geometry.ManifoldLemmas
import Verif.Props.FourthOrder
import Verif.Props.Renumber
import Verif.Props.Manifolds

/-! # C152: integrals over segments and triangles in space -/

set_option linter.unusedVariables false

namespace Mito.SpaceTests

open Mito.Functions Mito.Geometry Mito.Quadrature Mito.Tensor Matrix MeasureTheory

/-- the square of the norm -/
theorem norm_sq (v : Vec 3) : Geometry.norm v ^ 2 = v 0 ^ 2 + v 1 ^ 2 + v 2 ^ 2 := by
  rw [Geometry.norm, Real.sq_sqrt]
  · simp [dotProduct, Fin.sum_univ_three]; ring
  · simp [dotProduct, Fin.sum_univ_three]; nlinarith [sq_nonneg (v 0), sq_nonneg (v 1), sq_nonneg (v 2)]

theorem norm_nonneg (v : Vec 3) : 0 ≤ Geometry.norm v := Real.sqrt_nonneg _

/-- a vector over its norm -/
theorem unit_sq {v : Vec 3} (h : v ≠ 0) : Geometry.norm v ≠ 0 ∧
    ((Geometry.norm v)⁻¹ • v) 0 ^ 2 + ((Geometry.norm v)⁻¹ • v) 1 ^ 2 + ((Geometry.norm v)⁻¹ • v) 2 ^ 2 = 1 := by
  have hs := norm_sq v
  have hn : Geometry.norm v ≠ 0 := fun h0 => h (by
    rw [h0] at hs
    have e0 : v 0 = 0 := by nlinarith [sq_nonneg (v 0), sq_nonneg (v 1), sq_nonneg (v 2)]
    have e1 : v 1 = 0 := by nlinarith [sq_nonneg (v 0), sq_nonneg (v 1), sq_nonneg (v 2)]
    have e2 : v 2 = 0 := by nlinarith [sq_nonneg (v 0), sq_nonneg (v 1), sq_nonneg (v 2)]
    funext i
    fin_cases i
    exacts [e0, e1, e2])
  refine ⟨hn, ?_⟩
  simp only [Pi.smul_apply, smul_eq_mul, mul_pow]
  rw [← mul_add, ← mul_add, ← hs, inv_pow, inv_mul_cancel₀ (pow_ne_zero 2 hn)]

/-- C152.  The test makes an orthonormal frame for every segment that is not along the first axis, and it is positive. -/
theorem frame {x y : Vec 3} (h : (y - x) 1 ≠ 0 ∨ (y - x) 2 ≠ 0) :
    tangent x y ⬝ᵥ tangent x y = 1 ∧ normal1 x y ⬝ᵥ normal1 x y = 1 ∧ normal2 x y ⬝ᵥ normal2 x y = 1 ∧
      normal1 x y ⬝ᵥ (y - x) = 0 ∧ normal2 x y ⬝ᵥ (y - x) = 0 ∧ normal1 x y ⬝ᵥ normal2 x y = 0 ∧
      Matrix.det (Matrix.of ![normal1 x y, normal2 x y, y - x]) = Geometry.norm (y - x) := by
  have ht : y - x ≠ 0 := fun h0 => by rw [h0] at h; simp at h
  obtain ⟨hL, hu⟩ := unit_sq ht
  have hyx : y - x = Geometry.norm (y - x) • tangent x y := by
    rw [tangent, smul_smul, mul_inv_cancel₀ hL, one_smul]
  have hu' : tangent x y 0 ^ 2 + tangent x y 1 ^ 2 + tangent x y 2 ^ 2 = 1 := hu
  have h' : tangent x y 1 ≠ 0 ∨ tangent x y 2 ≠ 0 := by
    rw [hyx] at h
    simp only [Pi.smul_apply, smul_eq_mul] at h
    exact h.imp (fun h => (mul_ne_zero_iff.mp h).2) fun h => (mul_ne_zero_iff.mp h).2
  have hn1 : normal1 x y = (Geometry.norm ((![1, 0, 0] : Vec 3) - ((![1, 0, 0] : Vec 3) ⬝ᵥ tangent x y) • tangent x y))⁻¹ •
      ((![1, 0, 0] : Vec 3) - ((![1, 0, 0] : Vec 3) ⬝ᵥ tangent x y) • tangent x y) := rfl
  have hn2 : normal2 x y = (Geometry.norm (cross (tangent x y) (normal1 x y)))⁻¹ • cross (tangent x y) (normal1 x y) := rfl
  generalize tangent x y = u at *
  set w : Vec 3 := (![1, 0, 0] : Vec 3) - ((![1, 0, 0] : Vec 3) ⬝ᵥ u) • u with hw
  have he : (![1, 0, 0] : Vec 3) ⬝ᵥ u = u 0 := by simp [dotProduct, Fin.sum_univ_three]
  have w0 : w 0 = 1 - u 0 * u 0 := by
    rw [hw, he, Pi.sub_apply, Pi.smul_apply, smul_eq_mul]
    simp
  have w1 : w 1 = - (u 0 * u 1) := by
    rw [hw, he, Pi.sub_apply, Pi.smul_apply, smul_eq_mul]
    simp
  have w2 : w 2 = - (u 0 * u 2) := by
    rw [hw, he, Pi.sub_apply, Pi.smul_apply, smul_eq_mul]
    simp
  have hw0 : w ≠ 0 := fun h0 => by
    have e0 : w 0 = 0 := by rw [h0]; rfl
    rw [w0] at e0
    rcases h' with h1 | h1 <;> have := pow_pos (abs_pos.mpr h1) 2 <;> rw [sq_abs] at this <;>
      nlinarith [sq_nonneg (u 1), sq_nonneg (u 2)]
  obtain ⟨hN, hv⟩ := unit_sq hw0
  have ho : u 0 * w 0 + u 1 * w 1 + u 2 * w 2 = 0 := by
    rw [w0, w1, w2]; linear_combination (-u 0) * hu'
  rw [← hn1] at hv
  have hov : u 0 * normal1 x y 0 + u 1 * normal1 x y 1 + u 2 * normal1 x y 2 = 0 := by
    rw [hn1]; simp only [Pi.smul_apply, smul_eq_mul]; linear_combination (Geometry.norm w)⁻¹ * ho
  generalize normal1 x y = v at *
  have hc : Geometry.norm (cross u v) = 1 := by
    have h1 := norm_sq (cross u v)
    have h2 : Geometry.norm (cross u v) ^ 2 = 1 := by
      rw [h1]; simp [cross]
      linear_combination (v 0 ^ 2 + v 1 ^ 2 + v 2 ^ 2) * hu' + hv - (u 0 * v 0 + u 1 * v 1 + u 2 * v 2) * hov
    have h3 := norm_nonneg (cross u v)
    nlinarith
  rw [hc, inv_one, one_smul] at hn2
  rw [hn2]
  have hcs := norm_sq (cross u v)
  rw [hc, one_pow] at hcs
  generalize Geometry.norm (y - x) = L at *
  rw [hyx]
  simp [cross] at hcs
  refine ⟨?_, ?_, ?_, ?_, ?_, ?_, ?_⟩
  · simp [dotProduct, Fin.sum_univ_three]; linear_combination hu'
  · simp [dotProduct, Fin.sum_univ_three]; linear_combination hv
  · simp [dotProduct, Fin.sum_univ_three, cross]; linear_combination -hcs
  · simp [dotProduct, Fin.sum_univ_three]; linear_combination L * hov
  · simp [dotProduct, Fin.sum_univ_three, cross]; ring
  · simp [dotProduct, Fin.sum_univ_three, cross]; ring
  · rw [Matrix.det_fin_three]; simp [cross]; linear_combination (-L) * hcs

/-- the volume of a cell is a determinant -/
theorem length_eq (x y : Vec 3) (c : Cell 0 3) : length x y c = Matrix.det (Matrix.of ![normal1 x y, normal2 x y, c.nodes 1 - c.nodes 0]) := by
  have h := cartesian_w (d := 3) (by norm_num) (by norm_num) (c.nodes 0)
    (Fin.append (m := 2) (n := 1) (fun a => (![fun _ => normal1 x y, fun _ => normal2 x y] : Fin 2 → Vec 3 → Vec 3) a (c.nodes 0)) ((cartesian 3).directors c.nodes))
  unfold length System.subVolume
  rw [show (1.0 : ℝ) / (Nat.factorial 1 : ℝ) = 1 by norm_num [Nat.factorial], one_mul]
  refine h.trans (congrArg Matrix.det ?_)
  ext i j
  fin_cases i <;> rfl

/-- C152.  The volume of the segment is its length. -/
theorem length_segment {x y : Vec 3} (h : (y - x) 1 ≠ 0 ∨ (y - x) 2 ≠ 0) (k : Nat) : length x y ⟨k, ![x, y]⟩ = Geometry.norm (y - x) := by
  rw [length_eq]
  exact (frame h).2.2.2.2.2.2

/-- the points of a segment in space -/
theorem param_segment (x y : Vec 3) (ξ : Val (.vec 1)) : (parametrization (![x, y] : Fin 2 → Vec 3)).eval ξ = y + ξ 0 • (x - y) := by
  funext i
  rw [Fem.parametrization_eval, Fin.sum_univ_two]
  simp only [Fem.xi_eval]
  simp
  ring

/-- C152.  The integral of a function that is cubic along the segment is the integral along the curve, up to the decimals of the rule. -/
theorem segment_cubic (debug : Bool) {x y : Vec 3} (h : (y - x) 1 ≠ 0 ∨ (y - x) 2 ≠ 0) (f : Vec 3 → ℝ) (a b c d : ℝ)
    (hf : ∀ s : ℝ, f (y + s • (x - y)) = a + b * s + c * s ^ 2 + d * s ^ 3) :
    ∃ i, segmentResult debug x y f = .value i ∧
      |i - Geometry.norm (y - x) * ∫ s in (0 : ℝ)..1, f (y + s • (x - y))| ≤ Geometry.norm (y - x) * (1e-15 * (|c| + |d|)) := by
  refine ⟨_, integrate_value _ _ _ _ _ (by simp), ?_⟩
  simp only [quadratureSum, List.map_cons, List.map_nil, List.sum_cons, List.sum_nil, add_zero, length_segment h, param_segment, hf]
  rw [← mul_sub, abs_mul, abs_of_nonneg (norm_nonneg _)]
  refine mul_le_mul_of_nonneg_left ?_ (norm_nonneg _)
  have hm := segment2_cubic a b c d
  have hc : Continuous fun ξ : Fin 1 → ℝ => a + b * ξ 0 + c * ξ 0 ^ 2 + d * ξ 0 ^ 3 := by fun_prop
  rw [meanOver, Nat.factorial_one, Nat.cast_one, one_mul, ← mean1_simplex hc] at hm
  exact hm

/-- C152.  The integral over the opposite of the segment is the opposite number: for every segment and every integrand. -/
theorem flip_test (debug : Bool) (x y : Vec 3) (f : Vec 3 → ℝ) :
    ∃ i, segmentResult debug x y f = .value i ∧ flipResult debug x y f = .value (-i) := by
  obtain ⟨_, hs, _⟩ := rules_symmetric
  have h := integrate_flip debug hs (length x y) [⟨0, ![x, y]⟩] f (fun _ => 1) (fun _ => Equiv.swap 0 1) (by simp) (by simp)
    (by intro _ _; exact Equiv.Perm.sign_swap (by decide)) (fun c _ => by
      rw [length_eq, length_eq, Equiv.Perm.sign_swap (by decide)]
      simp only [Cell.renumber, Equiv.swap_apply_left, Equiv.swap_apply_right]
      rw [Matrix.det_fin_three, Matrix.det_fin_three]
      simp
      ring)
  obtain ⟨i, h1, h2⟩ := h
  refine ⟨i, h1, ?_⟩
  rw [← h2]
  have hn : (fun a => (![x, y] : Fin 2 → Vec 3) (Equiv.swap 0 1 a)) = ![y, x] := by
    funext a
    fin_cases a <;> rfl
  have hl : ([⟨0, ![x, y]⟩] : List (Cell 0 3)).map (fun c => c.renumber 1 (Equiv.swap 0 1)) = [⟨1, ![y, x]⟩] :=
    congrArg (fun n => [(⟨1, n⟩ : Cell 0 3)]) hn
  rw [hl]
  rfl

theorem norm_diagonal : Geometry.norm ((![1, 1, 1] : Vec 3) - (![0, 0, 0] : Vec 3)) = Real.sqrt 3 := by
  rw [Geometry.norm]
  congr 1
  simp [dotProduct, Fin.sum_univ_three]
  norm_num

theorem sqrt_three : 1.7320508075688772 < Real.sqrt 3 ∧ Real.sqrt 3 < 1.7320508075688773 :=
  ⟨(Real.lt_sqrt (by norm_num)).mpr (by norm_num), (Real.sqrt_lt' (by norm_num)).mpr (by norm_num)⟩

/-- C152.  The test of the segment: the result is within the tolerance of the number in the test, which is itself not the integral in its last
digits. -/
theorem segment_test (debug : Bool) : ∃ i, segmentResult debug ![0, 0, 0] ![1, 1, 1] (fun x => x 0 * x 1) = .value i ∧
    |0.5773502691896265 - i| < 1e-15 ∧ |i - Real.sqrt 3 / 3| < 2e-16 ∧ 7e-16 < 0.5773502691896265 - Real.sqrt 3 / 3 := by
  have hn : ((![1, 1, 1] : Vec 3) - (![0, 0, 0] : Vec 3) : Vec 3) 1 ≠ 0 ∨ ((![1, 1, 1] : Vec 3) - (![0, 0, 0] : Vec 3) : Vec 3) 2 ≠ 0 :=
    Or.inl (by simp)
  refine ⟨_, integrate_value _ _ _ _ _ (by simp), ?_⟩
  have hv : quadratureSum segment2 (length ![0, 0, 0] ![1, 1, 1]) [⟨0, ![![0, 0, 0], ![1, 1, 1]]⟩] (fun x => x 0 * x 1) =
      Real.sqrt 3 * (0.5 * (1 - 0.788675134594813) ^ 2 + 0.5 * (1 - 0.211324865405187) ^ 2) := by
    simp only [quadratureSum, List.map_cons, List.map_nil, List.sum_cons, List.sum_nil, add_zero, length_segment hn, param_segment, norm_diagonal]
    congr 1
    simp [apply, segment2, Table.rule]
    norm_num
  rw [hv]
  obtain ⟨h1, h2⟩ := sqrt_three
  refine ⟨?_, ?_, ?_⟩
  · rw [abs_lt]; constructor <;> linarith
  · rw [abs_lt]; constructor <;> linarith
  · linarith

theorem triangle_volume (s : ℝ) (p q r : Vec 3) :
    System.subVolume (k := 1) (n := 2) (cartesian 3) (fun _ => fun _ => s • (![-1, 0, 1] : Vec 3)) ![p, q, r] =
      s / 2 * ((q 0 - p 0) * (r 1 - p 1) - (q 1 - p 1) * (r 0 - p 0) - ((q 1 - p 1) * (r 2 - p 2) - (q 2 - p 2) * (r 1 - p 1))) := by
  rw [subVolume_cartesian, Matrix.det_fin_three]
  simp
  ring

theorem triangle_apply (p q r : Vec 3) : apply triangle2 (fun ξ => (parametrization (![p, q, r] : Fin 3 → Vec 3)).eval ξ 0 *
      (parametrization (![p, q, r] : Fin 3 → Vec 3)).eval ξ 1) =
    1 / 3 * ((2 / 3 * p 0 + 1 / 6 * q 0 + 1 / 6 * r 0) * (2 / 3 * p 1 + 1 / 6 * q 1 + 1 / 6 * r 1) +
      (1 / 6 * p 0 + 2 / 3 * q 0 + 1 / 6 * r 0) * (1 / 6 * p 1 + 2 / 3 * q 1 + 1 / 6 * r 1) +
      (1 / 6 * p 0 + 1 / 6 * q 0 + 2 / 3 * r 0) * (1 / 6 * p 1 + 1 / 6 * q 1 + 2 / 3 * r 1)) := by
  have hp : ∀ (ξ : Val (.vec 2)) (i : Fin 3), (parametrization (![p, q, r] : Fin 3 → Vec 3)).eval ξ i =
      ξ 0 * p i + ξ 1 * q i + (1 - (ξ 0 + ξ 1)) * r i := fun ξ i => by
    rw [Fem.parametrization_eval, Fin.sum_univ_three]
    simp only [Fem.xi_eval]
    simp
  simp only [hp]
  simp [apply, triangle2, Table.rule]
  norm_num
  ring

/-- the normal of the square -/
theorem square_normal : triangleNormal ![corner 0, corner 1, corner 2] = fun _ => (Real.sqrt 2)⁻¹ • (![-1, 0, 1] : Vec 3) := by
  have hc : cross ((cartesian 3).sub (corner 1) (corner 0)) ((cartesian 3).sub (corner 2) (corner 0)) = ![-1, 0, 1] := by
    show cross (corner 1 - corner 0) (corner 2 - corner 0) = _
    funext i
    fin_cases i <;> simp [cross, corner]
  have h1 : Geometry.norm (![-1, 0, 1] : Vec 3) = Real.sqrt 2 := by
    rw [Geometry.norm]
    congr 1
    simp [dotProduct, Fin.sum_univ_three]
    norm_num
  funext p
  change (Geometry.norm (cross ((cartesian 3).sub (corner 1) (corner 0)) ((cartesian 3).sub (corner 2) (corner 0))))⁻¹ •
    cross ((cartesian 3).sub (corner 1) (corner 0)) ((cartesian 3).sub (corner 2) (corner 0)) = _
  rw [hc, h1]

/-- C152.  The test of the square. -/
theorem square_test (debug : Bool) : squareResult debug (fun x => x 0 * x 1) = .value (Real.sqrt 2 / 4) ∧
    |Real.sqrt 2 / 4 - 0.35355339059327384| < 1e-16 := by
  constructor
  · unfold squareResult
    rw [integrate_value _ _ _ _ _ (by simp [squareMesh]), square_normal]
    congr 1
    simp only [quadratureSum, squareMesh, List.map_cons, List.map_nil, List.sum_cons, List.sum_nil, add_zero]
    rw [triangle_volume, triangle_volume, triangle_volume, triangle_volume, triangle_apply, triangle_apply, triangle_apply, triangle_apply]
    have h2 : (Real.sqrt 2)⁻¹ = Real.sqrt 2 / 2 := by
      rw [inv_eq_iff_eq_inv, inv_div, Real.div_sqrt]
    rw [h2]
    simp [corner]
    norm_num
    ring
  · have a := (Real.lt_sqrt (x := 1.4142135623730950) (y := 2) (by norm_num)).mpr (by norm_num)
    have b := (Real.sqrt_lt' (x := 2) (y := 1.4142135623730951) (by norm_num)).mpr (by norm_num)
    rw [abs_lt]; constructor <;> linarith

/-- the premise of the frame is needed: along the first axis the first normal is zero over zero -/
example : (![1, 0, 0] : Vec 3) - ((![1, 0, 0] : Vec 3) ⬝ᵥ tangent ![0, 0, 0] ![1, 0, 0]) • tangent ![0, 0, 0] ![1, 0, 0] = 0 := by
  have h : tangent ![0, 0, 0] ![1, 0, 0] = ![1, 0, 0] := by
    have hn : Geometry.norm ((![1, 0, 0] : Vec 3) - (![0, 0, 0] : Vec 3)) = 1 := by
      rw [Geometry.norm, Real.sqrt_eq_one]
      simp [dotProduct, Fin.sum_univ_three]
    rw [tangent, hn]
    funext i
    fin_cases i <;> simp
  rw [h]
  simp [dotProduct, Fin.sum_univ_three]

end Mito.SpaceTests
