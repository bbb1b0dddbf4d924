import Verif.Spec.Coordinates
import Mathlib.LinearAlgebra.Matrix.Determinant.Basic
import Mathlib.Tactic.Ring
import Mathlib.Tactic.FieldSimp
import Mathlib.Tactic.FinCases
import Mathlib.Tactic.LinearCombination

/-! # Helper lemmas on coordinates -/

namespace Mito.Geometry

open Mito.Tensor

/-! ## Angles -/

theorem norm_mk (x y : ℝ) : ‖(⟨x, y⟩ : ℂ)‖ = Real.sqrt (x * x + y * y) := by
  rw [Complex.norm_def, Complex.normSq_mk]

theorem sqrt_mul_cos (x y : ℝ) : Real.sqrt (x * x + y * y) * Real.cos (atan2 y x) = x := by
  rw [← norm_mk, atan2]
  exact Complex.norm_mul_cos_arg _

theorem sqrt_mul_sin (x y : ℝ) : Real.sqrt (x * x + y * y) * Real.sin (atan2 y x) = y := by
  rw [← norm_mk, atan2]
  exact Complex.norm_mul_sin_arg _

theorem cos_sin_atan2 (x y : ℝ) :
    x * Real.cos (atan2 y x) + y * Real.sin (atan2 y x) = Real.sqrt (x * x + y * y) := by
  have h1 := sqrt_mul_cos x y
  have h2 := sqrt_mul_sin x y
  have h3 := Real.sin_sq_add_cos_sq (atan2 y x)
  linear_combination Real.sqrt (x * x + y * y) * h3 - Real.cos (atan2 y x) * h1 - Real.sin (atan2 y x) * h2

theorem atan2_polar {r : ℝ} (hr : 0 < r) (θ : ℝ) : SameAngle θ (atan2 (r * Real.sin θ) (r * Real.cos θ)) := by
  have h : (⟨r * Real.cos θ, r * Real.sin θ⟩ : ℂ) = r * (Complex.cos θ + Complex.sin θ * Complex.I) := by
    apply Complex.ext <;> simp [← Complex.ofReal_cos, ← Complex.ofReal_sin]
  have h1 : ((atan2 (r * Real.sin θ) (r * Real.cos θ) : ℝ) : Real.Angle) = θ := by
    rw [atan2, h]
    have h2 := Complex.arg_mul_cos_add_sin_mul_I_coe_angle hr (θ : Real.Angle)
    rwa [Real.Angle.cos_coe, Real.Angle.sin_coe, Complex.ofReal_cos, Complex.ofReal_sin] at h2
  obtain ⟨k, hk⟩ := Real.Angle.angle_eq_iff_two_pi_dvd_sub.mp h1
  exact ⟨k, by linarith⟩

theorem atan2_eq {r : ℝ} (hr : 0 < r) {θ : ℝ} (hθ : θ ∈ Set.Ioc (-Real.pi) Real.pi) :
    atan2 (r * Real.sin θ) (r * Real.cos θ) = θ := by
  have h : (⟨r * Real.cos θ, r * Real.sin θ⟩ : ℂ) = r * (Complex.cos θ + Complex.sin θ * Complex.I) := by
    apply Complex.ext <;> simp [← Complex.ofReal_cos, ← Complex.ofReal_sin]
  rw [atan2, h]
  exact Complex.arg_mul_cos_add_sin_mul_I hr hθ

/-! ## The charts -/

theorem cartesian_chart (d : Nat) : Chart (cartesian d) Set.univ id fun _ => 1 where
  orthogonal A := by simp
  oriented A := by simp
  add A _ v := by funext i; simp [cartesian]
  sub A _ B := by funext i; simp [cartesian]

theorem polar_add_eq {A : Vec 2} (hA : A 0 ≠ 0) (v : Vec 2) :
    polarAdd A v = ![Real.sqrt ((A 0 + v 0) * (A 0 + v 0) + v 1 * v 1), A 1 + atan2 (v 1) (A 0 + v 0)] := by
  have h1 : v ⬝ᵥ polarBasis 0 A = v 0 := by simp [polarBasis, dotProduct, Fin.sum_univ_two]
  have h2 : v ⬝ᵥ polarBasis 1 A / (polarBasis 1 A ⬝ᵥ polarBasis 1 A) = v 1 / A 0 := by
    simp [polarBasis, dotProduct, Fin.sum_univ_two]
    field_simp
  have h3 : v 1 / A 0 * A 0 = v 1 := by field_simp
  simp only [polarAdd, h1, h2, h3]
  congr 3
  field_simp

theorem polar_sub_eq {A : Vec 2} (hA : A 0 ≠ 0) (B : Vec 2) :
    polarSub B A = ![B 0 * Real.cos (B 1 - A 1) - A 0, B 0 * Real.sin (B 1 - A 1)] := by
  funext i
  fin_cases i <;> simp [polarSub, polarBasis]
  field_simp

theorem polar_chart : Chart polar {A | A 0 ≠ 0} cartesianOfPolar polarFrame where
  orthogonal A := by
    have h := Real.sin_sq_add_cos_sq (A 1)
    ext i j
    fin_cases i <;> fin_cases j <;> simp [polarFrame, Matrix.mul_apply, Fin.sum_univ_two] <;> nlinarith
  oriented A := by
    have h := Real.sin_sq_add_cos_sq (A 1)
    simp [polarFrame, Matrix.det_fin_two]
    nlinarith
  add A hA v := by
    have h1 := sqrt_mul_cos (A 0 + v 0) (v 1)
    have h2 := sqrt_mul_sin (A 0 + v 0) (v 1)
    funext i
    fin_cases i
    · simp [polar, polar_add_eq hA, cartesianOfPolar, polarFrame, Matrix.mulVec, dotProduct, Fin.sum_univ_two, Real.cos_add]
      linear_combination Real.cos (A 1) * h1 - Real.sin (A 1) * h2
    · simp [polar, polar_add_eq hA, cartesianOfPolar, polarFrame, Matrix.mulVec, dotProduct, Fin.sum_univ_two, Real.sin_add]
      linear_combination Real.sin (A 1) * h1 + Real.cos (A 1) * h2
  sub A hA B := by
    have h := Real.sin_sq_add_cos_sq (A 1)
    funext i
    fin_cases i
    · simp [polar, polar_sub_eq hA, cartesianOfPolar, polarFrame, Matrix.mulVec, dotProduct, Fin.sum_univ_two, Real.cos_sub,
        Real.sin_sub]
      linear_combination B 0 * Real.cos (B 1) * h
    · simp [polar, polar_sub_eq hA, cartesianOfPolar, polarFrame, Matrix.mulVec, dotProduct, Fin.sum_univ_two, Real.cos_sub,
        Real.sin_sub]
      linear_combination B 0 * Real.sin (B 1) * h

/-- the position of `A + v` in the frame in which `φ_A` is zero -/
theorem spherical_add_eq {A : Vec 3} (hr : A 0 ≠ 0) (hs : Real.sin (A 1) ≠ 0) (v : Vec 3) :
    let a := (A 0 + v 0) * Real.sin (A 1) + v 1 * Real.cos (A 1)
    let c := (A 0 + v 0) * Real.cos (A 1) - v 1 * Real.sin (A 1)
    let ρ := Real.sqrt (a * a + v 2 * v 2)
    sphericalAdd A v = ![Real.sqrt (c * c + ρ * ρ), atan2 ρ c, A 2 + atan2 (v 2) a] := by
  have h1 : v ⬝ᵥ sphericalBasis 0 A = v 0 := by simp [sphericalBasis, dotProduct, Fin.sum_univ_three]
  have h2 : v ⬝ᵥ sphericalBasis 1 A / (sphericalBasis 1 A ⬝ᵥ sphericalBasis 1 A) = v 1 / A 0 := by
    simp [sphericalBasis, dotProduct, Fin.sum_univ_three]
    field_simp
  have h3 : v ⬝ᵥ sphericalBasis 2 A / (sphericalBasis 2 A ⬝ᵥ sphericalBasis 2 A) = v 2 / (A 0 * Real.sin (A 1)) := by
    simp [sphericalBasis, dotProduct, Fin.sum_univ_three]
    field_simp
  have h4 : v 1 / A 0 * A 0 = v 1 := by field_simp
  have h5 : v 2 / (A 0 * Real.sin (A 1)) * A 0 * Real.sin (A 1) = v 2 := by field_simp
  intro a c ρ
  have h6 : a * Real.cos (atan2 (v 2) a) + v 2 * Real.sin (atan2 (v 2) a) = ρ := cos_sin_atan2 a (v 2)
  have h7 : c * Real.cos (atan2 ρ c) + ρ * Real.sin (atan2 ρ c) = Real.sqrt (c * c + ρ * ρ) := cos_sin_atan2 c ρ
  have h8 : -(v 1 / A 0) * A 0 * Real.sin (A 1) + (A 0 + v 0) * Real.cos (A 1) = c := by
    rw [neg_mul, h4]
    ring
  have h9 : v 2 * Real.sin (atan2 (v 2) a) + (v 1 * Real.cos (A 1) + (A 0 + v 0) * Real.sin (A 1)) * Real.cos (atan2 (v 2) a)
      = ρ := by
    rw [← h6]
    ring
  simp only [sphericalAdd, h1, h2, h3, h4, h5, h8, add_sub_cancel_left]
  change ![_, atan2 (v 2 * Real.sin (atan2 (v 2) a) + _) c, A 2 + atan2 (v 2) a] = _
  rw [h9]
  congr 1
  change (v 0 + A 0) * (Real.sin (A 1) * Real.sin (atan2 ρ c) * Real.cos (atan2 (v 2) a) + Real.cos (A 1) * Real.cos (atan2 ρ c))
    + v 1 * (Real.cos (A 1) * Real.sin (atan2 ρ c) * Real.cos (atan2 (v 2) a) - Real.sin (A 1) * Real.cos (atan2 ρ c))
    + v 2 * Real.sin (atan2 ρ c) * Real.sin (atan2 (v 2) a) = _
  rw [← h7]
  linear_combination Real.sin (atan2 ρ c) * h6

theorem spherical_sub_eq {A : Vec 3} (hr : A 0 ≠ 0) (hs : Real.sin (A 1) ≠ 0) (B : Vec 3) :
    sphericalSub B A =
      ![B 0 * (Real.sin (A 1) * Real.sin (B 1) * Real.cos (B 2 - A 2) + Real.cos (A 1) * Real.cos (B 1)) - A 0,
        B 0 * (Real.sin (B 1) * Real.cos (A 1) * Real.cos (B 2 - A 2) - Real.sin (A 1) * Real.cos (B 1)),
        B 0 * Real.sin (B 1) * Real.sin (B 2 - A 2)] := by
  funext i
  fin_cases i <;> simp [sphericalSub, sphericalBasis] <;> field_simp

theorem spherical_chart : Chart spherical {A | A 0 ≠ 0 ∧ Real.sin (A 1) ≠ 0} cartesianOfSpherical sphericalFrame where
  orthogonal A := by
    have h := Real.sin_sq_add_cos_sq (A 1)
    have k := Real.sin_sq_add_cos_sq (A 2)
    ext i j
    fin_cases i <;> fin_cases j <;> simp [sphericalFrame, Matrix.mul_apply, Fin.sum_univ_three]
    · linear_combination Real.sin (A 1) ^ 2 * k + h
    · linear_combination Real.sin (A 1) * Real.cos (A 1) * k
    · ring
    · linear_combination Real.sin (A 1) * Real.cos (A 1) * k
    · linear_combination Real.cos (A 1) ^ 2 * k + h
    · ring
    · ring
    · ring
    · linear_combination k
  oriented A := by
    have h := Real.sin_sq_add_cos_sq (A 1)
    have k := Real.sin_sq_add_cos_sq (A 2)
    simp [sphericalFrame, Matrix.det_fin_three]
    linear_combination (Real.sin (A 1) ^ 2 + Real.cos (A 1) ^ 2) * k + h
  add A hA v := by
    obtain ⟨hr, hs⟩ := hA
    have key := spherical_add_eq hr hs v
    dsimp only at key
    set a := (A 0 + v 0) * Real.sin (A 1) + v 1 * Real.cos (A 1) with ha
    set c := (A 0 + v 0) * Real.cos (A 1) - v 1 * Real.sin (A 1) with hc
    set ρ := Real.sqrt (a * a + v 2 * v 2) with hρ
    have h1 := sqrt_mul_cos a (v 2)
    have h2 := sqrt_mul_sin a (v 2)
    have h3 := sqrt_mul_cos c ρ
    have h4 := sqrt_mul_sin c ρ
    rw [← hρ] at h1 h2
    have h := Real.sin_sq_add_cos_sq (A 1)
    funext i
    fin_cases i
    · simp [spherical, key, cartesianOfSpherical, sphericalFrame, Matrix.mulVec, dotProduct, Fin.sum_univ_three, Real.cos_add]
      rw [h4]
      linear_combination Real.cos (A 2) * h1 - Real.sin (A 2) * h2
    · simp [spherical, key, cartesianOfSpherical, sphericalFrame, Matrix.mulVec, dotProduct, Fin.sum_univ_three, Real.sin_add]
      rw [h4]
      linear_combination Real.sin (A 2) * h1 + Real.cos (A 2) * h2
    · simp [spherical, key, cartesianOfSpherical, sphericalFrame, Matrix.mulVec, dotProduct, Fin.sum_univ_three]
      rw [h3]
      ring
  sub A hA B := by
    obtain ⟨hr, hs⟩ := hA
    have h := Real.sin_sq_add_cos_sq (A 1)
    have k := Real.sin_sq_add_cos_sq (A 2)
    funext i
    fin_cases i
    · simp [spherical, spherical_sub_eq hr hs, cartesianOfSpherical, sphericalFrame, Matrix.mulVec, dotProduct, Fin.sum_univ_three,
        Real.cos_sub, Real.sin_sub]
      linear_combination (B 0 * Real.sin (B 1) * Real.cos (A 2) *
        (Real.cos (B 2) * Real.cos (A 2) + Real.sin (B 2) * Real.sin (A 2))) * h + B 0 * Real.sin (B 1) * Real.cos (B 2) * k
    · simp [spherical, spherical_sub_eq hr hs, cartesianOfSpherical, sphericalFrame, Matrix.mulVec, dotProduct, Fin.sum_univ_three,
        Real.cos_sub, Real.sin_sub]
      linear_combination (B 0 * Real.sin (B 1) * Real.sin (A 2) *
        (Real.cos (B 2) * Real.cos (A 2) + Real.sin (B 2) * Real.sin (A 2))) * h + B 0 * Real.sin (B 1) * Real.sin (B 2) * k
    · simp [spherical, spherical_sub_eq hr hs, cartesianOfSpherical, sphericalFrame, Matrix.mulVec, dotProduct, Fin.sum_univ_three,
        Real.cos_sub, Real.sin_sub]
      linear_combination B 0 * Real.cos (B 1) * h

/-! ## Diagonal metrics -/

/-- an orthogonal basis with lengths `h` -/
structure Diagonal {d : Nat} (S : System d) (A : Vec d) (h : Fin d → ℝ) : Prop where
  pos : ∀ I, 0 < h I
  basis : ∀ I, S.e I A = Pi.single I (h I)
  metric : S.g A = Matrix.diagonal fun I => h I ^ 2

variable {d : Nat} {S : System d} {A : Vec d} {h : Fin d → ℝ}

theorem Diagonal.gInv (H : Diagonal S A h) : S.gInv A = Matrix.diagonal fun I => (h I ^ 2)⁻¹ := by
  rw [System.gInv, H.metric]
  apply Matrix.inv_eq_right_inv
  rw [Matrix.diagonal_mul_diagonal, ← Matrix.diagonal_one]
  congr 1
  funext I
  have := (H.pos I).ne'
  field_simp

theorem Diagonal.oneForm (H : Diagonal S A h) (v w : Vec d) : oneForm v (S.gInv A) w = ∑ I, v I * w I / h I ^ 2 := by
  rw [H.gInv, Mito.Tensor.oneForm, dotProduct]
  refine Finset.sum_congr rfl fun I _ => ?_
  rw [Matrix.mulVec_diagonal]
  ring

theorem Diagonal.dx (H : Diagonal S A h) (I : Fin d) (v : Vec d) : S.dx I A v = v I / h I := by
  rw [System.dx, H.oneForm, H.basis, Finset.sum_eq_single I]
  · have := (H.pos I).ne'
    rw [Pi.single_eq_same]
    field_simp
  · intro J _ hJ
    rw [Pi.single_eq_of_ne hJ]
    simp
  · simp

theorem wedge_det (hd : 1 ≤ d) (hd' : d ≤ 3) (f : Fin d → Form1 d) (v : Fin d → Vec d) :
    System.wedge d f v = Matrix.det (Matrix.of fun j i => f i (v j)) := by
  obtain rfl | rfl | rfl : d = 1 ∨ d = 2 ∨ d = 3 := by omega
  · simp [System.wedge]
  · simp only [System.wedge, Mito.Tensor.wedge2, Mito.Tensor.sub2, Mito.Tensor.add2, Mito.Tensor.scale2, Mito.Tensor.tensor2,
      Matrix.det_fin_two, Matrix.of_apply, show (-1.0 : ℝ) = -1 by norm_num]
    ring
  · simp only [System.wedge, Mito.Tensor.wedge3, Mito.Tensor.wedge2, Mito.Tensor.sub2, Mito.Tensor.add2, Mito.Tensor.scale2,
      Mito.Tensor.tensor2, Matrix.det_fin_three, Matrix.of_apply, show (-1.0 : ℝ) = -1 by norm_num]
    ring

theorem Diagonal.w (H : Diagonal S A h) (hd : 1 ≤ d) (hd' : d ≤ 3) (v : Fin d → Vec d) :
    S.w A v = Matrix.det (Matrix.of v) := by
  rw [System.w, wedge_det hd hd', H.metric, Matrix.det_diagonal, Finset.prod_pow,
    Real.sqrt_sq (Finset.prod_nonneg fun I _ => (H.pos I).le)]
  have h1 : (Matrix.of fun j i => S.dx i A (v j)) = Matrix.of v * Matrix.diagonal fun I => (h I)⁻¹ := by
    ext j i
    rw [Matrix.mul_diagonal, Matrix.of_apply, Matrix.of_apply, H.dx]
    ring
  rw [h1, Matrix.det_mul, Matrix.det_diagonal, Finset.prod_inv_distrib, mul_comm, mul_assoc, inv_mul_cancel₀, mul_one]
  exact Finset.prod_ne_zero_iff.mpr fun I _ => (H.pos I).ne'

theorem Diagonal.sharp (H : Diagonal S A h) {α : Form1 d} (hα : ∀ (s : ℝ) (x : Vec d), α (s • x) = s * α x) :
    S.sharp α A = fun K => α (Pi.single K 1) := by
  rw [System.sharp, H.gInv]
  funext K
  rw [Finset.sum_apply, Finset.sum_eq_single K]
  · have h1 : S.e K A = h K • Pi.single K (1 : ℝ) := by
      rw [H.basis, ← Pi.single_smul, smul_eq_mul, mul_one]
    have := (H.pos K).ne'
    rw [Matrix.smul_mulVec, Pi.smul_apply, Matrix.mulVec_diagonal, h1, hα]
    simp
    field_simp
  · intro J _ hJ
    rw [Matrix.smul_mulVec, Pi.smul_apply, Matrix.mulVec_diagonal, H.basis, Pi.single_eq_of_ne hJ.symm]
    simp
  · simp

theorem cartesian_diagonal (d : Nat) (A : Vec d) : Diagonal (cartesian d) A fun _ => 1 where
  pos _ := one_pos
  basis _ := rfl
  metric := by simp [cartesian]

theorem polar_diagonal {A : Vec 2} (hr : 0 < A 0) : Diagonal polar A ![1, A 0] where
  pos I := by fin_cases I <;> simp [hr]
  basis I := by funext J; fin_cases I <;> fin_cases J <;> simp [polar, polarBasis]
  metric := by ext I J; fin_cases I <;> fin_cases J <;> simp [polar, polarMetric, Matrix.single]

theorem spherical_diagonal {A : Vec 3} (hr : 0 < A 0) (hs : 0 < Real.sin (A 1)) :
    Diagonal spherical A ![1, A 0, A 0 * Real.sin (A 1)] where
  pos I := by fin_cases I <;> simp [hr, hs]
  basis I := by funext J; fin_cases I <;> fin_cases J <;> simp [spherical, sphericalBasis]
  metric := by ext I J; fin_cases I <;> fin_cases J <;> simp [spherical, sphericalMetric, Matrix.single]

end Mito.Geometry
