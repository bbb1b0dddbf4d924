import Verif.Geometry.CoordinatesLemmas
import Mathlib.Analysis.InnerProductSpace.PiL2
import Mathlib.Analysis.SpecialFunctions.Trigonometric.Deriv
import Mathlib.LinearAlgebra.AffineSpace.Independent
import Mathlib.LinearAlgebra.Matrix.Basis
import Mathlib.Analysis.Calculus.Deriv.Prod
import Mathlib.Analysis.Real.Pi.Bounds

/-! # C34–C42, C72, C73: coordinates, metrics and volumes -/

namespace Mito.Geometry

open Mito.Tensor

variable {d : Nat}

/-! ## What holds in every chart -/

section Chart

variable {S : System d} {dom : Set (Vec d)} {pos : Vec d → Vec d} {frame : Vec d → Mat d}

theorem Chart.injective (C : Chart S dom pos frame) (A : Vec d) {u v : Vec d} (h : (frame A).mulVec u = (frame A).mulVec v) :
    u = v := by
  have h1 := congrArg (frame A).transpose.mulVec h
  simpa [Matrix.mulVec_mulVec, C.orthogonal A] using h1

theorem Chart.norm (C : Chart S dom pos frame) (A v : Vec d) : norm ((frame A).mulVec v) = norm v := by
  rw [Geometry.norm, Geometry.norm, Matrix.dotProduct_mulVec, ← Matrix.mulVec_transpose, Matrix.mulVec_mulVec, C.orthogonal,
    Matrix.one_mulVec]

/-- the vector from `A` to `B` leads from `A` to `B` -/
theorem Chart.add_sub (C : Chart S dom pos frame) {A : Vec d} (hA : A ∈ dom) (B : Vec d) : pos (S.add A (S.sub B A)) = pos B := by
  rw [C.add A hA, C.sub A hA]
  abel

theorem Chart.sub_add (C : Chart S dom pos frame) {A : Vec d} (hA : A ∈ dom) (v : Vec d) : S.sub (S.add A v) A = v := by
  apply C.injective A
  rw [C.sub A hA, C.add A hA]
  abel

theorem Chart.midpoint (C : Chart S dom pos frame) {A : Vec d} (hA : A ∈ dom) (B : Vec d) :
    pos (S.midpoint A B) = (1 / 2 : ℝ) • (pos A + pos B) := by
  rw [System.midpoint, C.add A hA, Matrix.mulVec_smul, C.sub A hA, show (0.5 : ℝ) = 1 / 2 by norm_num]
  funext i
  simp
  ring

theorem Chart.distance (C : Chart S dom pos frame) {B : Vec d} (hB : B ∈ dom) (A : Vec d) :
    S.distance A B = Geometry.norm (pos A - pos B) := by
  rw [System.distance, ← C.sub B hB, C.norm]

theorem foldl_add (l : List (Fin d)) {V : Type} [AddCommMonoid V] (f : Fin d → V) (s : V) :
    l.foldl (fun r a => r + f a) s = s + (l.map f).sum := by
  induction l generalizing s with
  | nil => simp
  | cons a l ih => rw [List.foldl_cons, ih]; simp [add_assoc]

theorem Chart.barycenter (C : Chart S dom pos frame) {n : Nat} (nodes : Fin (n + 1) → Vec d) (h0 : nodes 0 ∈ dom) :
    pos (S.barycenter nodes) = (n + 1 : ℝ)⁻¹ • ∑ a, pos (nodes a) := by
  have h1 : (frame (nodes 0)).mulVec (S.sub (nodes 0) (nodes 0)) = 0 := by rw [C.sub _ h0, sub_self]
  simp only [System.barycenter]
  rw [C.add _ h0, foldl_add, Matrix.mulVec_smul, Matrix.mulVec_add, h1, zero_add, ← List.ofFn_eq_map, List.sum_ofFn,
    Matrix.mulVec_sum]
  simp only [C.sub _ h0, Finset.sum_sub_distrib, Finset.sum_const, Finset.card_univ, Fintype.card_fin, smul_sub]
  have hn : (n + 1 : ℝ) ≠ 0 := by positivity
  rw [← Nat.cast_smul_eq_nsmul ℝ, smul_smul, Nat.cast_add, Nat.cast_one, inv_mul_cancel₀ hn, one_smul]
  abel

theorem Chart.volume (C : Chart S dom pos frame) (nodes : Fin (d + 1) → Vec d) (h0 : nodes 0 ∈ dom) (hd : 1 ≤ d) (hd' : d ≤ 3)
    {h : Fin d → ℝ} (H : Diagonal S (nodes 0) h) : S.volume nodes = simplexVolume fun a => pos (nodes a) := by
  rw [System.volume, simplexVolume, H.w hd hd', show (1.0 : ℝ) / (d.factorial : ℝ) = (d.factorial : ℝ)⁻¹ by norm_num]
  congr 1
  have h1 : (Matrix.of fun j : Fin d => pos (nodes j.succ) - pos (nodes 0)) =
      Matrix.of (S.directors nodes) * (frame (nodes 0)).transpose := by
    ext j i
    rw [Matrix.of_apply, ← C.sub _ h0, Matrix.mul_apply]
    simp only [Matrix.mulVec, dotProduct, Matrix.transpose_apply, Matrix.of_apply, System.directors]
    exact Finset.sum_congr rfl fun k _ => mul_comm _ _
  rw [h1, Matrix.det_mul, Matrix.det_transpose, C.oriented, mul_one]

end Chart

/-! ## C34: Cartesian coordinates -/

theorem cartesian_affine (A B u v : Vec d) :
    (cartesian d).add A ((cartesian d).sub B A) = B ∧ (cartesian d).sub ((cartesian d).add A v) A = v ∧
      (cartesian d).add ((cartesian d).add A u) v = (cartesian d).add A (u + v) ∧ (cartesian d).add A 0 = A := by
  refine ⟨?_, ?_, ?_, ?_⟩ <;> funext i <;> simp [cartesian] <;> ring

theorem cartesian_midpoint (A B : Vec d) :
    (cartesian d).midpoint A B = (1 / 2 : ℝ) • (A + B) ∧
      (cartesian d).distance A ((cartesian d).midpoint A B) = (cartesian d).distance B ((cartesian d).midpoint A B) := by
  have h : (cartesian d).midpoint A B = (1 / 2 : ℝ) • (A + B) := (cartesian_chart d).midpoint (Set.mem_univ A) B
  refine ⟨h, ?_⟩
  rw [h, System.distance, System.distance, norm, norm]
  congr 1
  simp only [cartesian, dotProduct]
  refine Finset.sum_congr rfl fun i _ => ?_
  simp
  ring

theorem norm_euclidean (v : Vec d) : norm v = ‖(WithLp.toLp 2 v : EuclideanSpace ℝ (Fin d))‖ := by
  rw [EuclideanSpace.norm_eq, norm]
  congr 1
  simp only [dotProduct, Real.norm_eq_abs, sq_abs]
  exact Finset.sum_congr rfl fun i _ => (sq _).symm

/-- the distance is the Euclidean metric -/
theorem cartesian_distance (A B C : Vec d) :
    0 ≤ (cartesian d).distance A B ∧ ((cartesian d).distance A B = 0 ↔ A = B) ∧
      (cartesian d).distance A B = (cartesian d).distance B A ∧
      (cartesian d).distance A C ≤ (cartesian d).distance A B + (cartesian d).distance B C ∧
      (cartesian d).distance A B = dist (WithLp.toLp 2 A : EuclideanSpace ℝ (Fin d)) (WithLp.toLp 2 B) := by
  have h : ∀ A B : Vec d, (cartesian d).distance A B =
      dist (WithLp.toLp 2 A : EuclideanSpace ℝ (Fin d)) (WithLp.toLp 2 B) := by
    intro A B
    rw [(cartesian_chart d).distance (Set.mem_univ B), norm_euclidean, dist_eq_norm]
    rfl
  simp only [h]
  refine ⟨dist_nonneg, ?_, dist_comm _ _, dist_triangle _ _ _, trivial⟩
  rw [dist_eq_zero]
  exact (WithLp.toLp_injective 2).eq_iff

theorem cartesian_barycenter {n : Nat} (nodes : Fin (n + 1) → Vec d) :
    (cartesian d).barycenter nodes = (n + 1 : ℝ)⁻¹ • ∑ a, nodes a :=
  (cartesian_chart d).barycenter nodes (Set.mem_univ _)

/-! ## C35: polar coordinates -/

/-- adding vectors and taking differences, in the plane -/
theorem polar_algebra {A : Vec 2} (hA : A 0 ≠ 0) (B v : Vec 2) :
    cartesianOfPolar (polar.add A v) = cartesianOfPolar A + (polarFrame A).mulVec v ∧
      (polarFrame A).mulVec (polar.sub B A) = cartesianOfPolar B - cartesianOfPolar A ∧
      cartesianOfPolar (polar.add A (polar.sub B A)) = cartesianOfPolar B ∧ polar.sub (polar.add A v) A = v :=
  ⟨polar_chart.add A hA v, polar_chart.sub A hA B, polar_chart.add_sub hA B, polar_chart.sub_add hA v⟩

/-- the frame turns by the angle -/
theorem polar_frame (A : Vec 2) : (polarFrame A).transpose * polarFrame A = 1 ∧ (polarFrame A).det = 1 :=
  ⟨polar_chart.orthogonal A, polar_chart.oriented A⟩

theorem polar_midpoint {A : Vec 2} (hA : A 0 ≠ 0) (B : Vec 2) :
    cartesianOfPolar (polar.midpoint A B) = (1 / 2 : ℝ) • (cartesianOfPolar A + cartesianOfPolar B) :=
  polar_chart.midpoint hA B

theorem polar_distance {B : Vec 2} (hB : B 0 ≠ 0) (A : Vec 2) :
    polar.distance A B = (cartesian 2).distance (cartesianOfPolar A) (cartesianOfPolar B) := by
  rw [polar_chart.distance hB, (cartesian_chart 2).distance (Set.mem_univ _)]
  rfl

theorem polar_barycenter {n : Nat} (nodes : Fin (n + 1) → Vec 2) (h0 : nodes 0 0 ≠ 0) :
    cartesianOfPolar (polar.barycenter nodes) = (n + 1 : ℝ)⁻¹ • ∑ a, cartesianOfPolar (nodes a) :=
  polar_chart.barycenter nodes h0

/-- the result has a non-negative radius -/
theorem polar_add_radius (A v : Vec 2) : 0 ≤ polar.add A v 0 := Real.sqrt_nonneg _

/-! ## C36: spherical coordinates -/

theorem spherical_algebra {A : Vec 3} (hr : A 0 ≠ 0) (hs : Real.sin (A 1) ≠ 0) (B v : Vec 3) :
    cartesianOfSpherical (spherical.add A v) = cartesianOfSpherical A + (sphericalFrame A).mulVec v ∧
      (sphericalFrame A).mulVec (spherical.sub B A) = cartesianOfSpherical B - cartesianOfSpherical A ∧
      cartesianOfSpherical (spherical.add A (spherical.sub B A)) = cartesianOfSpherical B ∧
      spherical.sub (spherical.add A v) A = v :=
  ⟨spherical_chart.add A ⟨hr, hs⟩ v, spherical_chart.sub A ⟨hr, hs⟩ B, spherical_chart.add_sub ⟨hr, hs⟩ B,
    spherical_chart.sub_add ⟨hr, hs⟩ v⟩

theorem spherical_frame (A : Vec 3) : (sphericalFrame A).transpose * sphericalFrame A = 1 ∧ (sphericalFrame A).det = 1 :=
  ⟨spherical_chart.orthogonal A, spherical_chart.oriented A⟩

theorem spherical_midpoint {A : Vec 3} (hr : A 0 ≠ 0) (hs : Real.sin (A 1) ≠ 0) (B : Vec 3) :
    cartesianOfSpherical (spherical.midpoint A B) = (1 / 2 : ℝ) • (cartesianOfSpherical A + cartesianOfSpherical B) :=
  spherical_chart.midpoint (A := A) ⟨hr, hs⟩ B

theorem spherical_distance {B : Vec 3} (hr : B 0 ≠ 0) (hs : Real.sin (B 1) ≠ 0) (A : Vec 3) :
    spherical.distance A B = (cartesian 3).distance (cartesianOfSpherical A) (cartesianOfSpherical B) := by
  rw [spherical_chart.distance (B := B) ⟨hr, hs⟩, (cartesian_chart 3).distance (Set.mem_univ _)]
  rfl

theorem spherical_barycenter {n : Nat} (nodes : Fin (n + 1) → Vec 3) (hr : nodes 0 0 ≠ 0) (hs : Real.sin (nodes 0 1) ≠ 0) :
    cartesianOfSpherical (spherical.barycenter nodes) = (n + 1 : ℝ)⁻¹ • ∑ a, cartesianOfSpherical (nodes a) :=
  spherical_chart.barycenter nodes ⟨hr, hs⟩

/-- the result has a non-negative radius and a polar angle between zero and `π` -/
theorem spherical_add_range {A : Vec 3} (hr : A 0 ≠ 0) (hs : Real.sin (A 1) ≠ 0) (v : Vec 3) :
    0 ≤ spherical.add A v 0 ∧ spherical.add A v 1 ∈ Set.Icc 0 Real.pi := by
  have h : spherical.add A v = sphericalAdd A v := rfl
  rw [h, spherical_add_eq hr hs]
  refine ⟨Real.sqrt_nonneg _, ?_⟩
  simp only [Matrix.cons_val_one, Matrix.cons_val_zero, atan2]
  exact ⟨Complex.arg_nonneg_iff.mpr (Real.sqrt_nonneg _), Complex.arg_le_pi _⟩

/-! ## C37: transformations -/

theorem cartesian_polar_cartesian (p : Vec 2) : cartesianOfPolar (polarOfCartesian p) = p := by
  funext i
  fin_cases i
  · exact sqrt_mul_cos (p 0) (p 1)
  · exact sqrt_mul_sin (p 0) (p 1)

theorem cartesian_spherical_cartesian (p : Vec 3) : cartesianOfSpherical (sphericalOfCartesian p) = p := by
  have h0 : Real.sqrt (p 1 ^ 2 + p 0 ^ 2) = Real.sqrt (p 0 * p 0 + p 1 * p 1) := by congr 1; ring
  have h1 : Real.sqrt (p 0 * p 0 + p 1 * p 1 + p 2 * p 2) = Real.sqrt (p 2 * p 2 +
      Real.sqrt (p 0 * p 0 + p 1 * p 1) * Real.sqrt (p 0 * p 0 + p 1 * p 1)) := by
    rw [Real.mul_self_sqrt (add_nonneg (mul_self_nonneg _) (mul_self_nonneg _))]
    congr 1
    ring
  have hc := sqrt_mul_cos (p 2) (Real.sqrt (p 0 * p 0 + p 1 * p 1))
  have hs := sqrt_mul_sin (p 2) (Real.sqrt (p 0 * p 0 + p 1 * p 1))
  funext i
  fin_cases i
  · simp [cartesianOfSpherical, sphericalOfCartesian]
    rw [h0, h1, hs]
    exact sqrt_mul_cos (p 0) (p 1)
  · simp [cartesianOfSpherical, sphericalOfCartesian]
    rw [h0, h1, hs]
    exact sqrt_mul_sin (p 0) (p 1)
  · simp [cartesianOfSpherical, sphericalOfCartesian]
    rw [h0, h1, hc]

theorem sqrt_polar {r : ℝ} (hr : 0 ≤ r) (θ : ℝ) :
    Real.sqrt (r * Real.cos θ * (r * Real.cos θ) + r * Real.sin θ * (r * Real.sin θ)) = r := by
  have h : r * Real.cos θ * (r * Real.cos θ) + r * Real.sin θ * (r * Real.sin θ) = r ^ 2 := by
    linear_combination r ^ 2 * Real.sin_sq_add_cos_sq θ
  rw [h, Real.sqrt_sq hr]

theorem polar_cartesian_polar {p : Vec 2} (hr : 0 < p 0) :
    polarOfCartesian (cartesianOfPolar p) 0 = p 0 ∧ SameAngle (p 1) (polarOfCartesian (cartesianOfPolar p) 1) :=
  ⟨sqrt_polar hr.le (p 1), atan2_polar hr (p 1)⟩

theorem polar_cartesian_polar_eq {p : Vec 2} (hr : 0 < p 0) (hθ : p 1 ∈ Set.Ioc (-Real.pi) Real.pi) :
    polarOfCartesian (cartesianOfPolar p) = p := by
  funext i
  fin_cases i
  · exact sqrt_polar hr.le (p 1)
  · exact atan2_eq hr hθ

theorem spherical_cartesian_spherical {p : Vec 3} (hr : 0 < p 0) (hθ : p 1 ∈ Set.Ioo 0 Real.pi) :
    sphericalOfCartesian (cartesianOfSpherical p) 0 = p 0 ∧ sphericalOfCartesian (cartesianOfSpherical p) 1 = p 1 ∧
      SameAngle (p 2) (sphericalOfCartesian (cartesianOfSpherical p) 2) := by
  have hs : 0 < Real.sin (p 1) := Real.sin_pos_of_pos_of_lt_pi hθ.1 hθ.2
  have h := Real.sin_sq_add_cos_sq (p 1)
  have k := Real.sin_sq_add_cos_sq (p 2)
  refine ⟨?_, ?_, ?_⟩
  · simp only [sphericalOfCartesian, cartesianOfSpherical, Matrix.cons_val_zero, Matrix.cons_val_one, Matrix.cons_val]
    rw [show p 0 * Real.sin (p 1) * Real.cos (p 2) * (p 0 * Real.sin (p 1) * Real.cos (p 2)) +
      p 0 * Real.sin (p 1) * Real.sin (p 2) * (p 0 * Real.sin (p 1) * Real.sin (p 2)) +
      p 0 * Real.cos (p 1) * (p 0 * Real.cos (p 1)) = p 0 ^ 2 by
        linear_combination (p 0 * Real.sin (p 1)) ^ 2 * k + p 0 ^ 2 * h]
    exact Real.sqrt_sq hr.le
  · simp only [sphericalOfCartesian, cartesianOfSpherical, Matrix.cons_val_zero, Matrix.cons_val_one, Matrix.cons_val]
    rw [show (p 0 * Real.sin (p 1) * Real.sin (p 2)) ^ 2 + (p 0 * Real.sin (p 1) * Real.cos (p 2)) ^ 2 =
      (p 0 * Real.sin (p 1)) ^ 2 by linear_combination (p 0 * Real.sin (p 1)) ^ 2 * k]
    rw [Real.sqrt_sq (mul_pos hr hs).le]
    exact atan2_eq hr ⟨by linarith [hθ.1, Real.pi_pos], hθ.2.le⟩
  · exact atan2_polar (mul_pos hr hs) (p 2)

theorem spherical_cartesian_spherical_eq {p : Vec 3} (hr : 0 < p 0) (hθ : p 1 ∈ Set.Ioo 0 Real.pi)
    (hφ : p 2 ∈ Set.Ioc (-Real.pi) Real.pi) : sphericalOfCartesian (cartesianOfSpherical p) = p := by
  obtain ⟨h0, h1, _⟩ := spherical_cartesian_spherical hr hθ
  have hs : 0 < Real.sin (p 1) := Real.sin_pos_of_pos_of_lt_pi hθ.1 hθ.2
  funext i
  fin_cases i
  · exact h0
  · exact h1
  · exact atan2_eq (mul_pos hr hs) hφ

/-! ## C38: named Cartesian coordinates -/

theorem coordinateFunction_fails : ∃ (i : Fin 3) (x : Vec 3), coordinateFunction i x ≠ x i :=
  ⟨2, ![0, 0, 1], by simp [coordinateFunction]⟩

/-- Only `x_2` is wrong: it is `x_1`. -/
theorem coordinateFunction_partial (x : Vec 3) :
    coordinateFunction 0 x = x 0 ∧ coordinateFunction 1 x = x 1 ∧ coordinateFunction 2 x = x 1 := ⟨rfl, rfl, rfl⟩

/-! ## C39: coordinate one-forms -/

theorem Diagonal.dual {S : System d} {A : Vec d} {h : Fin d → ℝ} (H : Diagonal S A h) (I J : Fin d) :
    S.dx I A (S.e J A) = if I = J then 1 else 0 := by
  rw [H.dx, H.basis]
  split
  · rename_i h1
    subst h1
    rw [Pi.single_eq_same, div_self (H.pos I).ne']
  · rename_i h1
    rw [Pi.single_eq_of_ne h1, zero_div]

theorem cartesian_dual (A : Vec d) (I J : Fin d) : (cartesian d).dx I A ((cartesian d).e J A) = if I = J then 1 else 0 :=
  (cartesian_diagonal d A).dual I J

theorem polar_dual {A : Vec 2} (hr : 0 < A 0) (I J : Fin 2) : polar.dx I A (polar.e J A) = if I = J then 1 else 0 :=
  (polar_diagonal hr).dual I J

theorem spherical_dual {A : Vec 3} (hr : 0 < A 0) (hs : 0 < Real.sin (A 1)) (I J : Fin 3) :
    spherical.dx I A (spherical.e J A) = if I = J then 1 else 0 :=
  (spherical_diagonal hr hs).dual I J

/-! ## C40: the metric volume form -/

theorem cartesian_w (hd : 1 ≤ d) (hd' : d ≤ 3) (A : Vec d) (v : Fin d → Vec d) : (cartesian d).w A v = Matrix.det (Matrix.of v) :=
  (cartesian_diagonal d A).w hd hd' v

theorem polar_w {A : Vec 2} (hr : 0 < A 0) (v : Fin 2 → Vec 2) : polar.w A v = Matrix.det (Matrix.of v) :=
  (polar_diagonal hr).w (by norm_num) (by norm_num) v

theorem spherical_w {A : Vec 3} (hr : 0 < A 0) (hs : 0 < Real.sin (A 1)) (v : Fin 3 → Vec 3) :
    spherical.w A v = Matrix.det (Matrix.of v) :=
  (spherical_diagonal hr hs).w (by norm_num) (by norm_num) v

/-- the volume of a cell does not depend on the coordinates -/
theorem volume_cartesian (hd : 1 ≤ d) (hd' : d ≤ 3) (nodes : Fin (d + 1) → Vec d) :
    (cartesian d).volume nodes = simplexVolume nodes :=
  (cartesian_chart d).volume nodes (Set.mem_univ _) hd hd' (cartesian_diagonal d _)

theorem volume_polar (nodes : Fin 3 → Vec 2) (hr : 0 < nodes 0 0) :
    polar.volume nodes = (cartesian 2).volume fun a => cartesianOfPolar (nodes a) := by
  rw [volume_cartesian (by norm_num) (by norm_num)]
  exact polar_chart.volume nodes hr.ne' (by norm_num) (by norm_num) (polar_diagonal hr)

theorem volume_spherical (nodes : Fin 4 → Vec 3) (hr : 0 < nodes 0 0) (hs : 0 < Real.sin (nodes 0 1)) :
    spherical.volume nodes = (cartesian 3).volume fun a => cartesianOfSpherical (nodes a) := by
  rw [volume_cartesian (by norm_num) (by norm_num)]
  exact spherical_chart.volume nodes ⟨hr.ne', hs.ne'⟩ (by norm_num) (by norm_num) (spherical_diagonal hr hs)

/-! ## C41: vectors and forms -/

/-- the vector of a form is its metric equivalent -/
theorem Diagonal.sharp_correct {S : System d} {A : Vec d} {h : Fin d → ℝ} (H : Diagonal S A h) (v : Vec d) :
    S.sharp (fun w => v ⬝ᵥ w) A = v := by
  rw [H.sharp fun s x => by rw [dotProduct_smul, smul_eq_mul]]
  funext K
  simp

theorem Diagonal.flat_sharp {S : System d} {A : Vec d} {h : Fin d → ℝ} (H : Diagonal S A h) (v : Vec d) (K : Fin d) :
    S.sharp (S.flat v A) A K = v K / h K ^ 2 := by
  rw [H.sharp]
  · simp only [System.flat, H.oneForm]
    rw [Finset.sum_eq_single K]
    · simp
    · intro J _ hJ
      rw [Pi.single_eq_of_ne hJ]
      simp
    · simp
  · intro s x
    simp only [System.flat, H.oneForm, Finset.mul_sum]
    refine Finset.sum_congr rfl fun I _ => ?_
    simp
    ring

/-- the vector returns exactly if its components along basis vectors of a length other than one are zero -/
theorem Diagonal.flat_sharp_iff {S : System d} {A : Vec d} {h : Fin d → ℝ} (H : Diagonal S A h) (v : Vec d) :
    S.sharp (S.flat v A) A = v ↔ ∀ K, v K = 0 ∨ h K = 1 := by
  constructor
  · intro hv K
    have h1 := congrFun hv K
    rw [H.flat_sharp] at h1
    have h2 := H.pos K
    by_cases h0 : v K = 0
    · exact .inl h0
    · right
      have h3 : v K / h K ^ 2 * h K ^ 2 = v K := by field_simp
      rw [h1] at h3
      have h4 : h K ^ 2 = 1 := mul_left_cancel₀ h0 (by rw [h3, mul_one])
      nlinarith
  · intro hK
    funext K
    rw [H.flat_sharp]
    rcases hK K with h0 | h1
    · rw [h0, zero_div]
    · rw [h1, one_pow, div_one]

/-- In polar coordinates vectors do not return. -/
theorem metric_equivalent_fails : ∃ (A v : Vec 2), 0 < A 0 ∧ polar.sharp (polar.flat v A) A ≠ v := by
  refine ⟨![2, 0], ![0, 1], by simp, fun h => ?_⟩
  have h1 := ((polar_diagonal (A := ![2, 0]) (by simp)).flat_sharp_iff ![0, 1]).mp h 1
  simp at h1

theorem metric_equivalent_partial_cartesian (A v : Vec d) : (cartesian d).sharp ((cartesian d).flat v A) A = v :=
  ((cartesian_diagonal d A).flat_sharp_iff v).mpr fun _ => .inr rfl

theorem metric_equivalent_partial_polar {A : Vec 2} (hr : 0 < A 0) (v : Vec 2) :
    polar.sharp (polar.flat v A) A = v ↔ v 1 = 0 ∨ A 0 = 1 := by
  rw [(polar_diagonal hr).flat_sharp_iff]
  constructor
  · intro h
    simpa using h 1
  · intro h K
    fin_cases K
    · right; rfl
    · simpa using h

theorem metric_equivalent_partial_spherical {A : Vec 3} (hr : 0 < A 0) (hs : 0 < Real.sin (A 1)) (v : Vec 3) :
    spherical.sharp (spherical.flat v A) A = v ↔ (v 1 = 0 ∨ A 0 = 1) ∧ (v 2 = 0 ∨ A 0 * Real.sin (A 1) = 1) := by
  rw [(spherical_diagonal hr hs).flat_sharp_iff]
  constructor
  · intro h
    exact ⟨by simpa using h 1, by simpa using h 2⟩
  · rintro ⟨h1, h2⟩ K
    fin_cases K
    · right; rfl
    · simpa using h1
    · simpa using h2

/-- The other conversion, of forms to vectors, is right in all three types of coordinates. -/
theorem metric_equivalent_partial_form (v : Vec d) (u : Vec 2) (w : Vec 3) :
    (∀ A, (cartesian d).sharp (fun x => v ⬝ᵥ x) A = v) ∧ (∀ A : Vec 2, 0 < A 0 → polar.sharp (fun x => u ⬝ᵥ x) A = u) ∧
      ∀ A : Vec 3, 0 < A 0 → 0 < Real.sin (A 1) → spherical.sharp (fun x => w ⬝ᵥ x) A = w :=
  ⟨fun A => (cartesian_diagonal d A).sharp_correct v, fun _ hr => (polar_diagonal hr).sharp_correct u,
    fun _ hr hs => (spherical_diagonal hr hs).sharp_correct w⟩

/-! ## C42: the volume of a simplex -/

theorem volume_translation (x : Fin (d + 1) → Vec d) (t : Vec d) : simplexVolume (fun a => x a + t) = simplexVolume x := by
  simp only [simplexVolume, add_sub_add_right_eq_sub]

/-- the determinant of the nodes with a leading one -/
theorem simplexVolume_augmented (x : Fin (d + 1) → Vec d) :
    simplexVolume x = (d.factorial : ℝ)⁻¹ * Matrix.det (Matrix.of fun a : Fin (d + 1) => (Fin.cons 1 (x a) : Fin (d + 1) → ℝ)) := by
  rw [simplexVolume]
  congr 1
  set B : Matrix (Fin (d + 1)) (Fin (d + 1)) ℝ :=
    Matrix.of (Fin.cons (Fin.cons 1 (x 0)) fun j : Fin d => (Fin.cons 0 (x j.succ - x 0) : Fin (d + 1) → ℝ)) with hB
  have h1 : Matrix.det (Matrix.of fun a : Fin (d + 1) => (Fin.cons 1 (x a) : Fin (d + 1) → ℝ)) = B.det := by
    refine Matrix.det_eq_of_forall_row_eq_smul_add_const (fun a => if a = 0 then 0 else 1) 0 (by simp) fun i j => ?_
    induction i using Fin.cases <;> induction j using Fin.cases <;> simp [hB]
  rw [h1, Matrix.det_succ_column_zero, Fin.sum_univ_succ, Finset.sum_eq_zero]
  · simp [hB]
    congr 1
  · intro i _
    simp [hB]

theorem volume_permutation (x : Fin (d + 1) → Vec d) (σ : Equiv.Perm (Fin (d + 1))) :
    simplexVolume (fun a => x (σ a)) = ((Equiv.Perm.sign σ : ℤ) : ℝ) * simplexVolume x := by
  rw [simplexVolume_augmented, simplexVolume_augmented]
  have h := Matrix.det_permute σ (Matrix.of fun a : Fin (d + 1) => (Fin.cons 1 (x a) : Fin (d + 1) → ℝ))
  have h2 : (Matrix.of fun a : Fin (d + 1) => (Fin.cons 1 (x (σ a)) : Fin (d + 1) → ℝ)) =
    (Matrix.of fun a : Fin (d + 1) => (Fin.cons 1 (x a) : Fin (d + 1) → ℝ)).submatrix σ id := rfl
  rw [h2, h]
  ring

/-- the volume is zero exactly if the nodes lie in a plane -/
theorem volume_zero (x : Fin (d + 1) → Vec d) : simplexVolume x ≠ 0 ↔ AffineIndependent ℝ x := by
  have h1 : simplexVolume x ≠ 0 ↔ IsUnit (Matrix.of fun j : Fin d => x j.succ - x 0) := by
    rw [Matrix.isUnit_iff_isUnit_det, isUnit_iff_ne_zero, simplexVolume]
    have : (d.factorial : ℝ)⁻¹ ≠ 0 := inv_ne_zero (by exact_mod_cast d.factorial_ne_zero)
    simp [this]
  rw [h1, ← Matrix.linearIndependent_rows_iff_isUnit, affineIndependent_iff_linearIndependent_vsub ℝ x 0]
  rw [← linearIndependent_equiv (finSuccAboveEquiv (0 : Fin (d + 1)))]
  rfl

/-- reflecting the cell changes the sign -/
theorem volume_swap (x : Fin (d + 1) → Vec d) {a b : Fin (d + 1)} (h : a ≠ b) :
    simplexVolume (fun i => x (Equiv.swap a b i)) = -simplexVolume x := by
  rw [volume_permutation, Equiv.Perm.sign_swap h]
  simp

/-- under a linear map the volume is multiplied by the determinant -/
theorem volume_linear (x : Fin (d + 1) → Vec d) (M : Mat d) :
    simplexVolume (fun a => Matrix.mulVec M (x a)) = M.det * simplexVolume x := by
  rw [simplexVolume, simplexVolume]
  have h : (Matrix.of fun j : Fin d => M.mulVec (x j.succ) - M.mulVec (x 0)) =
      (Matrix.of fun j : Fin d => x j.succ - x 0) * M.transpose := by
    ext j i
    rw [Matrix.of_apply, ← Matrix.mulVec_sub, Matrix.mul_apply]
    simp only [Matrix.mulVec, dotProduct, Matrix.transpose_apply, Matrix.of_apply]
    exact Finset.sum_congr rfl fun k _ => mul_comm _ _
  rw [h, Matrix.det_mul, Matrix.det_transpose]
  ring

/-! ## C72: basis and metric -/

theorem cartesian_basis : CoordinateBasis (cartesian d) id fun _ => 1 := by
  intro A I
  rw [hasDerivAt_pi]
  intro i
  by_cases h : i = I
  · subst h
    simp only [cartesian, id, Function.update_self, Matrix.one_mulVec, Pi.single_eq_same]
    exact hasDerivAt_id' (A i)
  · simpa [cartesian, h] using hasDerivAt_const (A I) (A i)

theorem polar_basis : CoordinateBasis polar cartesianOfPolar polarFrame := by
  intro A I
  rw [hasDerivAt_pi]
  intro i
  fin_cases I <;> fin_cases i
  · simpa [cartesianOfPolar, polar, polarBasis, polarFrame, Matrix.mulVec, dotProduct, Fin.sum_univ_two] using
      (hasDerivAt_id (A 0)).mul_const (Real.cos (A 1))
  · simpa [cartesianOfPolar, polar, polarBasis, polarFrame, Matrix.mulVec, dotProduct, Fin.sum_univ_two] using
      (hasDerivAt_id (A 0)).mul_const (Real.sin (A 1))
  · simpa [cartesianOfPolar, polar, polarBasis, polarFrame, Matrix.mulVec, dotProduct, Fin.sum_univ_two, mul_comm] using
      (Real.hasDerivAt_cos (A 1)).const_mul (A 0)
  · simpa [cartesianOfPolar, polar, polarBasis, polarFrame, Matrix.mulVec, dotProduct, Fin.sum_univ_two, mul_comm] using
      (Real.hasDerivAt_sin (A 1)).const_mul (A 0)

theorem spherical_basis : CoordinateBasis spherical cartesianOfSpherical sphericalFrame := by
  intro A I
  rw [hasDerivAt_pi]
  intro i
  fin_cases I <;> fin_cases i <;>
    simp [cartesianOfSpherical, spherical, sphericalBasis, sphericalFrame, Matrix.mulVec, dotProduct, Fin.sum_univ_three]
  · simpa [mul_assoc] using (hasDerivAt_id (A 0)).mul_const (Real.sin (A 1) * Real.cos (A 2))
  · simpa [mul_assoc] using (hasDerivAt_id (A 0)).mul_const (Real.sin (A 1) * Real.sin (A 2))
  · simpa using (hasDerivAt_id (A 0)).mul_const (Real.cos (A 1))
  · exact HasDerivAt.congr_deriv (((Real.hasDerivAt_sin (A 1)).const_mul (A 0)).mul_const (Real.cos (A 2))) (by ring)
  · exact HasDerivAt.congr_deriv (((Real.hasDerivAt_sin (A 1)).const_mul (A 0)).mul_const (Real.sin (A 2))) (by ring)
  · exact HasDerivAt.congr_deriv ((Real.hasDerivAt_cos (A 1)).const_mul (A 0)) (by ring)
  · exact HasDerivAt.congr_deriv ((Real.hasDerivAt_cos (A 2)).const_mul (A 0 * Real.sin (A 1))) (by ring)
  · exact HasDerivAt.congr_deriv ((Real.hasDerivAt_sin (A 2)).const_mul (A 0 * Real.sin (A 1))) (by ring)
  · exact hasDerivAt_const _ _

theorem gram_cartesian : GramMetric (cartesian d) := by
  intro A I J
  simp [cartesian, Matrix.one_apply, Pi.single_apply, eq_comm]

theorem gram_polar : GramMetric polar := by
  intro A I J
  fin_cases I <;> fin_cases J <;> simp [polar, polarMetric, polarBasis, dotProduct, Fin.sum_univ_two, sq]

theorem gram_spherical : GramMetric spherical := by
  intro A I J
  fin_cases I <;> fin_cases J <;> simp [spherical, sphericalMetric, sphericalBasis, dotProduct, Fin.sum_univ_three] <;> ring

/-! ## C73: volumes of lines and surfaces -/

theorem parallelotope_isometry {n : Nat} (Q : Mat d) (h : Q.transpose * Q = 1) (v : Fin n → Vec d) :
    parallelotope (fun a => Matrix.mulVec Q (v a)) = parallelotope v := by
  simp only [parallelotope]
  congr 4
  funext i j
  rw [Matrix.dotProduct_mulVec, ← Matrix.mulVec_transpose, Matrix.mulVec_mulVec, h, Matrix.one_mulVec]

/-- orthonormal vectors complete a parallelotope without changing its volume -/
theorem det_append {k n : Nat} (u : Fin k → Vec (k + n)) (v : Fin n → Vec (k + n)) (hu : ∀ a b, u a ⬝ᵥ u b = if a = b then 1 else 0)
    (huv : ∀ a b, u a ⬝ᵥ v b = 0) : |Matrix.det (Matrix.of (Fin.append u v))| = parallelotope v := by
  set M : Mat (k + n) := Matrix.of (Fin.append u v) with hM
  have h1 : M.det ^ 2 = Matrix.det (Matrix.of fun i j : Fin n => v i ⬝ᵥ v j) := by
    have h2 : M.det ^ 2 = (M * M.transpose).det := by rw [Matrix.det_mul, Matrix.det_transpose, sq]
    have h4 : ∀ a b, (M * M.transpose) a b = M a ⬝ᵥ M b := fun a b => rfl
    have h5 : ∀ a, M (Fin.castAdd n a) = u a := fun a => by rw [hM]; exact Fin.append_left u v a
    have h6 : ∀ a, M (Fin.natAdd k a) = v a := fun a => by rw [hM]; exact Fin.append_right u v a
    clear_value M
    have h3 : (M * M.transpose).submatrix finSumFinEquiv finSumFinEquiv =
        Matrix.fromBlocks (1 : Mat k) 0 0 (Matrix.of fun i j : Fin n => v i ⬝ᵥ v j) := by
      ext i j
      rcases i with i | i <;> rcases j with j | j
      · simp [h4, h5, hu, Matrix.one_apply]
      · simp [h4, h5, h6, huv]
      · simp [h4, h5, h6, huv, dotProduct_comm (v i)]
      · simp [h4, h6]
    rw [h2, ← Matrix.det_submatrix_equiv_self finSumFinEquiv, h3, Matrix.det_fromBlocks_zero₁₂]
    simp
  rw [parallelotope, ← h1, Real.sqrt_sq_eq_abs]

theorem Chart.subVolume {k n : Nat} {S : System (k + n)} {dom : Set (Vec (k + n))} {pos : Vec (k + n) → Vec (k + n)}
    {frame : Vec (k + n) → Mat (k + n)} (C : Chart S dom pos frame) (normals : Fin k → Vec (k + n) → Vec (k + n))
    (nodes : Fin (n + 1) → Vec (k + n)) (h0 : nodes 0 ∈ dom) (hd : 1 ≤ k + n) (hd' : k + n ≤ 3) {h : Fin (k + n) → ℝ}
    (H : Diagonal S (nodes 0) h) (hu : ∀ a b, normals a (nodes 0) ⬝ᵥ normals b (nodes 0) = if a = b then 1 else 0)
    (huv : ∀ a b, normals a (nodes 0) ⬝ᵥ S.directors nodes b = 0) :
    |System.subVolume S normals nodes| = (n.factorial : ℝ)⁻¹ * parallelotope fun j : Fin n => pos (nodes j.succ) - pos (nodes 0) := by
  rw [System.subVolume, H.w hd hd', abs_mul, det_append _ _ hu huv, show (1.0 : ℝ) / (n.factorial : ℝ) = (n.factorial : ℝ)⁻¹ by norm_num,
    abs_of_nonneg (by positivity)]
  congr 1
  rw [← parallelotope_isometry (frame (nodes 0)) (C.orthogonal _)]
  congr 1
  funext j
  rw [← C.sub _ h0]
  rfl

/-- the length of a segment is the distance of its nodes -/
theorem parallelotope_one (v : Fin 1 → Vec d) : parallelotope v = norm (v 0) := by
  rw [parallelotope, norm, Matrix.det_fin_one]
  rfl

/-- the area of a parallelogram in space is the length of the cross product -/
theorem parallelotope_two (u v : Vec 3) : parallelotope ![u, v] =
    norm ![u 1 * v 2 - u 2 * v 1, u 2 * v 0 - u 0 * v 2, u 0 * v 1 - u 1 * v 0] := by
  rw [parallelotope, norm, Matrix.det_fin_two]
  congr 1
  simp [dotProduct, Fin.sum_univ_three]
  ring

/-- the volume of a segment in the plane with the given unit normal, up to the sign that the normal determines -/
theorem subVolume_segment (n : Vec 2 → Vec 2) (nodes : Fin 2 → Vec 2) (hn : n (nodes 0) ⬝ᵥ n (nodes 0) = 1)
    (ht : n (nodes 0) ⬝ᵥ (nodes 1 - nodes 0) = 0) :
    |System.subVolume (k := 1) (n := 1) (cartesian 2) (fun _ => n) nodes| = (cartesian 2).distance (nodes 1) (nodes 0) := by
  rw [Chart.subVolume (k := 1) (n := 1) (cartesian_chart 2) (fun _ => n) nodes (Set.mem_univ _) (by norm_num) (by norm_num)
    (cartesian_diagonal 2 _) (fun a b => by rw [hn, if_pos (Subsingleton.elim a b)])
    (fun a b => by rw [Subsingleton.elim b 0]; exact ht), parallelotope_one, (cartesian_chart 2).distance (Set.mem_univ _)]
  simp

/-- the volume of a triangle in space -/
theorem subVolume_triangle (n : Vec 3 → Vec 3) (nodes : Fin 3 → Vec 3) (hn : n (nodes 0) ⬝ᵥ n (nodes 0) = 1)
    (h1 : n (nodes 0) ⬝ᵥ (nodes 1 - nodes 0) = 0) (h2 : n (nodes 0) ⬝ᵥ (nodes 2 - nodes 0) = 0) :
    |System.subVolume (k := 1) (n := 2) (cartesian 3) (fun _ => n) nodes| =
      1 / 2 * parallelotope fun j : Fin 2 => nodes j.succ - nodes 0 := by
  rw [Chart.subVolume (k := 1) (n := 2) (cartesian_chart 3) (fun _ => n) nodes (Set.mem_univ _) (by norm_num) (by norm_num)
    (cartesian_diagonal 3 _) (fun a b => by rw [hn, if_pos (Subsingleton.elim a b)])
    (fun a b => by fin_cases b; exacts [h1, h2])]
  simp [Nat.factorial]

/-! ## The premises can be met -/

example : (![1, 2] : Vec 2) 0 ≠ 0 ∧ 0 < (![1, 2] : Vec 2) 0 ∧ (![1, 2] : Vec 2) 1 ∈ Set.Ioc (-Real.pi) Real.pi := by
  have := Real.pi_gt_three
  refine ⟨by simp, by simp, ?_, ?_⟩ <;> simp <;> linarith

example : 0 < (![1, 1, 2] : Vec 3) 0 ∧ 0 < Real.sin ((![1, 1, 2] : Vec 3) 1) ∧ (![1, 1, 2] : Vec 3) 1 ∈ Set.Ioo 0 Real.pi := by
  have := Real.pi_gt_three
  exact ⟨by simp, Real.sin_pos_of_pos_of_lt_pi (by simp) (by simp; linarith), by simp, by simp; linarith⟩

/-- the midpoint of `(1, 0)` and `(1, π/2)` is at `(1/2, 1/2)` -/
example : cartesianOfPolar (polar.midpoint ![1, 0] ![1, Real.pi / 2]) = ![1 / 2, 1 / 2] := by
  rw [polar_midpoint (by simp)]
  funext i
  fin_cases i <;> simp [cartesianOfPolar]

/-- the area of a triangle given in polar coordinates -/
example : polar.volume ![![1, 0], ![1, Real.pi / 2], ![1, Real.pi]] = 1 := by
  rw [volume_polar _ (by simp), volume_cartesian (by norm_num) (by norm_num), simplexVolume, Matrix.det_fin_two]
  simp [cartesianOfPolar]
  norm_num

/-- a triangle in space -/
example : |System.subVolume (k := 1) (n := 2) (cartesian 3) (fun _ _ => ![0, 0, 1]) ![![0, 0, 1], ![2, 0, 1], ![0, 3, 1]]| = 3 := by
  rw [subVolume_triangle _ _ (by simp [dotProduct, Fin.sum_univ_three]) (by simp [dotProduct, Fin.sum_univ_three])
    (by simp [dotProduct, Fin.sum_univ_three]), parallelotope, Matrix.det_fin_two]
  have h : Real.sqrt (4 * 9) = 6 := by
    rw [show (4 * 9 : ℝ) = 6 ^ 2 by norm_num, Real.sqrt_sq (by norm_num)]
  simp [dotProduct, Fin.sum_univ_three, h]

example : simplexVolume ![![0, 0], ![1, 0], ![0, 1]] ≠ (0 : ℝ) := by
  rw [simplexVolume, Matrix.det_fin_two]
  simp

end Mito.Geometry
