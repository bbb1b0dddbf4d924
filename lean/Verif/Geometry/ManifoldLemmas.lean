import Verif.Geometry.Manifold
import Verif.Mesh.DiskLemmas
import Verif.Props.Coordinates

/-! # Lemmas on volumes of manifolds on meshes of files -/

namespace Mito.Geometry

open Mito.Tensor Mito.Load

variable {d : Nat}

theorem foldl_sum {α : Type} (f : α → ℝ) (l : List α) (s : ℝ) : l.foldl (fun r c => r + f c) s = s + (l.map f).sum := by
  induction l generalizing s with
  | nil => simp
  | cons a l ih => rw [List.foldl_cons, ih, List.map_cons, List.sum_cons]; ring

theorem total_eq (S : System d) (cells : List (Fin (d + 1) → Vec d)) : total S cells = (cells.map S.volume).sum := by
  rw [total, foldl_sum, zero_add]

theorem subTotal_eq {k n : Nat} (S : System (k + n)) (normals : Fin k → Vec (k + n) → Vec (k + n)) (cells : List (Fin (n + 1) → Vec (k + n))) :
    subTotal S normals cells = (cells.map (S.subVolume normals)).sum := by
  rw [subTotal, foldl_sum, zero_add]

/-- the radius is positive away from the origin -/
theorem radius_pos {p : Vec 2} (h : p ≠ 0) : 0 < polarOfCartesian p 0 := by
  refine Real.sqrt_pos.mpr ?_
  rcases eq_or_ne (p 0) 0 with h0 | h0
  · rcases eq_or_ne (p 1) 0 with h1 | h1
    · exact absurd (funext fun i => by fin_cases i <;> assumption) h
    · have := mul_self_pos.mpr h1
      nlinarith [mul_self_nonneg (p 0)]
  · have := mul_self_pos.mpr h0
    nlinarith [mul_self_nonneg (p 1)]

/-- the radius and the sine of the polar angle are positive away from the axis -/
theorem spherical_pos {p : Vec 3} (h : p 0 ≠ 0 ∨ p 1 ≠ 0) : 0 < sphericalOfCartesian p 0 ∧ 0 < Real.sin (sphericalOfCartesian p 1) := by
  have h2 : 0 < p 1 ^ 2 + p 0 ^ 2 := by
    rcases h with h | h
    · have := sq_pos_of_ne_zero h
      nlinarith [sq_nonneg (p 1)]
    · have := sq_pos_of_ne_zero h
      nlinarith [sq_nonneg (p 0)]
  have h3 : 0 < Real.sqrt (p 1 ^ 2 + p 0 ^ 2) := Real.sqrt_pos.mpr h2
  constructor
  · exact Real.sqrt_pos.mpr (by nlinarith [mul_self_nonneg (p 2)])
  · have h4 := sqrt_mul_sin (p 2) (Real.sqrt (p 1 ^ 2 + p 0 ^ 2))
    have h5 : 0 < Real.sqrt (p 2 * p 2 + Real.sqrt (p 1 ^ 2 + p 0 ^ 2) * Real.sqrt (p 1 ^ 2 + p 0 ^ 2)) :=
      Real.sqrt_pos.mpr (by nlinarith [mul_self_nonneg (p 2), mul_self_pos.mpr h3.ne'])
    have h6 : 0 < Real.sqrt (p 2 * p 2 + Real.sqrt (p 1 ^ 2 + p 0 ^ 2) * Real.sqrt (p 1 ^ 2 + p 0 ^ 2)) *
        Real.sin (atan2 (Real.sqrt (p 1 ^ 2 + p 0 ^ 2)) (p 2)) := by rw [h4]; exact h3
    exact (pos_iff_pos_of_mul_pos h6).mp h5

theorem radialNormal_frame (x : Vec 3) : radialNormal x = (sphericalFrame (sphericalOfCartesian x)).mulVec ![1, 0, 0] := by
  funext i
  fin_cases i <;> simp [radialNormal, sphericalFrame, sphericalOfCartesian, Matrix.mulVec, dotProduct, Fin.sum_univ_three]

theorem radialNormal_mul (x : Vec 3) : norm x • radialNormal x = x := by
  have h := cartesian_spherical_cartesian x
  have hn : norm x = sphericalOfCartesian x 0 := by
    simp [norm, sphericalOfCartesian, dotProduct, Fin.sum_univ_three]
  conv_rhs => rw [← h]
  funext i
  rw [hn, radialNormal_frame]
  fin_cases i <;> simp [sphericalFrame, cartesianOfSpherical, Matrix.mulVec, dotProduct, Fin.sum_univ_three] <;> ring

theorem radialNormal_eq {x : Vec 3} (h : 0 < norm x) : radialNormal x = (norm x)⁻¹ • x := by
  have h1 := congrArg ((norm x)⁻¹ • ·) (radialNormal_mul x)
  simpa only [smul_smul, inv_mul_cancel₀ h.ne', one_smul] using h1

/-- the volume of a triangle with a normal field is half of a determinant -/
theorem subVolume_cartesian (n : Vec 3 → Vec 3) (cell : Fin 3 → Vec 3) :
    System.subVolume (k := 1) (n := 2) (cartesian 3) (fun _ => n) cell =
      1 / 2 * Matrix.det (Matrix.of ![n (cell 0), cell 1 - cell 0, cell 2 - cell 0]) := by
  have h := cartesian_w (d := 3) (by norm_num) (by norm_num) (cell 0)
    (Fin.append (m := 1) (n := 2) (fun _ => n (cell 0)) ((cartesian 3).directors cell))
  unfold System.subVolume
  rw [show (1.0 : ℝ) / (Nat.factorial 2 : ℝ) = 1 / 2 by norm_num [Nat.factorial]]
  refine congrArg (1 / 2 * ·) (h.trans (congrArg Matrix.det ?_))
  ext i j
  fin_cases i <;> rfl

/-- the same triangle in spherical coordinates with the radial normal -/
theorem subVolume_spherical (cell : Fin 3 → Vec 3) (hr : 0 < cell 0 0) (hs : 0 < Real.sin (cell 0 1)) :
    System.subVolume (k := 1) (n := 2) spherical (fun _ => sphericalNormal) cell =
      1 / 2 * Matrix.det (Matrix.of ![(sphericalFrame (cell 0)).mulVec ![1, 0, 0],
        cartesianOfSpherical (cell 1) - cartesianOfSpherical (cell 0), cartesianOfSpherical (cell 2) - cartesianOfSpherical (cell 0)]) := by
  have h := spherical_w hr hs (Fin.append (m := 1) (n := 2) (fun _ => sphericalNormal (cell 0)) (spherical.directors cell))
  unfold System.subVolume
  rw [show (1.0 : ℝ) / (Nat.factorial 2 : ℝ) = 1 / 2 by norm_num [Nat.factorial]]
  refine congrArg (1 / 2 * ·) (h.trans ?_)
  have h1 : (Matrix.of ![(sphericalFrame (cell 0)).mulVec ![1, 0, 0], cartesianOfSpherical (cell 1) - cartesianOfSpherical (cell 0),
      cartesianOfSpherical (cell 2) - cartesianOfSpherical (cell 0)] : Mat 3) =
      (Matrix.of (Fin.append (m := 1) (n := 2) (fun _ => sphericalNormal (cell 0)) (spherical.directors cell)) : Mat 3) *
        (sphericalFrame (cell 0)).transpose := by
    have hA : cell 0 ∈ {A : Vec 3 | A 0 ≠ 0 ∧ Real.sin (A 1) ≠ 0} := ⟨hr.ne', hs.ne'⟩
    have h2 : ∀ (M : Mat 3) (i j : Fin 3), (M * (sphericalFrame (cell 0)).transpose) i j = (sphericalFrame (cell 0)).mulVec (M i) j := by
      intro M i j
      rw [Matrix.mul_apply, Matrix.mulVec, dotProduct]
      exact Finset.sum_congr rfl fun k _ => mul_comm _ _
    ext i j
    rw [h2]
    fin_cases i
    · rfl
    · exact (congrFun (spherical_chart.sub (cell 0) hA (cell 1)) j).symm
    · exact (congrFun (spherical_chart.sub (cell 0) hA (cell 2)) j).symm
  rw [h1, Matrix.det_mul, Matrix.det_transpose, spherical_chart.oriented, mul_one]

theorem list_three {c : List Nat} (h : c.length = 3) : ∃ i j k, c = [i, j, k] := List.length_eq_three.mp h

theorem list_four {c : List Nat} (h : c.length = 4) : ∃ i j k l, c = [i, j, k, l] := by
  match c, h with
  | [i, j, k, l], _ => exact ⟨i, j, k, l, rfl⟩

theorem volume_double {coords : List (List ℚ)} {c : List Nat} (h : c.length = 3) :
    (cartesian 2).volume (cellNodes coords c) = ((doubleArea coords c / 2 : ℚ) : ℝ) := by
  obtain ⟨i, j, k, rfl⟩ := list_three h
  rw [volume_cartesian (by norm_num) (by norm_num), simplexVolume, Matrix.det_fin_two]
  simp [cellNodes, doubleArea, Nat.factorial]
  ring

theorem volume_six {coords : List (List ℚ)} {c : List Nat} (h : c.length = 4) :
    (cartesian 3).volume (cellNodes coords c) = ((sixVolume coords c / 6 : ℚ) : ℝ) := by
  obtain ⟨i, j, k, l, rfl⟩ := list_four h
  rw [volume_cartesian (by norm_num) (by norm_num), simplexVolume, Matrix.det_fin_three]
  simp [cellNodes, sixVolume, Nat.factorial]
  ring

theorem norm_cell {coords : List (List ℚ)} {c : List Nat} :
    norm (cellNodes (d := 3) (n := 2) coords c 0) = Real.sqrt ((squareRadius coords (c.getD 0 0) : ℚ) : ℝ) := by
  rw [norm]
  congr 1
  simp [cellNodes, squareRadius, dotProduct, Fin.sum_univ_three]
  ring

theorem subVolume_radial {coords : List (List ℚ)} {c : List Nat} (h : c.length = 3) (hr : 0 < norm (cellNodes (d := 3) (n := 2) coords c 0)) :
    System.subVolume (k := 1) (n := 2) (cartesian 3) (fun _ => radialNormal) (cellNodes coords c) =
      (norm (cellNodes (d := 3) (n := 2) coords c 0))⁻¹ * ((radialArea coords c / 2 : ℚ) : ℝ) := by
  obtain ⟨i, j, k, rfl⟩ := list_three h
  rw [subVolume_cartesian, radialNormal_eq hr, Matrix.det_fin_three]
  generalize (norm (cellNodes (d := 3) (n := 2) coords [i, j, k] 0))⁻¹ = s
  simp [cellNodes, radialArea]
  ring

theorem sum_cast {α : Type} (f : α → ℚ) (q : ℚ) (l : List α) : (l.map fun c => ((f c / q : ℚ) : ℝ)).sum = (((l.map f).sum / q : ℚ) : ℝ) := by
  induction l with
  | nil => simp
  | cons a l ih => simp only [List.map_cons, List.sum_cons, ih, add_div, Rat.cast_add]

theorem total_map {d : Nat} {S : System d} {g : List Nat → Fin (d + 1) → Vec d} {f : List Nat → ℚ} {q : ℚ} {l : List (List Nat)}
    (h : ∀ c ∈ l, S.volume (g c) = ((f c / q : ℚ) : ℝ)) : total S (l.map g) = (((l.map f).sum / q : ℚ) : ℝ) := by
  rw [total_eq, List.map_map, ← sum_cast]
  exact congrArg List.sum (List.map_congr_left h)

end Mito.Geometry
