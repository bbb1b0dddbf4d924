import Verif.Geometry.ManifoldLemmas
import Verif.Mesh.CubeLemmas
import Mathlib.Analysis.Real.Pi.Bounds

/-!
# C128: volumes of meshes in two coordinate systems, and the tests of the volumes of manifolds

For every mesh the volume is the same after a change of coordinate system if no cell starts where the coordinates are singular.  The
meshes of the tests are read from the files, and the expectations hold in real arithmetic.
-/

namespace Mito.Geometry

open Mito.Tensor Mito.Load Mito.Summit

/-! ## Every mesh -/

/-- the area of a mesh is the same in polar coordinates if no cell starts at the origin -/
theorem total_polar {cells : List (Fin 3 → Vec 2)} (h : ∀ c ∈ cells, c 0 ≠ 0) :
    total polar (changed polarOfCartesian cells) = total (cartesian 2) cells := by
  rw [total_eq, total_eq, changed, List.map_map]
  refine congrArg List.sum (List.map_congr_left fun c hc => ?_)
  rw [Function.comp_apply, volume_polar (fun a => polarOfCartesian (c a)) (radius_pos (p := c 0) (h c hc))]
  simp only [cartesian_polar_cartesian]

/-- a mesh given in polar coordinates has the same area in cartesian coordinates -/
theorem total_of_polar {cells : List (Fin 3 → Vec 2)} (h : ∀ c ∈ cells, 0 < c 0 0) :
    total (cartesian 2) (changed cartesianOfPolar cells) = total polar cells := by
  rw [total_eq, total_eq, changed, List.map_map]
  exact congrArg List.sum (List.map_congr_left fun c hc => (volume_polar c (h c hc)).symm)

/-- the volume of a mesh is the same in spherical coordinates if no cell starts on the axis -/
theorem total_spherical {cells : List (Fin 4 → Vec 3)} (h : ∀ c ∈ cells, c 0 0 ≠ 0 ∨ c 0 1 ≠ 0) :
    total spherical (changed sphericalOfCartesian cells) = total (cartesian 3) cells := by
  rw [total_eq, total_eq, changed, List.map_map]
  refine congrArg List.sum (List.map_congr_left fun c hc => ?_)
  rw [Function.comp_apply, volume_spherical (fun a => sphericalOfCartesian (c a)) (spherical_pos (p := c 0) (h c hc)).1 (spherical_pos (p := c 0) (h c hc)).2]
  simp only [cartesian_spherical_cartesian]

/-- the area of a surface with the radial direction as its normal is the same in spherical coordinates if no cell starts on the axis -/
theorem subTotal_spherical {cells : List (Fin 3 → Vec 3)} (h : ∀ c ∈ cells, c 0 0 ≠ 0 ∨ c 0 1 ≠ 0) :
    subTotal (k := 1) (n := 2) spherical (fun _ => sphericalNormal) (changed sphericalOfCartesian cells) =
      subTotal (k := 1) (n := 2) (cartesian 3) (fun _ => radialNormal) cells := by
  rw [subTotal_eq, subTotal_eq, changed, List.map_map]
  refine congrArg List.sum (List.map_congr_left fun c hc => ?_)
  rw [Function.comp_apply, subVolume_spherical (fun a => sphericalOfCartesian (c a)) (spherical_pos (p := c 0) (h c hc)).1
    (spherical_pos (p := c 0) (h c hc)).2, subVolume_cartesian, radialNormal_frame]
  simp only [cartesian_spherical_cartesian]

/-- On the axis the metric is singular, and the difference of coordinates divides by zero. -/
theorem spherical_singular {p : Vec 3} (h0 : p 0 = 0) (h1 : p 1 = 0) :
    (spherical.g (sphericalOfCartesian p)).det = 0 ∧ sphericalOfCartesian p 0 * Real.sin (sphericalOfCartesian p 1) = 0 := by
  have h : Real.sin (sphericalOfCartesian p 1) = 0 := by
    have h2 : sphericalOfCartesian p 1 = atan2 0 (p 2) := by simp [sphericalOfCartesian, h0, h1]
    have h3 : (⟨p 2, 0⟩ : ℂ) = ((p 2 : ℝ) : ℂ) := rfl
    rw [h2, atan2, h3]
    rcases le_or_gt 0 (p 2) with h4 | h4
    · rw [Complex.arg_ofReal_of_nonneg h4, Real.sin_zero]
    · rw [Complex.arg_ofReal_of_neg h4, Real.sin_pi]
  refine ⟨?_, by rw [h, mul_zero]⟩
  rw [Matrix.det_fin_three]
  simp [spherical, sphericalMetric, h]

/-! ## The disk -/

/-- tests/mito.lib/manifolds/volume_disk_change_coordinates.cc: the mesh is read, the area is the same in the two coordinate systems and
within 0.01 of `π`, and every triangle has a positive area. -/
theorem disk_area : reader 2 3 3 diskFile = .ok diskMesh ∧
    (∀ c ∈ diskMesh.2, 0 < (cartesian 2).volume (cellNodes diskMesh.1 c)) ∧
    total polar (changed polarOfCartesian (diskMesh.2.map (cellNodes diskMesh.1))) = total (cartesian 2) (diskMesh.2.map (cellNodes diskMesh.1)) ∧
    |Real.pi - total (cartesian 2) (diskMesh.2.map (cellNodes diskMesh.1))| < 0.01 := by
  refine ⟨disk_read, fun c hc => ?_, total_polar fun c hc h => ?_, ?_⟩
  · rw [volume_double (disk_lengths c hc)]
    exact_mod_cast div_pos (disk_positive c hc) (by norm_num)
  · obtain ⟨c, hc', rfl⟩ := List.mem_map.mp hc
    rcases disk_start c hc' with h1 | h1
    · exact h1 (Rat.cast_eq_zero.mp (congrFun h 0 :))
    · exact h1 (Rat.cast_eq_zero.mp (congrFun h 1 :))
  · rw [total_map (f := doubleArea diskMesh.1) (q := 2) fun c hc => volume_double (disk_lengths c hc)]
    have h1 : ((6270 / 1000 / 2 : ℚ) : ℝ) < (((diskMesh.2.map (doubleArea diskMesh.1)).sum / 2 : ℚ) : ℝ) :=
      Rat.cast_lt.mpr (div_lt_div_of_pos_right disk_sum.1 (by norm_num))
    have h2 : (((diskMesh.2.map (doubleArea diskMesh.1)).sum / 2 : ℚ) : ℝ) < ((6275 / 1000 / 2 : ℚ) : ℝ) :=
      Rat.cast_lt.mpr (div_lt_div_of_pos_right disk_sum.2 (by norm_num))
    have h3 := Real.pi_gt_d4
    have h4 := Real.pi_lt_d4
    rw [abs_lt]
    norm_num at h1 h2 h3 h4 ⊢
    constructor <;> linarith

/-! ## Half of a ball -/

/-- the cells of half of the ball that start on the axis: all at the pole -/
def poleCells : List (List Nat) := [[4, 34, 19, 91], [4, 26, 34, 91], [4, 62, 26, 91]]

/-- tests/mito.lib/manifolds/volume_half_ball.cc, in cartesian coordinates: the volume is within 0.11 of `2π / 3` and every tetrahedron
has a positive volume. -/
theorem halfBall_volume : reader 3 4 4 halfBallFile = .ok halfBallMesh ∧
    (∀ c ∈ halfBallMesh.2, 0 < (cartesian 3).volume (cellNodes halfBallMesh.1 c)) ∧
    |4 / 3 * Real.pi / 2 - total (cartesian 3) (halfBallMesh.2.map (cellNodes halfBallMesh.1))| < 0.11 := by
  refine ⟨halfBall_read, fun c hc => ?_, ?_⟩
  · rw [volume_six (halfBall_lengths c hc)]
    exact_mod_cast div_pos (halfBall_positive c hc) (by norm_num)
  · rw [total_map (f := sixVolume halfBallMesh.1) (q := 6) fun c hc => volume_six (halfBall_lengths c hc)]
    have h1 : ((1192 / 100 / 6 : ℚ) : ℝ) < (((halfBallMesh.2.map (sixVolume halfBallMesh.1)).sum / 6 : ℚ) : ℝ) :=
      Rat.cast_lt.mpr (div_lt_div_of_pos_right halfBall_sum.1 (by norm_num))
    have h2 : (((halfBallMesh.2.map (sixVolume halfBallMesh.1)).sum / 6 : ℚ) : ℝ) < ((1193 / 100 / 6 : ℚ) : ℝ) :=
      Rat.cast_lt.mpr (div_lt_div_of_pos_right halfBall_sum.2 (by norm_num))
    have h3 := Real.pi_gt_d4
    have h4 := Real.pi_lt_d4
    rw [abs_lt]
    norm_num at h1 h2 h3 h4 ⊢
    constructor <;> linarith

theorem not_onAxis {n : Nat} {coords : List (List ℚ)} {c : List Nat} (h : onAxis coords c = false) :
    cellNodes (d := 3) (n := n) coords c 0 0 ≠ 0 ∨ cellNodes (d := 3) (n := n) coords c 0 1 ≠ 0 := by
  rw [onAxis, Bool.and_eq_false_iff, decide_eq_false_iff_not, decide_eq_false_iff_not] at h
  exact h.imp (fun h h' => h (Rat.cast_eq_zero.mp h')) fun h h' => h (Rat.cast_eq_zero.mp h')

/-- In spherical coordinates, the cells that do not start on the axis have the same volume as in cartesian coordinates. -/
theorem halfBall_spherical :
    total spherical (changed sphericalOfCartesian ((halfBallMesh.2.filter fun c => !onAxis halfBallMesh.1 c).map (cellNodes halfBallMesh.1))) =
      total (cartesian 3) ((halfBallMesh.2.filter fun c => !onAxis halfBallMesh.1 c).map (cellNodes halfBallMesh.1)) := by
  refine total_spherical fun c hc => ?_
  obtain ⟨c, hc', rfl⟩ := List.mem_map.mp hc
  exact not_onAxis (by simpa using (List.mem_filter.mp hc').2)

/-- The expectation in spherical coordinates has no value in exact arithmetic: three cells start at the pole, where the differences of
coordinates divide by zero. -/
theorem halfBall_fails : halfBallMesh.2.filter (onAxis halfBallMesh.1) = poleCells ∧ ∀ c ∈ poleCells,
    cellNodes (d := 3) (n := 3) halfBallMesh.1 c 0 = ![0, 0, -1] ∧
      (spherical.g (sphericalOfCartesian (cellNodes (n := 3) halfBallMesh.1 c 0))).det = 0 ∧
      sphericalOfCartesian (cellNodes (n := 3) halfBallMesh.1 c 0) 0 * Real.sin (sphericalOfCartesian (cellNodes (n := 3) halfBallMesh.1 c 0) 1) = 0 := by
  refine ⟨halfBall_start, fun c hc => ?_⟩
  have h : cellNodes (d := 3) (n := 3) halfBallMesh.1 c 0 = ![0, 0, -1] := by
    have h1 : c.getD 0 0 = 4 := by
      simp only [poleCells, List.mem_cons, List.not_mem_nil, or_false] at hc
      rcases hc with rfl | rfl | rfl <;> rfl
    have h2 : ∀ k, coordinate halfBallMesh.1 4 k = ([0, 0, -1] : List ℚ).getD k 0 := fun k => by rw [coordinate, halfBall_pole]
    funext k
    simp only [cellNodes]
    rw [show ((0 : Fin 4) : Nat) = 0 from rfl, h1, h2]
    fin_cases k <;> simp
  rw [h]
  exact ⟨rfl, spherical_singular (by simp) (by simp)⟩

/-! ## Half of a sphere -/

/-- the cells of half of the sphere that start on the axis: all at the pole -/
def poleTriangles : List (List Nat) := [[6, 81, 49], [6, 112, 36], [6, 142, 48], [6, 171, 37]]

theorem halfSphere_norm {c : List Nat} (hc : c ∈ halfSphereMesh.2) :
    (998 : ℝ) / 1000 ≤ norm (cellNodes (d := 3) (n := 2) halfSphereMesh.1 c 0) ∧
      norm (cellNodes (d := 3) (n := 2) halfSphereMesh.1 c 0) ≤ 1002 / 1000 := by
  obtain ⟨h1, h2⟩ := halfSphere_radius c hc
  have h1' : ((998 / 1000 : ℚ) : ℝ) ≤ ((squareRadius halfSphereMesh.1 (c.getD 0 0) : ℚ) : ℝ) := Rat.cast_le.mpr h1
  have h2' : ((squareRadius halfSphereMesh.1 (c.getD 0 0) : ℚ) : ℝ) ≤ ((1002 / 1000 : ℚ) : ℝ) := Rat.cast_le.mpr h2
  rw [norm_cell]
  norm_num at h1' h2' ⊢
  constructor
  · exact Real.le_sqrt_of_sq_le (by linarith)
  · exact Real.sqrt_le_iff.mpr ⟨by norm_num, by linarith⟩

theorem sum_bounds {f g : List Nat → ℝ} {l : List (List Nat)} {a b : ℝ} (h : ∀ c ∈ l, a * g c ≤ f c ∧ f c ≤ b * g c) :
    a * (l.map g).sum ≤ (l.map f).sum ∧ (l.map f).sum ≤ b * (l.map g).sum := by
  induction l with
  | nil => simp
  | cons x l ih =>
    obtain ⟨h1, h2⟩ := ih fun c hc => h c (List.mem_cons_of_mem _ hc)
    obtain ⟨h3, h4⟩ := h x List.mem_cons_self
    simp only [List.map_cons, List.sum_cons, mul_add]
    exact ⟨by linarith, by linarith⟩

/-- tests/mito.lib/manifolds/surface_half_sphere_cartesian.cc: the area is within 0.23 of `2π` and every triangle counts positively. -/
theorem halfSphere_area : reader 3 3 3 halfSphereFile = .ok halfSphereMesh ∧
    (∀ c ∈ halfSphereMesh.2, 0 < System.subVolume (k := 1) (n := 2) (cartesian 3) (fun _ => radialNormal) (cellNodes halfSphereMesh.1 c)) ∧
    |4 * Real.pi / 2 - subTotal (k := 1) (n := 2) (cartesian 3) (fun _ => radialNormal) (halfSphereMesh.2.map (cellNodes halfSphereMesh.1))| <
      0.23 := by
  have hp : ∀ c ∈ halfSphereMesh.2, (0 : ℝ) < ((radialArea halfSphereMesh.1 c / 2 : ℚ) : ℝ) := fun c hc => by
    exact_mod_cast div_pos (halfSphere_positive c hc) (by norm_num)
  have hn : ∀ c ∈ halfSphereMesh.2, 0 < norm (cellNodes (d := 3) (n := 2) halfSphereMesh.1 c 0) := fun c hc =>
    lt_of_lt_of_le (by norm_num) (halfSphere_norm hc).1
  refine ⟨halfSphere_read, fun c hc => ?_, ?_⟩
  · rw [subVolume_radial (halfSphere_lengths c hc) (hn c hc)]
    exact mul_pos (inv_pos.mpr (hn c hc)) (hp c hc)
  · have hb := sum_bounds (l := halfSphereMesh.2) (a := 997 / 1000) (b := 1003 / 1000)
      (f := fun c => System.subVolume (k := 1) (n := 2) (cartesian 3) (fun _ => radialNormal) (cellNodes halfSphereMesh.1 c))
      (g := fun c => ((radialArea halfSphereMesh.1 c / 2 : ℚ) : ℝ)) fun c hc => by
        obtain ⟨h1, h2⟩ := halfSphere_norm hc
        beta_reduce
        rw [subVolume_radial (halfSphere_lengths c hc) (hn c hc)]
        refine ⟨mul_le_mul_of_nonneg_right ?_ (hp c hc).le, mul_le_mul_of_nonneg_right ?_ (hp c hc).le⟩
        · exact (le_inv_comm₀ (by norm_num) (hn c hc)).mpr (h2.trans (by norm_num))
        · exact (inv_le_comm₀ (hn c hc) (by norm_num)).mpr (le_trans (by norm_num) h1)
    rw [sum_cast] at hb
    have h1 : ((1234 / 100 / 2 : ℚ) : ℝ) < (((halfSphereMesh.2.map (radialArea halfSphereMesh.1)).sum / 2 : ℚ) : ℝ) :=
      Rat.cast_lt.mpr (div_lt_div_of_pos_right halfSphere_sum.1 (by norm_num))
    have h2 : (((halfSphereMesh.2.map (radialArea halfSphereMesh.1)).sum / 2 : ℚ) : ℝ) < ((1235 / 100 / 2 : ℚ) : ℝ) :=
      Rat.cast_lt.mpr (div_lt_div_of_pos_right halfSphere_sum.2 (by norm_num))
    have h3 := Real.pi_gt_d4
    have h4 := Real.pi_lt_d4
    rw [subTotal_eq, List.map_map, abs_lt]
    change _ ∧ _ - (List.map (fun c => _) _).sum < _
    obtain ⟨hb1, hb2⟩ := hb
    simp only [Function.comp_def]
    norm_num at h1 h2 h3 h4 hb1 hb2 ⊢
    constructor <;> linarith

/-- tests/mito.lib/manifolds/surface_half_sphere_spherical.cc: the triangles that do not start on the axis have the same area. -/
theorem halfSphere_spherical :
    subTotal (k := 1) (n := 2) spherical (fun _ => sphericalNormal)
        (changed sphericalOfCartesian ((halfSphereMesh.2.filter fun c => !onAxis halfSphereMesh.1 c).map (cellNodes halfSphereMesh.1))) =
      subTotal (k := 1) (n := 2) (cartesian 3) (fun _ => radialNormal)
        ((halfSphereMesh.2.filter fun c => !onAxis halfSphereMesh.1 c).map (cellNodes halfSphereMesh.1)) := by
  refine subTotal_spherical fun c hc => ?_
  obtain ⟨c, hc', rfl⟩ := List.mem_map.mp hc
  exact not_onAxis (by simpa using (List.mem_filter.mp hc').2)

/-- Four triangles start at the pole. -/
theorem halfSphere_fails : halfSphereMesh.2.filter (onAxis halfSphereMesh.1) = poleTriangles ∧ ∀ c ∈ poleTriangles,
    cellNodes (d := 3) (n := 2) halfSphereMesh.1 c 0 = ![0, 0, -1] ∧
      (spherical.g (sphericalOfCartesian (cellNodes (n := 2) halfSphereMesh.1 c 0))).det = 0 ∧
      sphericalOfCartesian (cellNodes (n := 2) halfSphereMesh.1 c 0) 0 *
        Real.sin (sphericalOfCartesian (cellNodes (n := 2) halfSphereMesh.1 c 0) 1) = 0 := by
  refine ⟨halfSphere_start, fun c hc => ?_⟩
  have h : cellNodes (d := 3) (n := 2) halfSphereMesh.1 c 0 = ![0, 0, -1] := by
    have h1 : c.getD 0 0 = 6 := by
      simp only [poleTriangles, List.mem_cons, List.not_mem_nil, or_false] at hc
      rcases hc with rfl | rfl | rfl | rfl <;> rfl
    have h2 : ∀ k, coordinate halfSphereMesh.1 6 k = ([0, 0, -1] : List ℚ).getD k 0 := fun k => by rw [coordinate, halfSphere_pole]
    funext k
    simp only [cellNodes]
    rw [show ((0 : Fin 3) : Nat) = 0 from rfl, h1, h2]
    fin_cases k <;> simp
  rw [h]
  exact ⟨rfl, spherical_singular (by simp) (by simp)⟩

/-! ## The cube -/

/-- the determinant of the vertices is the absolute value of the volume of the manifold -/
theorem determinantVolume_eq (cell : Fin 4 → Vec 3) : determinantVolume cell = |(cartesian 3).volume cell| := by
  have h : Matrix.det (Matrix.of fun v : Fin 4 => (Fin.snoc (cell v) 1 : Fin 4 → ℝ)) =
      -Matrix.det (Matrix.of fun j : Fin 3 => cell j.succ - cell 0) := by
    have e : (Matrix.of fun v : Fin 4 => (Fin.snoc (cell v) 1 : Fin 4 → ℝ)) = !![cell 0 0, cell 0 1, cell 0 2, 1;
        cell 1 0, cell 1 1, cell 1 2, 1; cell 2 0, cell 2 1, cell 2 2, 1; cell 3 0, cell 3 1, cell 3 2, 1] := by
      ext i j
      fin_cases i <;> fin_cases j <;> rfl
    rw [e, Matrix.det_succ_row_zero, Matrix.det_fin_three]
    simp [Fin.sum_univ_succ, Matrix.det_fin_three, Fin.succAbove]
    ring
  rw [determinantVolume, volume_cartesian (by norm_num) (by norm_num), simplexVolume, h, abs_neg, abs_mul, abs_inv, Nat.abs_cast,
    div_eq_inv_mul]

/-- tests/mito.lib/geometry/cube_volume.cc: the two sums are the same, and both are the volume of the cube. -/
theorem cube_test : total (cartesian 3) (cubeMesh.2.map (cellNodes cubeMesh.1)) = 1 ∧
    ((cubeMesh.2.map (cellNodes cubeMesh.1)).map determinantVolume).sum = 1 := by
  have hl : ∀ c ∈ cubeMesh.2, c.length = 4 := fun c hc => (cube_cells c hc).1
  have h1 : total (cartesian 3) (cubeMesh.2.map (cellNodes cubeMesh.1)) = 1 := by
    rw [total_map (f := sixVolume cubeMesh.1) (q := 6) fun c hc => volume_six (hl c hc), cube_volume]
    norm_num
  refine ⟨h1, ?_⟩
  rw [← h1, total_eq]
  refine congrArg List.sum (List.map_congr_left fun c hc => ?_)
  obtain ⟨c, hc', rfl⟩ := List.mem_map.mp hc
  rw [determinantVolume_eq, abs_of_pos]
  rw [volume_six (hl c hc')]
  exact_mod_cast div_pos (cube_positive c hc') (by norm_num)

/-! ## A triangle in space -/

/-- tests/mito.lib/manifolds/triangle_3D.cc: with the normal that the test makes, the volume of a triangle is its area, for every triangle
that is not degenerate. -/
theorem triangle_area (cell : Fin 3 → Vec 3) (h : cross (cell 1 - cell 0) (cell 2 - cell 0) ≠ 0) :
    System.subVolume (k := 1) (n := 2) (cartesian 3) (fun _ => triangleNormal cell) cell =
      1 / 2 * norm (cross (cell 1 - cell 0) (cell 2 - cell 0)) := by
  have hd : ∀ a b : Vec 3, (cartesian 3).sub a b = a - b := fun _ _ => rfl
  have hn : triangleNormal cell (cell 0) = (norm (cross (cell 1 - cell 0) (cell 2 - cell 0)))⁻¹ • cross (cell 1 - cell 0) (cell 2 - cell 0) := rfl
  rw [subVolume_cartesian, hn]
  generalize cell 1 - cell 0 = u at *
  generalize cell 2 - cell 0 = v at *
  have hs : norm (cross u v) * norm (cross u v) = cross u v 0 ^ 2 + cross u v 1 ^ 2 + cross u v 2 ^ 2 := by
    rw [norm, Real.mul_self_sqrt (by simp only [dotProduct]; exact Finset.sum_nonneg fun i _ => mul_self_nonneg _)]
    simp only [dotProduct, Fin.sum_univ_three]
    ring
  have hp : norm (cross u v) ≠ 0 := fun h0 => h (by
    rw [h0] at hs
    have h1 := sq_nonneg (cross u v 0)
    have h2 := sq_nonneg (cross u v 1)
    have h3 := sq_nonneg (cross u v 2)
    have e0 : cross u v 0 = 0 := pow_eq_zero_iff (two_ne_zero) |>.mp (by linarith)
    have e1 : cross u v 1 = 0 := pow_eq_zero_iff (two_ne_zero) |>.mp (by linarith)
    have e2 : cross u v 2 = 0 := pow_eq_zero_iff (two_ne_zero) |>.mp (by linarith)
    funext i
    fin_cases i
    exacts [e0, e1, e2])
  generalize norm (cross u v) = s at *
  rw [Matrix.det_fin_three]
  simp [cross] at hs ⊢
  field_simp
  linear_combination (-1 : ℝ) * hs

/-- the triangle of the test -/
theorem triangle_test : System.subVolume (k := 1) (n := 2) (cartesian 3)
    (fun _ => triangleNormal ![![0, 0, 0], ![1, 0, 1], ![1, 1, 1]]) ![![0, 0, 0], ![1, 0, 1], ![1, 1, 1]] = 0.5 * Real.sqrt 2 := by
  have h : cross ((![1, 0, 1] : Vec 3) - ![0, 0, 0]) (![1, 1, 1] - ![0, 0, 0]) = ![-1, 0, 1] := by
    funext i
    fin_cases i <;> simp [cross]
  rw [triangle_area]
  · change 1 / 2 * norm (cross ((![1, 0, 1] : Vec 3) - ![0, 0, 0]) (![1, 1, 1] - ![0, 0, 0])) = _
    have h1 : norm (![-1, 0, 1] : Vec 3) = Real.sqrt 2 := by
      rw [norm]
      congr 1
      simp [dotProduct, Fin.sum_univ_three]
      norm_num
    rw [h, h1]
    norm_num
  · change cross ((![1, 0, 1] : Vec 3) - ![0, 0, 0]) (![1, 1, 1] - ![0, 0, 0]) ≠ 0
    rw [h]
    intro h0
    simpa using congrFun h0 0

/-- tests/mito.lib/geometry/euclidean_submanifold_metric_3D.cc:86-93: the wedge of a unit normal with the restricted volume form is the
volume form at the three basis vectors exactly if the second component of the normal is zero, as it is in the test. -/
theorem rebuilt_form_iff {n : Vec 3} :
    wedge12 (fun v => n ⬝ᵥ v) (fun y z => Matrix.det (Matrix.of ![n, y, z])) ![1, 0, 0] ![0, 1, 0] ![0, 0, 1] = n 0 ^ 2 + n 2 ^ 2 ∧
    (n ⬝ᵥ n = 1 → (wedge12 (fun v => n ⬝ᵥ v) (fun y z => Matrix.det (Matrix.of ![n, y, z])) ![1, 0, 0] ![0, 1, 0] ![0, 0, 1] = 1 ↔ n 1 = 0)) := by
  have h : wedge12 (fun v => n ⬝ᵥ v) (fun y z => Matrix.det (Matrix.of ![n, y, z])) ![1, 0, 0] ![0, 1, 0] ![0, 0, 1] = n 0 ^ 2 + n 2 ^ 2 := by
    simp [wedge12, add3, scale3, scale2, scale1, sign, Matrix.det_fin_three, dotProduct, Fin.sum_univ_three]
    ring
  refine ⟨h, fun hn => ?_⟩
  rw [h]
  simp only [dotProduct, Fin.sum_univ_three] at hn
  constructor
  · intro h1
    have h2 : n 1 ^ 2 = 0 := by linarith [hn, sq (n 0), sq (n 1), sq (n 2)]
    exact pow_eq_zero_iff (two_ne_zero) |>.mp h2
  · intro h1
    rw [h1] at hn
    linarith [sq (n 0), sq (n 2)]

/-! ## The premises can be met -/

example : ∀ c ∈ [(![![1, 0], ![0, 1], ![0, 0]] : Fin 3 → Vec 2)], c 0 ≠ 0 := by
  intro c hc h
  rw [List.mem_singleton.mp hc] at h
  simpa using congrFun h 0

/-- a triangle that starts at the origin: excluded in `total_polar` -/
example : total (cartesian 2) [![![0, 0], ![1, 0], ![0, 1]]] = 1 / 2 := by
  rw [total_eq, List.map_singleton, List.sum_singleton, volume_cartesian (by norm_num) (by norm_num), simplexVolume, Matrix.det_fin_two]
  simp [Nat.factorial]

end Mito.Geometry
