import Verif.Quadrature.CosineLemmas
import Verif.Props.Parallel
import Verif.Props.RefineIntegral

/-!
# The integrals of `cos (x y)` over the unit square (C129)

The tests compare the result of the quadrature with a number that they call exact.
-/

namespace Mito.CosineTests

open MeasureTheory Mito.Functions Mito.Quadrature Mito.Load Mito.Parallel Mito.Refine Mito.Geometry Mito.Meshes

/-- **C129.**  The integral of `cos (x y)` over the unit square. -/
theorem exact_value : |(∫ x in (0 : ℝ)..1, ∫ y in (0 : ℝ)..1, Real.cos (x * y)) - 0.9460830703671| ≤ 3 / 10 ^ 11 := by
  have h := integral_error
  have h1 : |((polyIntegral : ℚ) : ℝ) - 0.9460830703671| ≤ 1 / 10 ^ 11 := by
    norm_num [polyIntegral, abs_le]
  have h2 : ((cosError : ℚ) : ℝ) = 2 / 10 ^ 11 := by norm_num [cosError]
  rw [h2] at h
  rw [abs_le] at *
  constructor <;> linarith [h.1, h.2, h1.1, h1.2]

/-- **C129.**  The number that the tests and the benchmark call exact is wrong from the eighth digit on: it is smaller than the integral. -/
theorem exact_wrong : (∫ x in (0 : ℝ)..1, ∫ y in (0 : ℝ)..1, Real.cos (x * y)) - exact ∈ Set.Icc (0.0000000095 : ℝ) 0.0000000097 := by
  have h := exact_value
  rw [abs_le] at h
  have h2 : ((exact : ℚ) : ℝ) = 0.9460830607878437 := by norm_num [exact]
  rw [h2]
  constructor <;> norm_num at * <;> linarith [h.1, h.2]

/-- the sum over the points of the file -/
theorem square_rational : |rationalSum squareMesh.1 squareMesh.2 (fun a b => cosPoly (a * b)) - 0.94608306013| ≤ 1 / 10 ^ 11 := by
  decide +kernel

theorem square_points : ∀ c ∈ squareMesh.2, ∀ p ∈ triangle2,
    |pointOf squareMesh.1 c p.1 0 * pointOf squareMesh.1 c p.1 1| ≤ 1 := by decide +kernel

theorem square_cells : ∀ c ∈ squareMesh.2, c.length = 3 ∧ (∀ i ∈ c, i < squareMesh.1.length) ∧ c.Nodup := by
  obtain ⟨-, hv, -⟩ := Summit.reader_valid square_read
  intro c hc
  exact ⟨(hv c hc).1, (hv c hc).2, positive_nodup (square_conforming.1 c hc)⟩

/-- the quadrature over the triangles of the file -/
theorem square_sum : |fileSum triangle2 squareMesh.1 squareMesh.2 (fun x => cosine.eval x ()) - 0.94608306013| ≤ 3 / 10 ^ 11 := by
  have h := fileSum_cosine squareMesh.1 squareMesh.2 (fun c hc => ⟨(square_cells c hc).1, (square_conforming.1 c hc).le⟩) square_points
  rw [square_area] at h
  have h1 : |((rationalSum squareMesh.1 squareMesh.2 (fun a b => cosPoly (a * b)) : ℚ) : ℝ) - 0.94608306013| ≤ 1 / 10 ^ 11 := by
    have := (Rat.cast_le (K := ℝ)).mpr square_rational
    push_cast at this
    norm_num at this ⊢
    exact this
  norm_num [cosError] at h h1 ⊢
  rw [abs_le] at *
  constructor <;> linarith [h.1, h.2, h1.1, h1.2]

/-- **C129.**  On the mesh of tests/input/square.summit the test passes with a margin of more than 9.9e-8, in both builds.  The result is
closer to the number of the test than to the integral. -/
theorem square_test (debug : Bool) : ∃ r, result debug squareMesh.1 squareMesh.2 (fun x => cosine.eval x ()) = .value r ∧
    |r - exact| ≤ 7 / 10 ^ 10 ∧ r < exact ∧
    1 / 10 ^ 8 ≤ |r - ∫ x in (0 : ℝ)..1, ∫ y in (0 : ℝ)..1, Real.cos (x * y)| ∧
    |r - ∫ x in (0 : ℝ)..1, ∫ y in (0 : ℝ)..1, Real.cos (x * y)| ≤ 103 / 10 ^ 10 := by
  refine ⟨_, result_eq _ _ _ _, ?_⟩
  have h := square_sum
  have h2 := exact_value
  have he : ((exact : ℚ) : ℝ) = 0.9460830607878437 := by norm_num [exact]
  rw [he]
  rw [abs_le] at h h2
  obtain ⟨a, b⟩ := h
  obtain ⟨c, d⟩ := h2
  norm_num at a b c d ⊢
  refine ⟨abs_le.mpr ⟨by linarith, by linarith⟩, by linarith, ?_, abs_le.mpr ⟨by linarith, by linarith⟩⟩
  rw [abs_of_nonpos (by linarith)]
  linarith

/-- **C129.**  The test with MPI prints the same number and passes for every number of tasks, whatever the partitioner paints and whatever
addresses the tasks use. -/
theorem parallel_test {paint : List ℕ → ℕ → ℕ → ℤ → List ℤ} (hp : LabelFree paint) (hq : Paints paint) (debug : Bool) {tasks : List Task} (hn : tasks ≠ [])
    (ht : ∀ k ∈ tasks, k.Ready squareMesh.1 squareMesh.2) : ∃ r, globalResult debug paint triangle2 tasks squareMesh.1 squareMesh.2
      (fun x => cosine.eval x ()) = some r ∧ result debug squareMesh.1 squareMesh.2 (fun x => cosine.eval x ()) = .value r ∧
      |r - exact| ≤ 7 / 10 ^ 10 := by
  obtain ⟨r, h1, h2, -⟩ := square_test debug
  refine ⟨r, ?_, h1, h2⟩
  rw [parallel_integral hp hq debug triangle2 hn square_cells (conforming_sets (fun c hc => (square_cells c hc).1) square_conforming) ht]
  rw [result_eq] at h1
  injection h1 with h1
  rw [h1]

/-- **C129.**  The test of the extension integrates a function of Python on the same mesh, and passes. -/
theorem python_test (debug : Bool) : ∃ r, result debug squareMesh.1 squareMesh.2 pythonCosine = .value r ∧ |r - 0.946083| < 1 / 10 ^ 6 := by
  obtain ⟨r, h1, h2, h3, -⟩ := square_test debug
  refine ⟨r, h1, ?_⟩
  have he : ((exact : ℚ) : ℝ) = 0.9460830607878437 := by norm_num [exact]
  rw [he] at h2 h3
  rw [abs_le] at h2
  rw [abs_lt]
  norm_num at h2 h3 ⊢
  constructor <;> linarith [h2.1, h2.2]

/-- **C129.**  On four triangles the test with the cosine passes although the error is more than 1e-4. -/
theorem four_test (debug : Bool) : ∃ r, result debug fourCoords fourCells (fun x => cosine.eval x ()) = .value r ∧
    |r - exact| < 1 / 10 ^ 3 ∧ 1 / 10 ^ 4 < |r - exact| := by
  refine ⟨_, result_eq _ _ _ _, ?_⟩
  have h := fileSum_cosine fourCoords fourCells (by decide +kernel) (by decide +kernel)
  have h1 : |rationalSum fourCoords fourCells (fun a b => cosPoly (a * b)) - 0.945937| ≤ 1 / 10 ^ 5 := by decide +kernel
  have h2 := (Rat.cast_le (K := ℝ)).mpr h1
  have h3 : (fourCells.map (doubleArea fourCoords)).sum = 2 := by decide +kernel
  rw [h3] at h
  have he : ((exact : ℚ) : ℝ) = 0.9460830607878437 := by norm_num [exact]
  rw [he]
  push_cast at h2
  norm_num [cosError] at h h2 ⊢
  rw [abs_le] at h h2
  refine ⟨abs_lt.mpr ⟨by linarith [h.1, h.2, h2.1, h2.2], by linarith [h.1, h.2, h2.1, h2.2]⟩, ?_⟩
  rw [abs_of_nonpos (by linarith [h.1, h.2, h2.1, h2.2])]
  linarith [h.1, h.2, h2.1, h2.2]

/-- **C129.**  The integrals of the polynomials are exact. -/
theorem four_polynomials (debug : Bool) : result debug fourCoords fourCells (fun _ => 1) = .value 1 ∧
    result debug fourCoords fourCells (fun x => (Expr.component (a := .vec 2) 0).eval x ()) = .value (1 / 2) ∧
    result debug fourCoords fourCells (fun x => product.eval x ()) = .value (1 / 4) ∧
    result debug fourCoords fourCells (fun x => (Expr.mul (.component (a := .vec 2) 0) (.component 0)).eval x ()) = .value (1 / 3) := by
  have hl : ∀ c ∈ fourCells, c.length = 3 := by decide
  refine ⟨?_, ?_, ?_, ?_⟩ <;> rw [result_eq] <;> congr 1
  · rw [fileSum_rational _ _ hl _ (fun _ _ => 1) (by simp), show rationalSum fourCoords fourCells (fun _ _ => 1) = 1 by decide +kernel]
    norm_num
  · rw [fileSum_rational _ _ hl (fun x => (Expr.component (a := .vec 2) 0).eval x ()) (fun a _ => a) (fun x a b h _ => h), show rationalSum fourCoords fourCells (fun a _ => a) = 1 / 2 by decide +kernel]
    norm_num
  · rw [fileSum_rational _ _ hl _ (fun a b => a * b) (fun x a b h h' => by push_cast; rw [← h, ← h']; rfl),
      show rationalSum fourCoords fourCells (fun a b => a * b) = 1 / 4 by decide +kernel]
    norm_num
  · rw [fileSum_rational _ _ hl _ (fun a _ => a * a) (fun x a b h _ => by push_cast; rw [← h]; rfl),
      show rationalSum fourCoords fourCells (fun a _ => a * a) = 1 / 3 by decide +kernel]
    norm_num

/-- **C129.**  The result of the benchmark tends to the integral with the third order, for every number of subdivisions. -/
theorem benchmark_error (debug : Bool) {mesh : List (List (PNode ℝ))} (h : Flipped mesh) (N : Nat) : ∃ r, benchmark debug mesh N = .value r ∧
    |r - ∫ x in (0 : ℝ)..1, ∫ y in (0 : ℝ)..1, Real.cos (x * y)| ≤ 8 / 8 ^ N := by
  obtain ⟨a, b, ha, hb, hm⟩ := h
  have ga := good_lower ha
  have gb := good_upper hb
  obtain ⟨S, T, A, B, rfl, gA, gB, hST, hnull⟩ : ∃ S T A B, mesh = [A, B] ∧ Good S A ∧ Good T B ∧ S ∪ T = unitSquare ∧ volume (S ∩ T) = 0 := by
    rcases hm with rfl | rfl
    · exact ⟨_, _, a, b, rfl, ga, gb, two_halves, halves_null⟩
    · exact ⟨_, _, b, a, rfl, gb, ga, by rw [Set.union_comm]; exact two_halves, by rw [Set.inter_comm]; exact halves_null⟩
  have hD := domain_square gA gB hST
  have hcont : Continuous fun x : Val (.vec 2) => cosine.eval x () := by
    simp only [cosine_eval]
    fun_prop
  obtain ⟨h1, h2⟩ := rules_converge.2.1 triangle2 (by simp)
  obtain ⟨i, hi, hbd⟩ := refine_integral_order debug (n := 1) (by norm_num) h1 h2 (r := 2) (accurate_two triangle2_accurate) [A, B]
    (by simp [gA.len, gB.len]) (by simp [gA.vol, gB.vol]) 1 (by simpa using ⟨gA.size, gB.size⟩) (fun x => cosine.eval x ())
    hcont.continuousOn 4 (by norm_num) (by rw [hD]; exact cosine_taylor) N 4
  refine ⟨i, hi, ?_⟩
  rw [mesh_integral [A, B] _ hcont.continuousOn (by simpa [gA.hull, gB.hull] using hnull), hD] at hbd
  rw [← square_integral (f := fun x y => Real.cos (x * y)) (by fun_prop)]
  refine hbd.trans (le_of_eq ?_)
  have hvol : ∀ {S : Set (Val (.vec 2))} {c : List (PNode ℝ)}, Good S c → volume.real (meshHull 1 2 c) = 1 / 2 := fun {S c} g => by
    rw [meshHull, volume_hull (coords 1 2 c), g.vol, abs_of_pos (by norm_num)]
  have hsum : ([A, B].map fun c => volume.real (meshHull 1 (1 + 1) c)).sum = 1 := by
    rw [List.map_cons, List.map_cons, List.map_nil, List.sum_cons, List.sum_cons, List.sum_nil]
    have h3 := hvol gA
    have h4 := hvol gB
    norm_num at h3 h4 ⊢
    rw [h3, h4]
    norm_num
  rw [hsum, show (8 : ℝ) = 2 ^ 3 by norm_num, ← pow_mul, mul_comm 3 N, pow_mul]
  simp
  ring

/-! ## The premises can be met -/

example : Flipped [[corner 0, corner 1, corner 2], [corner 0, corner 2, corner 3]] := ⟨_, _, .refl _, .refl _, .inl rfl⟩

/-- the mesh with two subdivisions, as in the benchmark -/
example : ∃ r, benchmark true [[corner 0, corner 1, corner 2], [corner 0, corner 2, corner 3]] 2 = .value r ∧
    |r - ∫ x in (0 : ℝ)..1, ∫ y in (0 : ℝ)..1, Real.cos (x * y)| ≤ 1 / 8 := by
  obtain ⟨r, h1, h2⟩ := benchmark_error true (mesh := [[corner 0, corner 1, corner 2], [corner 0, corner 2, corner 3]])
    ⟨_, _, .refl _, .refl _, .inl rfl⟩ 2
  exact ⟨r, h1, h2.trans (by norm_num)⟩

end Mito.CosineTests
