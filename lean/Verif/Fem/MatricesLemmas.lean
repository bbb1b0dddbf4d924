import Verif.Fem.QuadraticLemmas
import Verif.Spec.Matrices

/-! # Element matrices in rational numbers -/

namespace Mito.Fem

open Mito.Functions Mito.Geometry Mito.Quadrature Mito.Fem.Quadratic

/-- shape functions at a rational point -/
def shapeSegQ (ξ : Fin 1 → ℚ) : Fin 2 → ℚ := ![1 - ξ 0, ξ 0]
@[inherit_doc shapeSegQ]
def shape1Q (ξ : Fin 2 → ℚ) : Fin 3 → ℚ := ![ξ 0, ξ 1, 1 - ξ 0 - ξ 1]
@[inherit_doc shapeSegQ]
def shape2Q (ξ : Fin 2 → ℚ) : Fin 6 → ℚ :=
  ![ξ 0 * (2 * ξ 0 - 1), ξ 1 * (2 * ξ 1 - 1), (1 - ξ 0 - ξ 1) * (2 * (1 - ξ 0 - ξ 1) - 1), 4 * ξ 0 * ξ 1, 4 * ξ 1 * (1 - ξ 0 - ξ 1),
    4 * ξ 0 * (1 - ξ 0 - ξ 1)]

/-- derivatives of the quadratic shape functions by the barycentric coordinates -/
def slope2Q (ξ : Fin 2 → ℚ) : Fin 6 → Fin 3 → ℚ :=
  ![![4 * ξ 0 - 1, 0, 0], ![0, 4 * ξ 1 - 1, 0], ![0, 0, 4 * (1 - ξ 0 - ξ 1) - 1], ![4 * ξ 1, 4 * ξ 0, 0],
    ![0, 4 * (1 - ξ 0 - ξ 1), 4 * ξ 1], ![4 * (1 - ξ 0 - ξ 1), 0, 4 * ξ 0]]

/-- a table applied to a rational function -/
def applyQ {d : Nat} (t : Table d) (f : (Fin d → ℚ) → ℚ) : ℚ := (t.map fun p => p.2 * f p.1).sum

theorem applyQ_cast {d : Nat} (t : Table d) (f : (Fin d → ℚ) → ℚ) (g : (Fin d → ℝ) → ℝ) (c : ℝ)
    (h : ∀ ξ : Fin d → ℚ, g (fun i => (ξ i : ℝ)) = c * (f ξ : ℝ)) :
    (t.rule.map fun p => p.2 * g p.1).sum = c * (applyQ t f : ℝ) := by
  induction t with
  | nil => simp [Table.rule, applyQ]
  | cons p t ih =>
    simp only [Table.rule, applyQ, List.map_cons, List.sum_cons, List.map_map] at ih ⊢
    rw [ih, h]
    push_cast
    ring

theorem mass_seg_rational (t : Table 1) (x : Fin 2 → Val (.vec 1)) (a b : Fin 2) :
    mass t.rule (segP1 x) a b = length x * (applyQ t (fun ξ => shapeSegQ ξ a * shapeSegQ ξ b) : ℝ) := by
  rw [mass_sum, ← applyQ_cast t _ (fun ξ => length x * (((segP1 x).shape a).eval ξ () * ((segP1 x).shape b).eval ξ ()))]
  · congr 2
    funext p
    simp only [factor, seg1_detJ, area]
    simp
    ring
  · intro ξ
    congr 1
    obtain ⟨h0, h1⟩ := seg1_eval (fun i => (ξ i : ℝ))
    fin_cases a <;> fin_cases b <;> simp [segP1, shapeSegQ, h0, h1]

theorem mass_tri1_rational (t : Table 2) (x : Fin 3 → Val (.vec 2)) (a b : Fin 3) :
    mass t.rule (triP1 x) a b = triangleArea x * (applyQ t (fun ξ => shape1Q ξ a * shape1Q ξ b) : ℝ) := by
  rw [mass_sum, ← applyQ_cast t _ (fun ξ => triangleArea x * (((triP1 x).shape a).eval ξ () * ((triP1 x).shape b).eval ξ ()))]
  · congr 2
    funext p
    simp only [factor, tri1_detJ, area]
    simp [Nat.factorial]
    ring
  · intro ξ
    congr 1
    obtain ⟨h0, h1, h2⟩ := tri1_eval (fun i => (ξ i : ℝ))
    fin_cases a <;> fin_cases b <;> simp [triP1, shape1Q, h0, h1, h2]

theorem shape2_rational (x : Fin 3 → Val (.vec 2)) (ξ : Fin 2 → ℚ) (a : Fin 6) :
    ((triP2 x).shape a).eval (fun i => (ξ i : ℝ)) () = (shape2Q ξ a : ℝ) := by
  obtain ⟨h0, h1, h2, h3, h4, h5⟩ := tri2_eval (fun i => (ξ i : ℝ))
  fin_cases a <;> simp [triP2, shape2Q, h0, h1, h2, h3, h4, h5]

theorem mass_tri2_rational (t : Table 2) (x : Fin 3 → Val (.vec 2)) (a b : Fin 6) :
    mass t.rule (triP2 x) a b = triangleArea x * (applyQ t (fun ξ => shape2Q ξ a * shape2Q ξ b) : ℝ) := by
  rw [mass_sum, ← applyQ_cast t _ (fun ξ => triangleArea x * (((triP2 x).shape a).eval ξ () * ((triP2 x).shape b).eval ξ ()))]
  · congr 2
    funext p
    simp only [factor, tri2_detJ, area]
    simp [Nat.factorial]
    ring
  · intro ξ
    rw [shape2_rational, shape2_rational]
    push_cast
    rfl

theorem gradient2_rational {x : Fin 3 → Val (.vec 2)} (hx : triangleArea x ≠ 0) (ξ : Fin 2 → ℚ) (a : Fin 6) (k : Fin 2) :
    (triP2 x).gradient a (fun i => (ξ i : ℝ)) k = ∑ i, (slope2Q ξ a i : ℝ) * dbary x i k := by
  have h := qslope_gradient hx (Pi.single a 1) (fun i => (ξ i : ℝ)) k
  obtain ⟨b0, b1, b2⟩ := bary_param hx (fun i => (ξ i : ℝ))
  simp only [Pi.single_apply, ite_mul, one_mul, zero_mul, Finset.sum_ite_eq', Finset.mem_univ, if_true] at h
  rw [h, qslope_eq, b0, b1, b2, Fin.sum_univ_three]
  fin_cases a <;> simp [slope2Q] <;> ring

theorem stiffness1_dbary {x : Fin 3 → Val (.vec 2)} (hx : triangleArea x ≠ 0) (i j : Fin 3) :
    triangleArea x * ∑ k : Fin 2, dbary x i k * dbary x j k = stiffness1 x i j := by
  obtain ⟨⟨d0, d1, d2⟩, d3, d4, d5⟩ := dbary_eq x
  fin_cases i <;> fin_cases j <;> simp [stiffness1, edge, Fin.sum_univ_two, d0, d1, d2, d3, d4, d5] <;> field_simp <;> ring

/-- the stiffness matrix of the quadratic triangle as a combination of the entries of the linear one -/
theorem gradGrad_tri2_rational (t : Table 2) {x : Fin 3 → Val (.vec 2)} (hx : triangleArea x ≠ 0) (a b : Fin 6) :
    gradGrad t.rule (triP2 x) a b =
      ∑ i, ∑ j, (applyQ t (fun ξ => slope2Q ξ a i * slope2Q ξ b j) : ℝ) * stiffness1 x i j := by
  rw [gradGrad_sum]
  have hf : ∀ p : Val (.vec 2) × ℝ, factor (triP2 x) p = p.2 * triangleArea x := by
    intro p
    simp only [factor, tri2_detJ, area]
    simp [Nat.factorial]
    ring
  simp only [hf, ← stiffness1_dbary hx]
  induction t with
  | nil => simp [Table.rule, applyQ]
  | cons p t ih =>
    simp only [Table.rule, applyQ, List.map_cons, List.sum_cons, List.map_map] at ih ⊢
    rw [ih]
    simp only [gradient2_rational hx, Fin.sum_univ_three, Fin.sum_univ_two]
    push_cast
    ring

/-- the rows of the stiffness matrix of the linear triangle sum to zero, and it is symmetric -/
theorem stiffness1_rows (x : Fin 3 → Val (.vec 2)) :
    stiffness1 x 1 0 = stiffness1 x 0 1 ∧ stiffness1 x 2 0 = stiffness1 x 0 2 ∧ stiffness1 x 2 1 = stiffness1 x 1 2 ∧
    stiffness1 x 0 0 = -stiffness1 x 0 1 - stiffness1 x 0 2 ∧ stiffness1 x 1 1 = -stiffness1 x 0 1 - stiffness1 x 1 2 ∧
    stiffness1 x 2 2 = -stiffness1 x 0 2 - stiffness1 x 1 2 := by
  refine ⟨?_, ?_, ?_, ?_, ?_, ?_⟩ <;> simp [stiffness1, edge, Fin.sum_univ_two] <;> ring

/-- the coefficient of an entry off the diagonal once the diagonal is eliminated -/
def offQ (t : Table 2) (a b : Fin 6) (i j : Fin 3) : ℚ :=
  applyQ t (fun ξ => slope2Q ξ a i * slope2Q ξ b j) + applyQ t (fun ξ => slope2Q ξ a j * slope2Q ξ b i) -
    applyQ t (fun ξ => slope2Q ξ a i * slope2Q ξ b i) - applyQ t (fun ξ => slope2Q ξ a j * slope2Q ξ b j)

theorem gradGrad_tri2_off (t : Table 2) {x : Fin 3 → Val (.vec 2)} (hx : triangleArea x ≠ 0) (a b : Fin 6) :
    gradGrad t.rule (triP2 x) a b =
      (offQ t a b 0 1 : ℝ) * stiffness1 x 0 1 + (offQ t a b 0 2 : ℝ) * stiffness1 x 0 2 + (offQ t a b 1 2 : ℝ) * stiffness1 x 1 2 := by
  obtain ⟨h1, h2, h3, h4, h5, h6⟩ := stiffness1_rows x
  rw [gradGrad_tri2_rational _ hx]
  simp only [Fin.sum_univ_three, h1, h2, h3, h4, h5, h6, offQ]
  push_cast
  ring

/-- the coefficients in the matrix of textbooks -/
def off2 : Fin 6 → Fin 6 → Fin 3 → ℚ :=
  ![![![-1, -1, 0], ![-1 / 3, 0, 0], ![0, -1 / 3, 0], ![4 / 3, 0, 0], ![0, 0, 0], ![0, 4 / 3, 0]],
    ![![-1 / 3, 0, 0], ![-1, 0, -1], ![0, 0, -1 / 3], ![4 / 3, 0, 0], ![0, 0, 4 / 3], ![0, 0, 0]],
    ![![0, -1 / 3, 0], ![0, 0, -1 / 3], ![0, -1, -1], ![0, 0, 0], ![0, 0, 4 / 3], ![0, 4 / 3, 0]],
    ![![4 / 3, 0, 0], ![4 / 3, 0, 0], ![0, 0, 0], ![-8 / 3, -8 / 3, -8 / 3], ![0, 8 / 3, 0], ![0, 0, 8 / 3]],
    ![![0, 0, 0], ![0, 0, 4 / 3], ![0, 0, 4 / 3], ![0, 8 / 3, 0], ![-8 / 3, -8 / 3, -8 / 3], ![8 / 3, 0, 0]],
    ![![0, 4 / 3, 0], ![0, 0, 0], ![0, 4 / 3, 0], ![0, 0, 8 / 3], ![8 / 3, 0, 0], ![-8 / 3, -8 / 3, -8 / 3]]]

theorem stiffness2_off (x : Fin 3 → Val (.vec 2)) (a b : Fin 6) : stiffness2 (stiffness1 x) a b =
    (off2 a b 0 : ℝ) * stiffness1 x 0 1 + (off2 a b 1 : ℝ) * stiffness1 x 0 2 + (off2 a b 2 : ℝ) * stiffness1 x 1 2 := by
  obtain ⟨-, -, -, h4, h5, h6⟩ := stiffness1_rows x
  fin_cases a <;> fin_cases b <;> simp [stiffness2, off2, h4, h5, h6] <;> ring

end Mito.Fem
