import Verif.Fem.MatricesLemmas
import Verif.Fem.BlockTests
import Verif.Props.MaximumPrinciple

/-! # C120: the element matrices are those of textbooks -/

namespace Mito.Fem

open Mito.Functions Mito.Geometry Mito.Quadrature

/-- a bound on rational numbers, times a real number -/
theorem scaled_close (c : ℝ) {p q ε : ℚ} (h : |p - q| ≤ ε) : |c * (p : ℝ) - c * (q : ℝ)| ≤ (ε : ℝ) * |c| := by
  rw [← mul_sub, abs_mul, mul_comm]
  refine mul_le_mul_of_nonneg_right ?_ (abs_nonneg _)
  have := (Rat.cast_le (K := ℝ)).mpr h
  push_cast at this
  exact this

/-- **C120.**  The mass matrix of every segment with the rule of degree two is the length times 1/3 or 1/6, up to the 15 digits of the
table. -/
theorem mass_segment_close (x : Fin 2 → Val (.vec 1)) (a b : Fin 2) :
    |mass segment2.rule (segP1 x) a b - length x * (massSeg a b : ℝ)| ≤ ((7 / 10 ^ 17 : ℚ) : ℝ) * |length x| := by
  rw [mass_seg_rational]
  refine scaled_close _ ?_
  revert a b
  decide +kernel

/-- **C120.**  The mass matrix of every linear triangle with the rule of degree four is the area times 1/6 or 1/12, up to the digits of the
table; with the rule of degree two it is so exactly. -/
theorem mass_linear_close (x : Fin 3 → Val (.vec 2)) (a b : Fin 3) :
    |mass triangle4.rule (triP1 x) a b - triangleArea x * (mass1 a b : ℝ)| ≤ ((1 / 10 ^ 22 : ℚ) : ℝ) * |triangleArea x| ∧
    mass triangle2.rule (triP1 x) a b = triangleArea x * (mass1 a b : ℝ) := by
  rw [mass_tri1_rational, mass_tri1_rational]
  constructor
  · refine scaled_close _ ?_
    revert a b
    decide +kernel
  · congr 2
    revert a b
    decide +kernel

/-- **C120.**  The mass matrix of every quadratic triangle with the rule of degree four is the area times the matrix of textbooks, up to
the digits of the table. -/
theorem mass_quadratic_close (x : Fin 3 → Val (.vec 2)) (a b : Fin 6) :
    |mass triangle4.rule (triP2 x) a b - triangleArea x * (mass2 a b : ℝ)| ≤ ((1 / 10 ^ 22 : ℚ) : ℝ) * |triangleArea x| := by
  rw [mass_tri2_rational]
  refine scaled_close _ ?_
  revert a b
  decide +kernel

/-- With the rule of degree two it is singular: the function that is 1 at the vertices and 0 at the middles of the edges vanishes at
the three points of the rule. -/
theorem mass_quadratic_low_degree (x : Fin 3 → Val (.vec 2)) (a : Fin 6) :
    mass triangle2.rule (triP2 x) a 0 + mass triangle2.rule (triP2 x) a 1 + mass triangle2.rule (triP2 x) a 2 = 0 := by
  simp only [mass_tri2_rational]
  rw [← mul_add, ← mul_add]
  have h : ∀ a : Fin 6, applyQ triangle2 (fun ξ => shape2Q ξ a * shape2Q ξ 0) + applyQ triangle2 (fun ξ => shape2Q ξ a * shape2Q ξ 1) +
      applyQ triangle2 (fun ξ => shape2Q ξ a * shape2Q ξ 2) = 0 := by decide +kernel
  have := congrArg (Rat.cast : ℚ → ℝ) (h a)
  push_cast at this
  rw [this, mul_zero]

/-- **C120.**  The stiffness matrix of every quadratic triangle with the rule of degree two is that of textbooks. -/
theorem gradGrad_quadratic (x : Fin 3 → Val (.vec 2)) (hx : triangleArea x ≠ 0) (a b : Fin 6) :
    gradGrad triangle2.rule (triP2 x) a b = stiffness2 (stiffness1 x) a b := by
  rw [gradGrad_tri2_off _ hx, stiffness2_off]
  have h : ∀ a b : Fin 6, offQ triangle2 a b 0 1 = off2 a b 0 ∧ offQ triangle2 a b 0 2 = off2 a b 1 ∧ offQ triangle2 a b 1 2 = off2 a b 2 := by
    decide +kernel
  obtain ⟨h0, h1, h2⟩ := h a b
  rw [h0, h1, h2]

/-- **C120.**  With the rule of degree four it is so up to the digits of the table. -/
theorem gradGrad_quadratic_close (x : Fin 3 → Val (.vec 2)) (hx : triangleArea x ≠ 0) (a b : Fin 6) :
    |gradGrad triangle4.rule (triP2 x) a b - stiffness2 (stiffness1 x) a b| ≤
      ((4 / 10 ^ 21 : ℚ) : ℝ) * (|stiffness1 x 0 1| + |stiffness1 x 0 2| + |stiffness1 x 1 2|) := by
  rw [gradGrad_tri2_off _ hx, stiffness2_off]
  have h : ∀ a b : Fin 6, |offQ triangle4 a b 0 1 - off2 a b 0| ≤ 4 / 10 ^ 21 ∧ |offQ triangle4 a b 0 2 - off2 a b 1| ≤ 4 / 10 ^ 21 ∧
      |offQ triangle4 a b 1 2 - off2 a b 2| ≤ 4 / 10 ^ 21 := by decide +kernel
  obtain ⟨h0, h1, h2⟩ := h a b
  have e0 := scaled_close (stiffness1 x 0 1) h0
  have e1 := scaled_close (stiffness1 x 0 2) h1
  have e2 := scaled_close (stiffness1 x 1 2) h2
  have e : ((offQ triangle4 a b 0 1 : ℝ) * stiffness1 x 0 1 + (offQ triangle4 a b 0 2 : ℝ) * stiffness1 x 0 2 +
      (offQ triangle4 a b 1 2 : ℝ) * stiffness1 x 1 2) - ((off2 a b 0 : ℝ) * stiffness1 x 0 1 + (off2 a b 1 : ℝ) * stiffness1 x 0 2 +
      (off2 a b 2 : ℝ) * stiffness1 x 1 2) =
      (stiffness1 x 0 1 * (offQ triangle4 a b 0 1 : ℝ) - stiffness1 x 0 1 * (off2 a b 0 : ℝ)) +
      (stiffness1 x 0 2 * (offQ triangle4 a b 0 2 : ℝ) - stiffness1 x 0 2 * (off2 a b 1 : ℝ)) +
      (stiffness1 x 1 2 * (offQ triangle4 a b 1 2 : ℝ) - stiffness1 x 1 2 * (off2 a b 2 : ℝ)) := by ring
  rw [e]
  refine (abs_add_three _ _ _).trans ?_
  rw [mul_add, mul_add]
  linarith

/-- The stiffness matrices of segments and linear triangles: for every rule, up to the sum of its weights (C52, C81); here it is 1 up to
the digits of the table. -/
theorem weights_close : (segment2.rule.map fun p => p.2).sum = 1 ∧ (triangle2.rule.map fun p => p.2).sum = 1 ∧
    |(triangle4.rule.map fun p => p.2).sum - 1| ≤ 1 / 10 ^ 24 := by
  refine ⟨?_, ?_, ?_⟩
  · simp [Table.rule, segment2]; norm_num
  · simp [Table.rule, triangle2]; norm_num
  · simp only [Table.rule, triangle4, List.map_cons, List.map_nil, List.sum_cons, List.sum_nil]
    rw [abs_le]
    constructor <;> push_cast <;> norm_num

theorem errorNorm_le {n : Nat} {m : Fin n → Fin n → ℝ} {q m' : Fin n → Fin n → ℚ} (hm : ∀ a b, m a b = (m' a b : ℝ)) {ε : ℚ} (hε : 0 ≤ ε)
    (h : ∑ a, ∑ b, (m' a b - q a b) ^ 2 ≤ ε ^ 2) : errorNorm m q ≤ (ε : ℝ) := by
  rw [errorNorm, Real.sqrt_le_left (by exact_mod_cast hε)]
  simp only [hm]
  exact_mod_cast h

theorem testTriangle_area : triangleArea testTriangle = 1 / 2 := by
  simp [triangleArea, testTriangle]

theorem testSegment_length : length testSegment = 1 := by
  simp [length, testSegment]

/-- **C120.**  The tests of the mass matrices pass, with room for rounding. -/
theorem mass_tests_pass :
    errorNorm (mass segment2.rule (segP1 testSegment)) testMassSegment ≤ ((1.4e-16 : ℚ) : ℝ) ∧
    errorNorm (mass triangle4.rule (triP1 testTriangle)) testMass1 ≤ ((1e-22 : ℚ) : ℝ) ∧
    errorNorm (mass triangle4.rule (triP2 testTriangle)) testMass2 ≤ ((2e-22 : ℚ) : ℝ) := by
  refine ⟨errorNorm_le (m' := fun a b => applyQ segment2 fun ξ => shapeSegQ ξ a * shapeSegQ ξ b) ?_ (by norm_num) (by decide +kernel),
    errorNorm_le (m' := fun a b => 1 / 2 * applyQ triangle4 fun ξ => shape1Q ξ a * shape1Q ξ b) ?_ (by norm_num) (by decide +kernel),
    errorNorm_le (m' := fun a b => 1 / 2 * applyQ triangle4 fun ξ => shape2Q ξ a * shape2Q ξ b) ?_ (by norm_num) (by decide +kernel)⟩ <;> intro a b
  · rw [mass_seg_rational, testSegment_length, one_mul]
  · rw [mass_tri1_rational, testTriangle_area]; push_cast; rfl
  · rw [mass_tri2_rational, testTriangle_area]; push_cast; rfl

/-- the stiffness matrix of the triangle of the tests -/
theorem testTriangle_stiffness : stiffness1 testTriangle 0 1 = ((-1 / 2 : ℚ) : ℝ) ∧ stiffness1 testTriangle 0 2 = ((-1 / 2 : ℚ) : ℝ) ∧
    stiffness1 testTriangle 1 2 = ((0 : ℚ) : ℝ) := by
  refine ⟨?_, ?_, ?_⟩ <;> rw [stiffness1, testTriangle_area] <;> simp [edge, testTriangle, Fin.sum_univ_two] <;> norm_num

/-- **C120.**  The tests of the stiffness matrices pass, with room for rounding. -/
theorem gradGrad_tests_pass :
    errorNorm (gradGrad segment2.rule (segP1 testSegment)) testGradGradSegment = 0 ∧
    errorNorm (gradGrad triangle4.rule (triP1 testTriangle)) testGradGrad1 ≤ ((2e-24 : ℚ) : ℝ) ∧
    errorNorm (gradGrad triangle4.rule (triP2 testTriangle)) testGradGrad2 ≤ ((1e-20 : ℚ) : ℝ) := by
  obtain ⟨s0, s1, s2⟩ := testTriangle_stiffness
  refine ⟨?_, errorNorm_le (m' := fun a b => (triangle4.map fun p => p.2).sum * testGradGrad1 a b) ?_ (by norm_num) (by decide +kernel),
    errorNorm_le (m' := fun a b => offQ triangle4 a b 0 1 * (-1 / 2) + offQ triangle4 a b 0 2 * (-1 / 2) + offQ triangle4 a b 1 2 * 0)
      ?_ (by norm_num) (by decide +kernel)⟩
  · rw [errorNorm, Real.sqrt_eq_zero']
    refine le_of_eq (Finset.sum_eq_zero fun a _ => Finset.sum_eq_zero fun b _ => ?_)
    rw [gradGrad_seg1 _ _ (by rw [testSegment_length]; norm_num), weights_close.1, testSegment_length]
    fin_cases a <;> fin_cases b <;> simp [testGradGradSegment]
  · intro a b
    rw [gradGrad_tri1 _ _ (by rw [testTriangle_area]; norm_num)]
    rw [testTriangle_area, Rat.cast_mul]
    congr 1
    · have h : ∀ t : Table 2, (t.rule.map fun p => p.2).sum = (((t.map fun p => p.2).sum : ℚ) : ℝ) := by
        intro t
        induction t with
        | nil => simp [Table.rule]
        | cons p t ih => simp only [Table.rule, List.map_cons, List.sum_cons] at ih ⊢; rw [ih]; push_cast; rfl
      exact h _
    · fin_cases a <;> fin_cases b <;> simp [testGradGrad1, edge, testTriangle, Fin.sum_univ_two] <;> norm_num
  · intro a b
    rw [gradGrad_tri2_off _ (by rw [testTriangle_area]; norm_num), s0, s1, s2]
    push_cast
    rfl

/-- the expected matrices are half of those of textbooks for area one -/
example : ∀ a b, testMass2 a b = 1 / 2 * mass2 a b := by decide +kernel
/-- and a wrong entry is noticed: the error would be above the tolerance of the test -/
example : ¬ ∑ a, ∑ b, (1 / 2 * (applyQ triangle4 fun ξ => shape2Q ξ a * shape2Q ξ b) - (testMass2 a b + if a = 0 ∧ b = 3 then 1 / 1000 else 0)) ^ 2 ≤
    (1e-16 : ℚ) ^ 2 := by decide +kernel

end Mito.Fem
