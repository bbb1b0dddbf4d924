import Verif.Quadrature.TablesLemmas
import Verif.Fem.BlocksLemmas

/-! # C48: quadrature tables -/

namespace Mito.Quadrature

theorem segment1_accurate : Accurate mean1 segment1 1 0 := by
  have := accurate_of_monomials mean1_isMean (t := segment1) (r := 1) (ε := 0) (check1 (by decide +kernel))
  exact_mod_cast this

/-- the rule of degree two integrates polynomials of degree three -/
theorem segment2_accurate : Accurate mean1 segment2 3 (2e-16 : ℚ) :=
  accurate_of_monomials mean1_isMean (check1 (by decide +kernel))

theorem triangle1_accurate : Accurate mean2 triangle1 1 0 := by
  have := accurate_of_monomials mean2_isMean (t := triangle1) (r := 1) (ε := 0) (check2 (by decide +kernel))
  exact_mod_cast this

theorem triangle2_accurate : Accurate mean2 triangle2 2 0 := by
  have := accurate_of_monomials mean2_isMean (t := triangle2) (r := 2) (ε := 0) (check2 (by decide +kernel))
  exact_mod_cast this

theorem triangle3_accurate : Accurate mean2 triangle3 3 (1e-34 : ℚ) :=
  accurate_of_monomials mean2_isMean (check2 (by decide +kernel))

theorem triangle4_accurate : Accurate mean2 triangle4 4 (1e-22 : ℚ) :=
  accurate_of_monomials mean2_isMean (check2 (by decide +kernel))

theorem tetrahedron1_accurate : Accurate mean3 tetrahedron1 1 0 := by
  have := accurate_of_monomials mean3_isMean (t := tetrahedron1) (r := 1) (ε := 0) (check3 (by decide +kernel))
  exact_mod_cast this

theorem tetrahedron2_accurate : Accurate mean3 tetrahedron2 2 (2e-17 : ℚ) :=
  accurate_of_monomials mean3_isMean (check3 (by decide +kernel))

theorem Accurate.mono {d : Nat} {mean : ((Fin d → ℝ) → ℝ) → ℝ} {t : Table d} {r s : Nat} {ε δ : ℝ} (h : Accurate mean t r ε)
    (hr : s ≤ r) (hε : ε ≤ δ) : Accurate mean t s δ := fun p hp =>
  (h p (hp.trans hr)).trans (mul_le_mul_of_nonneg_right hε (Finset.sum_nonneg fun _ _ => abs_nonneg _))

/-- every table integrates every polynomial of its degree to within `1e-15` -/
theorem tables_accurate :
    Accurate mean1 segment1 1 1e-15 ∧ Accurate mean1 segment2 2 1e-15 ∧
    Accurate mean2 triangle1 1 1e-15 ∧ Accurate mean2 triangle2 2 1e-15 ∧ Accurate mean2 triangle3 3 1e-15 ∧
    Accurate mean2 triangle4 4 1e-15 ∧ Accurate mean3 tetrahedron1 1 1e-15 ∧ Accurate mean3 tetrahedron2 2 1e-15 :=
  ⟨segment1_accurate.mono le_rfl (by norm_num), segment2_accurate.mono (by norm_num) (by norm_num),
    triangle1_accurate.mono le_rfl (by norm_num), triangle2_accurate.mono le_rfl (by norm_num),
    triangle3_accurate.mono le_rfl (by norm_num), triangle4_accurate.mono le_rfl (by norm_num),
    tetrahedron1_accurate.mono le_rfl (by norm_num), tetrahedron2_accurate.mono le_rfl (by norm_num)⟩

/-- no table integrates the polynomials of the next degree: the error is larger than 1/4000 -/
theorem not_more_accurate :
    ¬ Accurate mean1 segment1 2 (1 / 4000 : ℚ) ∧ ¬ Accurate mean1 segment2 4 (1 / 4000 : ℚ) ∧
    ¬ Accurate mean2 triangle1 2 (1 / 4000 : ℚ) ∧ ¬ Accurate mean2 triangle2 3 (1 / 4000 : ℚ) ∧
    ¬ Accurate mean2 triangle3 4 (1 / 4000 : ℚ) ∧ ¬ Accurate mean2 triangle4 5 (1 / 4000 : ℚ) ∧
    ¬ Accurate mean3 tetrahedron1 2 (1 / 4000 : ℚ) ∧ ¬ Accurate mean3 tetrahedron2 3 (1 / 4000 : ℚ) := by
  refine ⟨not_accurate mean1_isMean ![2] (by decide) (by decide +kernel), not_accurate mean1_isMean ![4] (by decide) (by decide +kernel),
    not_accurate mean2_isMean ![2, 0] (by decide) (by decide +kernel), not_accurate mean2_isMean ![3, 0] (by decide) (by decide +kernel),
    not_accurate mean2_isMean ![4, 0] (by decide) (by decide +kernel), not_accurate mean2_isMean ![5, 0] (by decide) (by decide +kernel),
    not_accurate mean3_isMean ![2, 0, 0] (by decide) (by decide +kernel),
    not_accurate mean3_isMean ![3, 0, 0] (by decide) (by decide +kernel)⟩

/-- the points of all tables lie inside the simplices and the weights are positive -/
theorem tables_inside : Inside segment1 ∧ Inside segment2 ∧ Inside triangle1 ∧ Inside triangle2 ∧ Inside triangle3 ∧
    Inside triangle4 ∧ Inside tetrahedron1 ∧ Inside tetrahedron2 := by
  unfold Inside
  decide +kernel

/-- the sums of the weights -/
theorem weights_sum :
    (segment1.map Prod.snd).sum = 1 ∧ (segment2.map Prod.snd).sum = 1 ∧ (triangle1.map Prod.snd).sum = 1 ∧
    (triangle2.map Prod.snd).sum = 1 ∧ (triangle3.map Prod.snd).sum = 1 - 1e-35 ∧ (triangle4.map Prod.snd).sum = 1 - 1e-24 ∧
    (tetrahedron1.map Prod.snd).sum = 1 ∧ (tetrahedron2.map Prod.snd).sum = 1 := by
  decide +kernel

/-! ## C52: the mass matrices of the linear elements -/

open Mito.Fem Mito.Functions in
/-- the mass matrix of a linear triangle with the rule of degree two is exact -/
theorem mass_tri1 (x : Fin 3 → Val (.vec 2)) (a b : Fin 3) :
    mass triangle2.rule (triP1 x) a b = triangleArea x * (if a = b then 1 / 6 else 1 / 12) := by
  rw [mass_sum]
  simp only [factor, tri1_detJ]
  obtain ⟨p, hp⟩ : ∃ p, p = ((![2 / 3, 1 / 6] : Val (.vec 2))) := ⟨_, rfl⟩
  have h : triangle2.rule = [(![2 / 3, 1 / 6], 1 / 3), (![1 / 6, 2 / 3], 1 / 3), (![1 / 6, 1 / 6], 1 / 3)] := by
    simp only [Table.rule, triangle2, List.map_cons, List.map_nil]
    refine List.cons_eq_cons.mpr ⟨Prod.ext ?_ ?_, List.cons_eq_cons.mpr ⟨Prod.ext ?_ ?_, List.cons_eq_cons.mpr ⟨Prod.ext ?_ ?_, rfl⟩⟩⟩
    all_goals first | (funext i; fin_cases i <;> norm_num) | norm_num
  rw [h]
  simp only [List.map_cons, List.map_nil, List.sum_cons, List.sum_nil]
  obtain ⟨a0, a1, a2⟩ := tri1_eval ![2 / 3, 1 / 6]
  obtain ⟨b0, b1, b2⟩ := tri1_eval ![1 / 6, 2 / 3]
  obtain ⟨c0, c1, c2⟩ := tri1_eval ![1 / 6, 1 / 6]
  fin_cases a <;> fin_cases b <;>
    simp only [triP1, Fin.zero_eta, Fin.mk_one, Fin.reduceFinMk, a0, a1, a2, b0, b1, b2, c0, c1, c2] <;>
    simp [Geometry.area, Nat.factorial] <;> ring

end Mito.Quadrature
