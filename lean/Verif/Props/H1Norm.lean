import Verif.Fem.H1NormLemmas
import Verif.Props.Quadrature

/-!
# C99: what the H1 norm of the code measures

`compute_h1_norm` uses gradients in parametric coordinates (C59).  For fields of finite elements it is therefore the L2 norm, up to a
constant factor that does not depend on the mesh, and it is no bound for the H1 norm.
-/

namespace Mito.Fem

open Mito.Functions Mito.Geometry Mito.Quadrature MeasureTheory

variable {d n : Nat}

theorem h1Norm_fem {κ : Type} (rule : Rule d) (space : Space κ d n) (u v : κ → ℝ) :
    h1Norm rule space (.fem u) (.fem v) = Real.sqrt ((space.map fun ec => (rule.map fun p => factor ec.1 p *
      ((∑ a, (ec.1.shape a).eval p.1 () * (u (ec.2 a) - v (ec.2 a))) ^ 2 +
        ∑ k, (∑ a, (ec.1.dshape a).eval p.1 k * (u (ec.2 a) - v (ec.2 a))) ^ 2)).sum).sum) := by
  rw [h1Norm_eq]
  simp only [eval_sub, gradient_sub, Pi.sub_apply, localize_fem, localize_fem_gradient, mul_sub, Finset.sum_sub_distrib]

/-- **C99.**  For each kind of element and every rule there is a constant such that, on every mesh without inverted elements, the H1 norm
that the code computes for the difference of two finite element fields is the constant times their distance in L2 at most. -/
theorem h1Norm_le_l2 (rule : Rule d) : ∃ C, 0 ≤ C ∧ ∀ (κ : Type) (space : Space κ d n), (∀ ec ∈ space, IsElement ec.1) →
    (∀ ec ∈ space, ∀ ξ, 0 ≤ ec.1.detJ ξ) → ∀ u v : κ → ℝ,
      h1Norm rule space (.fem u) (.fem v) ≤ C * Real.sqrt (l2Integral space u v) := by
  obtain ⟨C, hC, h⟩ := reported_bounded (n := n) rule
  refine ⟨Real.sqrt C, Real.sqrt_nonneg _, fun κ space he hd u v => ?_⟩
  rw [h1Norm_fem, ← Real.sqrt_mul hC, l2Integral, ← List.sum_map_mul_left]
  exact Real.sqrt_le_sqrt (List.sum_le_sum fun ec hec => h ec.1 (he ec hec) (hd ec hec) _)

/-- **C99.**  It is at least the L2 norm that the code computes. -/
theorem l2Norm_le_h1 {κ : Type} {rule : Rule d} {space : Space κ d n} (h : Positive rule space) (u v : Localizable κ d) :
    l2Norm rule space u v ≤ h1Norm rule space u v := by
  rw [l2Norm_eq, h1Norm_eq]
  refine Real.sqrt_le_sqrt (List.sum_le_sum fun ec hec => List.sum_le_sum fun p hp => ?_)
  refine mul_le_mul_of_nonneg_left ?_ (factor_nonneg (h.1 p hp) (h.2 ec hec))
  rw [eval_sub, Pi.sub_apply]
  exact le_add_of_nonneg_right (Finset.sum_nonneg fun k _ => sq_nonneg _)

/-- **C99.**  With the rules of degree two the constants for linear elements are at most 4 and 7. -/
theorem h1Norm_le_l2Norm_seg {κ : Type} (space : Space κ 1 2) (hs : ∀ ec ∈ space, ∃ x, ec.1 = segP1 x ∧ 0 ≤ length x) (u v : κ → ℝ) :
    h1Norm segment2.rule space (.fem u) (.fem v) ≤ 4 * l2Norm segment2.rule space (.fem u) (.fem v) := by
  rw [h1Norm_fem, l2Norm_eq, show (4 : ℝ) = Real.sqrt 16 by rw [show (16 : ℝ) = 4 ^ 2 by norm_num]; simp, ← Real.sqrt_mul (by norm_num),
    ← List.sum_map_mul_left]
  refine Real.sqrt_le_sqrt (List.sum_le_sum fun ec hec => ?_)
  obtain ⟨x, e, hx⟩ := hs ec hec
  simp only [localize_fem, ← Finset.sum_sub_distrib, ← mul_sub, e]
  have k0 := fun ξ => (seg1_eval ξ).1
  have k1 := fun ξ => (seg1_eval ξ).2
  have l0 := fun ξ k => (seg1_dshape ξ k).1
  have l1 := fun ξ k => (seg1_dshape ξ k).2
  simp only [Fin.sum_univ_two, Fin.sum_univ_one, factor, seg1_detJ, Element.dshape, Table.rule, segment2, List.map_cons, List.map_nil,
    List.sum_cons, List.sum_nil]
  simp only [segP1, k0, k1, l0, l1]
  generalize u (ec.2 0) - v (ec.2 0) = a
  generalize u (ec.2 1) - v (ec.2 1) = b
  simp only [area, Nat.factorial, Matrix.cons_val_zero]
  push_cast
  have key : 0 ≤ length x * ((a + b) ^ 2 + (a - b) ^ 2 + a ^ 2 + b ^ 2) := by positivity
  nlinarith [mul_nonneg hx (sq_nonneg (a + b)), mul_nonneg hx (sq_nonneg (a - b))]

@[inherit_doc h1Norm_le_l2Norm_seg]
theorem h1Norm_le_l2Norm_tri {κ : Type} (space : Space κ 2 3) (hs : ∀ ec ∈ space, ∃ x, ec.1 = triP1 x ∧ 0 ≤ triangleArea x) (u v : κ → ℝ) :
    h1Norm triangle2.rule space (.fem u) (.fem v) ≤ 7 * l2Norm triangle2.rule space (.fem u) (.fem v) := by
  rw [h1Norm_fem, l2Norm_eq, show (7 : ℝ) = Real.sqrt 49 by rw [show (49 : ℝ) = 7 ^ 2 by norm_num]; simp, ← Real.sqrt_mul (by norm_num),
    ← List.sum_map_mul_left]
  refine Real.sqrt_le_sqrt (List.sum_le_sum fun ec hec => ?_)
  obtain ⟨x, e, hx⟩ := hs ec hec
  simp only [localize_fem, ← Finset.sum_sub_distrib, ← mul_sub, e]
  have k0 := fun ξ => (tri1_eval ξ).1
  have k1 := fun ξ => (tri1_eval ξ).2.1
  have k2 := fun ξ => (tri1_eval ξ).2.2
  have l0 := fun ξ k => (tri1_dshape ξ k).1
  have l1 := fun ξ k => (tri1_dshape ξ k).2.1
  have l2 := fun ξ k => (tri1_dshape ξ k).2.2
  simp only [Fin.sum_univ_three, Fin.sum_univ_two, factor, tri1_detJ, Element.dshape, Table.rule, triangle2, List.map_cons, List.map_nil,
    List.sum_cons, List.sum_nil]
  simp only [triP1, k0, k1, k2, l0, l1, l2]
  generalize u (ec.2 0) - v (ec.2 0) = a
  generalize u (ec.2 1) - v (ec.2 1) = b
  generalize u (ec.2 2) - v (ec.2 2) = c
  simp only [area, Nat.factorial, Matrix.cons_val_zero, Matrix.cons_val_one]
  push_cast
  nlinarith [mul_nonneg hx (sq_nonneg (a + b + c)), mul_nonneg hx (sq_nonneg (a - b)), mul_nonneg hx (sq_nonneg (a + b - 2 * c)),
    mul_nonneg hx (sq_nonneg (a + b - c)), mul_nonneg hx (sq_nonneg c)]

/-- **C99.**  On elements of the size `h` the part of the gradients is of the order of `h` times the H1 norm: as the mesh is refined, the
norm that the code computes for given fields tends to their L2 norm. -/
theorem h1Norm_small {κ : Type} {rule : Rule d} {space : Space κ d n} {h : ℝ} (hw : ∀ p ∈ rule, 0 ≤ p.2)
    (hs : ∀ ec ∈ space, Sized h ec.1) (u v : Localizable κ d) :
    h1Norm rule space u v ^ 2 ≤ l2Norm rule space u v ^ 2 + d ^ 2 * h ^ 2 * trueH1Norm rule space u v ^ 2 := by
  have hf : ∀ ec ∈ space, ∀ p ∈ rule, 0 ≤ factor ec.1 p := fun ec hec p hp =>
    factor_nonneg (hw p hp) fun ξ => ((hs ec hec).spec.2.1 ξ).le
  rw [h1Norm_eq, l2Norm_eq, trueH1Norm, Real.sq_sqrt, Real.sq_sqrt, Real.sq_sqrt]
  · rw [← List.sum_map_mul_left, ← List.sum_map_add]
    refine List.sum_le_sum fun ec hec => ?_
    rw [h1Square, ← List.sum_map_mul_left, ← List.sum_map_add]
    refine List.sum_le_sum fun p hp => ?_
    have h1 := vecMul_small _ ((hs ec hec).spec.2.2 p.1)
      (physicalGradient ec.1 ((localize ec.1 ec.2 u).sub (localize ec.1 ec.2 v)) p.1)
    simp only [← gradient_pullback ((hs ec hec).spec.2.1 p.1).ne'] at h1
    have h2 : (0 : ℝ) ≤ (d : ℝ) ^ 2 * h ^ 2 * ((localize ec.1 ec.2 u).sub (localize ec.1 ec.2 v)).eval p.1 () ^ 2 := by positivity
    rw [eval_sub, Pi.sub_apply] at h2 ⊢
    rw [mul_left_comm, ← mul_add]
    refine mul_le_mul_of_nonneg_left ?_ (hf ec hec p hp)
    linarith
  · exact list_sum_nonneg _ _ fun ec hec => list_sum_nonneg _ _ fun p hp => mul_nonneg (hf ec hec p hp) (by positivity)
  · exact list_sum_nonneg _ _ fun ec hec => list_sum_nonneg _ _ fun p hp => mul_nonneg (hf ec hec p hp) (by positivity)
  · exact list_sum_nonneg _ _ fun ec hec => list_sum_nonneg _ _ fun p hp => mul_nonneg (hf ec hec p hp) (by positivity)

/-- **C99.**  There is no constant with which it is a bound for the H1 norm: on segments of length `1 / N` it is 2 at most for a field with
an H1 norm of at least `N`. -/
theorem h1Norm_no_bound (N : Nat) (hN : 0 < N) :
    (∀ ec ∈ unitSegments N, Sized (1 / N : ℝ) ec.1) ∧ h1Norm segment2.rule (unitSegments N) zigzag (.fem fun _ => 0) ≤ 2 ∧
      (N : ℝ) ≤ trueH1Norm segment2.rule (unitSegments N) zigzag (.fem fun _ => 0) := by
  have hN' : (0 : ℝ) < N := by exact_mod_cast hN
  have hlen : ∀ i : Nat, length (fun a : Fin 2 => ![((i + a : Nat) : ℝ) / N]) = 1 / N := by
    intro i
    simp only [length, Matrix.cons_val_zero]
    push_cast
    simp
    ring
  -- the values on one segment
  have hz : ∀ i : Nat, ∃ a b : ℝ, (a = 0 ∧ b = 1 ∨ a = 1 ∧ b = 0) ∧ ∀ j : Fin 2,
      ((if (i + (j : Nat)) % 2 = 0 then 0 else 1 : ℝ) - 0) = if j = 0 then a else b := by
    intro i
    rcases Nat.mod_two_eq_zero_or_one i with h | h
    · exact ⟨0, 1, Or.inl ⟨rfl, rfl⟩, fun j => by fin_cases j <;> simp [Nat.add_mod, h]⟩
    · exact ⟨1, 0, Or.inr ⟨rfl, rfl⟩, fun j => by fin_cases j <;> simp [Nat.add_mod, h]⟩
  have k0 := fun ξ => (seg1_eval ξ).1
  have k1 := fun ξ => (seg1_eval ξ).2
  have l0 := fun ξ k => (seg1_dshape ξ k).1
  have l1 := fun ξ k => (seg1_dshape ξ k).2
  refine ⟨?_, ?_, ?_⟩
  · intro ec hec
    obtain ⟨i, -, rfl⟩ := List.mem_map.mp hec
    refine .seg1 _ (by rw [hlen]; positivity) fun a b k => ?_
    fin_cases k
    have : (((i + a : Nat) : ℝ) / N - ((i + b : Nat) : ℝ) / N) = ((a : ℕ) - (b : ℕ) : ℝ) * (1 / N) := by push_cast; ring
    simp only [Fin.zero_eta, Matrix.cons_val_zero]
    rw [this, abs_mul, abs_of_nonneg (by positivity : (0 : ℝ) ≤ 1 / N)]
    refine mul_le_of_le_one_left (by positivity) ?_
    fin_cases a <;> fin_cases b <;> simp
  · rw [zigzag, h1Norm_fem]
    refine Real.sqrt_le_iff.mpr ⟨by norm_num, ?_⟩
    refine (List.sum_le_card_nsmul _ (4 / N : ℝ) ?_).trans (le_of_eq ?_)
    · intro y hy
      obtain ⟨ec, hec, rfl⟩ := List.mem_map.mp hy
      obtain ⟨i, -, rfl⟩ := List.mem_map.mp hec
      obtain ⟨a, b, hab, hj⟩ := hz i
      simp only [hj]
      simp only [Fin.sum_univ_two, Fin.sum_univ_one, factor, seg1_detJ, hlen, Element.dshape, Table.rule, segment2, List.map_cons,
        List.map_nil, List.sum_cons, List.sum_nil]
      simp only [segP1, k0, k1, l0, l1]
      rw [show (4 : ℝ) / N = 4 * (1 / N) by ring]
      have hi : (0 : ℝ) ≤ 1 / N := by positivity
      simp only [area, Nat.factorial, Matrix.cons_val_zero, if_true, if_neg one_ne_zero]
      push_cast
      clear hy hec
      generalize (1 / N : ℝ) = s at *
      rcases hab with ⟨rfl, rfl⟩ | ⟨rfl, rfl⟩ <;> norm_num <;> nlinarith
    · simp [unitSegments]
      field_simp
      norm_num
  · rw [zigzag, trueH1Norm]
    refine Real.le_sqrt_of_sq_le ?_
    refine le_trans (le_of_eq ?_) (List.card_nsmul_le_sum _ (N : ℝ) ?_)
    · simp [unitSegments]
      ring
    · intro y hy
      obtain ⟨ec, hec, rfl⟩ := List.mem_map.mp hy
      obtain ⟨i, -, rfl⟩ := List.mem_map.mp hec
      obtain ⟨a, b, hab, hj⟩ := hz i
      have hg : ∀ ξ, physicalGradient (segP1 fun a => ![((i + a : Nat) : ℝ) / N])
          ((localize (segP1 fun a => ![((i + a : Nat) : ℝ) / N]) (fun a => i + a) (.fem fun i => if i % 2 = 0 then 0 else 1)).sub
            (localize (segP1 fun a => ![((i + a : Nat) : ℝ) / N]) (fun a => i + a) (.fem fun _ => 0))) ξ 0 = (b - a) * N := by
        intro ξ
        simp only [physicalGradient, mul, Fin.sum_univ_one, gradient_sub, Pi.sub_apply, localize_fem_gradient, seg1_inverse, hlen,
          ← Finset.sum_sub_distrib, ← mul_sub, hj]
        simp only [Fin.sum_univ_two, Element.dshape, segP1, l0, l1, if_true, if_neg one_ne_zero]
        rw [one_div, inv_inv]
        ring
      rw [h1Square]
      simp only [Fin.sum_univ_one, hg, factor, seg1_detJ, hlen, Table.rule, segment2, List.map_cons, List.map_nil, List.sum_cons,
        List.sum_nil]
      have hb : (b - a) ^ 2 = 1 := by rcases hab with ⟨rfl, rfl⟩ | ⟨rfl, rfl⟩ <;> norm_num
      rw [mul_pow, hb]
      have e : (N : ℝ) = 1 / N * N ^ 2 := by field_simp
      have hi : (0 : ℝ) ≤ 1 / N := by positivity
      have nn := fun y : ℝ => mul_nonneg hi (sq_nonneg y)
      simp only [area, Nat.factorial]
      push_cast
      refine e.le.trans ?_
      generalize hs : (1 / N : ℝ) = s at *
      simp only [mul_add, one_mul]
      norm_num
      refine le_trans (le_of_eq ?_) (add_le_add (le_add_of_nonneg_left ?_) (le_add_of_nonneg_left ?_) :
        (1 / 2 * s * (N : ℝ) ^ 2) + 1 / 2 * s * (N : ℝ) ^ 2 ≤ _)
      · ring
      all_goals positivity

/-- **C99.**  So the norms are not equivalent on meshes of the unit interval. -/
theorem h1Norm_not_equivalent (C : ℝ) : ∃ N, 0 < N ∧
    C * h1Norm segment2.rule (unitSegments N) zigzag (.fem fun _ => 0) <
      trueH1Norm segment2.rule (unitSegments N) zigzag (.fem fun _ => 0) := by
  obtain ⟨N, hN⟩ := exists_nat_gt (max (2 * C) 0)
  have h0 : 0 < N := by
    have : (0 : ℝ) < N := (le_max_right _ _).trans_lt hN
    exact_mod_cast this
  obtain ⟨-, h1, h2⟩ := h1Norm_no_bound N h0
  refine ⟨N, h0, lt_of_lt_of_le ?_ h2⟩
  have h3 : (0 : ℝ) ≤ h1Norm segment2.rule (unitSegments N) zigzag (.fem fun _ => 0) := Real.sqrt_nonneg _
  have h4 : 2 * C < N := (le_max_left _ _).trans_lt hN
  rcases le_or_gt 0 C with hC | hC
  · nlinarith
  · have : (0 : ℝ) < N := by exact_mod_cast h0
    nlinarith

/-! ## Examples -/

/-- a triangle of the size one and one of the size `1 / 10` -/
example : Sized 1 (triP1 fun a => (![![1, 0], ![0, 1], ![0, 0]] : Fin 3 → Fin 2 → ℝ) a) ∧
    Sized (1 / 10) (triP2 fun a => (![![1 / 10, 0], ![0, 1 / 10], ![0, 0]] : Fin 3 → Fin 2 → ℝ) a) := by
  refine ⟨.tri1 _ (by simp [triangleArea]) fun a b k => ?_, .tri2 _ (by simp [triangleArea]) fun a b k => ?_⟩ <;>
  fin_cases a <;> fin_cases b <;> fin_cases k <;> simp

example : Positive segment2.rule (unitSegments 3) := by
  refine ⟨?_, fun ec hec ξ => (((h1Norm_no_bound 3 (by norm_num)).1 ec hec).spec.2.1 ξ).le⟩
  simp [segment2, Table.rule]
  norm_num

end Mito.Fem
