import Verif.Spec.H1Norm
import Verif.Props.Blocks
import Verif.Props.Elements
import Verif.Props.Parametrization
import Verif.Quadrature.SimplexIntegral
import Mathlib.MeasureTheory.Measure.OpenPos
import Mathlib.Analysis.Convex.Topology
import Mathlib.MeasureTheory.Integral.Bochner.Set
import Mathlib.MeasureTheory.Measure.Lebesgue.Basic
import Mathlib.Analysis.Normed.Module.FiniteDimension

/-! # Lemmas for the H1 norm of the code (C99) -/

namespace Mito.Fem

open Mito.Functions Mito.Geometry MeasureTheory

variable {d n : Nat}

/-- quadratic forms in finitely many variables are bounded by multiples of definite ones -/
theorem form_bounded (G N : (Fin n → ℝ) → ℝ) (hG : Continuous G) (hN : Continuous N) (hG2 : ∀ (c : ℝ) u, G (c • u) = c ^ 2 * G u)
    (hN2 : ∀ (c : ℝ) u, N (c • u) = c ^ 2 * N u) (hpos : ∀ u, u ≠ 0 → 0 < N u) : ∃ C, 0 ≤ C ∧ ∀ u, G u ≤ C * N u := by
  have hc : IsCompact (Metric.sphere (0 : Fin n → ℝ) 1) := isCompact_sphere _ _
  have hq : ContinuousOn (fun u => G u / N u) (Metric.sphere (0 : Fin n → ℝ) 1) := by
    refine hG.continuousOn.div hN.continuousOn fun u hu => (hpos u ?_).ne'
    rintro rfl
    simp at hu
  obtain ⟨C, hC⟩ := (hc.image_of_continuousOn hq).bddAbove
  have z : ∀ F : (Fin n → ℝ) → ℝ, (∀ (c : ℝ) u, F (c • u) = c ^ 2 * F u) → F 0 = 0 := by
    intro F hF
    have := hF 0 0
    simpa using this
  refine ⟨max C 0, le_max_right _ _, fun u => ?_⟩
  by_cases hu : u = 0
  · rw [hu, z G hG2, z N hN2, mul_zero]
  · have hn : 0 < ‖u‖ := norm_pos_iff.mpr hu
    have hs : ‖u‖⁻¹ • u ∈ Metric.sphere (0 : Fin n → ℝ) 1 := by
      rw [mem_sphere_zero_iff_norm, norm_smul, norm_inv, norm_norm, inv_mul_cancel₀ hn.ne']
    have h1 := hC (Set.mem_image_of_mem _ hs)
    simp only [hG2, hN2] at h1
    rw [mul_div_mul_left _ _ (by positivity), div_le_iff₀ (hpos u hu)] at h1
    exact h1.trans (mul_le_mul_of_nonneg_right (le_max_left _ _) (hpos u hu).le)

theorem simplex_interior (d : Nat) : Simplex d 1 ⊆ closure (interior (Simplex d 1)) := by
  rw [(simplex_convex d 1).closure_interior_eq_closure_of_nonempty_interior]
  · exact subset_closure
  · refine ⟨fun _ => 1 / (d + 1), mem_interior.mpr ⟨{ξ | (∀ i, 0 < ξ i) ∧ ∑ i, ξ i < 1}, ?_, ?_, ?_, ?_⟩⟩
    · exact fun ξ h => ⟨fun i => (h.1 i).le, h.2.le⟩
    · have h1 : IsOpen {ξ : Fin d → ℝ | ∀ i, 0 < ξ i} := by
        simp only [Set.setOf_forall]
        exact isOpen_iInter_of_finite fun i => isOpen_lt continuous_const (continuous_apply i)
      exact h1.inter (isOpen_lt (continuous_finset_sum _ fun i _ => continuous_apply i) continuous_const)
    · intro i; positivity
    · simp only [Finset.sum_const, Finset.card_univ, Fintype.card_fin, nsmul_eq_mul]
      rw [mul_one_div, div_lt_one (by positivity)]
      linarith

/-- a finite element field that vanishes on the element has the values zero -/
theorem shape_independent {e : Element d n} (h : IsElement e) (w : Fin n → ℝ)
    (h0 : ∀ ξ ∈ Simplex d 1, ∑ a, (e.shape a).eval ξ () * w a = 0) : w = 0 := by
  cases h with
  | seg1 x =>
    funext b
    have := h0 (nodesSeg1 b) (by fin_cases b <;> simp [nodesSeg1, Simplex])
    simpa [segP1, shape_seg1_nodal] using this
  | tri1 x =>
    funext b
    have := h0 (nodesRef b) (by fin_cases b <;> simp [nodesRef, Simplex, Fin.forall_fin_two])
    simpa [triP1, shape_tri1_nodal] using this
  | tri2 x =>
    funext b
    have := h0 (nodesTri2 nodesRef b)
      (by fin_cases b <;> simp [nodesTri2, nodesRef, Simplex, Fin.forall_fin_two] <;> norm_num)
    simpa [triP2, shape_tri2_nodal] using this

theorem shape_same {e e' : Element d n} (h : IsElement e) (h' : IsElement e') : e.shape = e'.shape := by
  cases h <;> cases h' <;> rfl

theorem shape_continuous {e : Element d n} (h : IsElement e) (a : Fin n) : Continuous fun ξ => (e.shape a).eval ξ () := by
  cases h with
  | seg1 x =>
    fin_cases a
    · exact (continuous_congr fun ξ => (seg1_eval ξ).1).mpr (by fun_prop)
    · exact (continuous_congr fun ξ => (seg1_eval ξ).2).mpr (by fun_prop)
  | tri1 x =>
    fin_cases a
    · exact (continuous_congr fun ξ => (tri1_eval ξ).1).mpr (by fun_prop)
    · exact (continuous_congr fun ξ => (tri1_eval ξ).2.1).mpr (by fun_prop)
    · exact (continuous_congr fun ξ => (tri1_eval ξ).2.2).mpr (by fun_prop)
  | tri2 x =>
    fin_cases a
    · exact (continuous_congr fun ξ => (tri2_eval ξ).1).mpr (by fun_prop)
    · exact (continuous_congr fun ξ => (tri2_eval ξ).2.1).mpr (by fun_prop)
    · exact (continuous_congr fun ξ => (tri2_eval ξ).2.2.1).mpr (by fun_prop)
    · exact (continuous_congr fun ξ => (tri2_eval ξ).2.2.2.1).mpr (by fun_prop)
    · exact (continuous_congr fun ξ => (tri2_eval ξ).2.2.2.2.1).mpr (by fun_prop)
    · exact (continuous_congr fun ξ => (tri2_eval ξ).2.2.2.2.2).mpr (by fun_prop)

/-- the determinant of an element is constant -/
theorem detJ_const {e : Element d n} (h : IsElement e) : ∃ D, ∀ ξ, e.detJ ξ = D := by
  cases h with
  | seg1 x => exact ⟨_, seg1_detJ x⟩
  | tri1 x => exact ⟨_, tri1_detJ x⟩
  | tri2 x => exact ⟨_, tri2_detJ x⟩

/-- the integral of the square of the field with the values `w` on the reference simplex -/
noncomputable def massForm (φ : Fin n → Val (.vec d) → ℝ) (w : Fin n → ℝ) : ℝ := ∫ ξ in Simplex d 1, (∑ a, φ a ξ * w a) ^ 2

theorem massForm_eq {φ : Fin n → Val (.vec d) → ℝ} (hφ : ∀ a, Continuous (φ a)) (w : Fin n → ℝ) :
    massForm φ w = ∑ a, ∑ b, (∫ ξ in Simplex d 1, φ a ξ * φ b ξ) * (w a * w b) := by
  have hi : ∀ a b, Integrable (fun ξ => φ a ξ * φ b ξ * (w a * w b)) (volume.restrict (Simplex d 1)) := fun a b =>
    (((hφ a).mul (hφ b)).mul continuous_const).continuousOn.integrableOn_compact (simplex_compact d 1)
  have h1 : ∀ ξ, (∑ a, φ a ξ * w a) ^ 2 = ∑ a, ∑ b, φ a ξ * φ b ξ * (w a * w b) := by
    intro ξ
    rw [sq, Finset.sum_mul_sum]
    refine Finset.sum_congr rfl fun a _ => Finset.sum_congr rfl fun b _ => ?_
    ring
  unfold massForm
  simp only [h1]
  rw [integral_finset_sum _ fun a _ => integrable_finset_sum _ fun b _ => hi a b]
  refine Finset.sum_congr rfl fun a _ => ?_
  rw [integral_finset_sum _ fun b _ => hi a b]
  refine Finset.sum_congr rfl fun b _ => ?_
  rw [integral_mul_const]

theorem massForm_nonneg (φ : Fin n → Val (.vec d) → ℝ) (w : Fin n → ℝ) : 0 ≤ massForm φ w :=
  integral_nonneg fun _ => sq_nonneg _

theorem massForm_pos {e : Element d n} (h : IsElement e) {w : Fin n → ℝ} (hw : w ≠ 0) :
    0 < massForm (fun a ξ => (e.shape a).eval ξ ()) w := by
  refine lt_of_le_of_ne (massForm_nonneg _ _) fun h0 => hw (shape_independent h w ?_)
  have hc : Continuous fun ξ : Val (.vec d) => ∑ a, (e.shape a).eval ξ () * w a :=
    continuous_finset_sum _ fun a _ => (shape_continuous h a).mul continuous_const
  have hz := (setIntegral_eq_zero_iff_of_nonneg_ae (μ := volume) (s := Simplex d 1)
    (f := fun ξ => (∑ a, (e.shape a).eval ξ () * w a) ^ 2) (ae_of_all _ fun _ => sq_nonneg _)
    ((hc.pow 2).continuousOn.integrableOn_compact (simplex_compact d 1))).mp h0.symm
  have := Measure.eqOn_of_ae_eq hz (hc.pow 2).continuousOn continuousOn_const (simplex_interior d)
  intro ξ hξ
  exact pow_eq_zero_iff (two_ne_zero) |>.mp (this hξ)

/-- the square of the reported norm on an element is a multiple of the integral of the square at most, whatever the element is -/
theorem reported_bounded (rule : Rule d) : ∃ C, 0 ≤ C ∧ ∀ e : Element d n, IsElement e → (∀ ξ, 0 ≤ e.detJ ξ) → ∀ w : Fin n → ℝ,
    (rule.map fun p => factor e p * ((∑ a, (e.shape a).eval p.1 () * w a) ^ 2 + ∑ k, (∑ a, (e.dshape a).eval p.1 k * w a) ^ 2)).sum ≤
      C * ∫ ξ in Simplex d 1, e.detJ ξ * (∑ a, (e.shape a).eval ξ () * w a) ^ 2 := by
  by_cases hex : ∃ e : Element d n, IsElement e
  · obtain ⟨e0, h0⟩ := hex
    obtain ⟨C, hC, hb⟩ := form_bounded (n := n)
      (fun w => (rule.map fun p => area d * p.2 * ((∑ a, (e0.shape a).eval p.1 () * w a) ^ 2 +
        ∑ k, (∑ a, (e0.dshape a).eval p.1 k * w a) ^ 2)).sum)
      (massForm fun a ξ => (e0.shape a).eval ξ ())
      (by
        induction rule with
        | nil => simpa using continuous_const
        | cons p l ih =>
          simp only [List.map_cons, List.sum_cons]
          exact Continuous.add (by fun_prop) ih)
      (by
        rw [show massForm (fun a ξ => (e0.shape a).eval ξ ()) = _ from funext (massForm_eq (shape_continuous h0))]
        fun_prop)
      (by
        intro c w
        simp only [Pi.smul_apply, smul_eq_mul, mul_left_comm _ c, ← Finset.mul_sum, mul_pow]
        rw [← List.sum_map_mul_left]
        congr 2
        funext p
        rw [← mul_add]
        ring)
      (by
        intro c w
        unfold massForm
        simp only [Pi.smul_apply, smul_eq_mul, mul_left_comm _ c, ← Finset.mul_sum, mul_pow]
        rw [integral_const_mul])
      (fun w hw => massForm_pos h0 hw)
    refine ⟨C, hC, fun e he hd w => ?_⟩
    obtain ⟨D, hD⟩ := detJ_const he
    have hD0 : 0 ≤ D := by rw [← hD 0]; exact hd 0
    have h1 := mul_le_mul_of_nonneg_left (hb w) hD0
    simp only [factor, Element.dshape, hD, shape_same he h0]
    simp only [Element.dshape, massForm] at h1
    rw [integral_const_mul, ← mul_assoc, mul_comm C, mul_assoc]
    refine le_trans (le_of_eq ?_) h1
    rw [← List.sum_map_mul_left]
    congr 2
    funext p
    ring
  · exact ⟨0, le_rfl, fun e he => absurd ⟨e, he⟩ hex⟩

/-- vectors times matrices with small entries -/
theorem vecMul_small {h : ℝ} (A : Matrix (Fin d) (Fin d) ℝ) (hA : ∀ i j, |A i j| ≤ h) (g : Fin d → ℝ) :
    ∑ j, (∑ i, g i * A i j) ^ 2 ≤ d ^ 2 * h ^ 2 * ∑ i, g i ^ 2 := by
  have h1 : ∀ j, (∑ i, g i * A i j) ^ 2 ≤ d * h ^ 2 * ∑ i, g i ^ 2 := by
    intro j
    refine (Finset.sum_mul_sq_le_sq_mul_sq _ _ _).trans ?_
    rw [mul_comm]
    refine mul_le_mul_of_nonneg_right ?_ (Finset.sum_nonneg fun i _ => sq_nonneg _)
    refine (Finset.sum_le_card_nsmul _ _ (h ^ 2) fun i _ => sq_le_sq.mpr ((hA i j).trans (le_abs_self h))).trans (le_of_eq ?_)
    simp
  refine (Finset.sum_le_card_nsmul _ _ _ fun j _ => h1 j).trans (le_of_eq ?_)
  simp
  ring

theorem Sized.spec {h : ℝ} {e : Element d n} (hs : Sized h e) :
    IsElement e ∧ (∀ ξ, 0 < e.detJ ξ) ∧ ∀ ξ i j, |toMatrix (e.jacobian ξ) i j| ≤ h := by
  have tri : ∀ x : Fin 3 → Val (.vec 2), (∀ a b k, |x a k - x b k| ≤ h) → ∀ ξ i j, |toMatrix ((triP1 x).jacobian ξ) i j| ≤ h := by
    intro x hx ξ i j
    have l0 := fun k => (tri1_dshape ξ k).1
    have l1 := fun k => (tri1_dshape ξ k).2.1
    have l2 := fun k => (tri1_dshape ξ k).2.2
    simp only [toMatrix, Matrix.of_apply, triP1, dyadic, Pi.add_apply, l0, l1, l2]
    fin_cases j
    · have := hx 0 2 i
      simpa [sub_eq_add_neg] using this
    · have := hx 1 2 i
      simpa [sub_eq_add_neg] using this
  cases hs with
  | seg1 x hp hx =>
    refine ⟨.seg1 x, fun ξ => by rw [seg1_detJ]; exact hp, fun ξ i j => ?_⟩
    have l0 := fun k => (seg1_dshape ξ k).1
    have l1 := fun k => (seg1_dshape ξ k).2
    have := hx 1 0 0
    rw [sub_eq_neg_add] at this
    simpa [toMatrix, segP1, mul, l0, l1] using this
  | tri1 x hp hx => exact ⟨.tri1 x, fun ξ => by rw [tri1_detJ]; linarith, tri x hx⟩
  | tri2 x hp hx =>
    refine ⟨.tri2 x, fun ξ => by rw [tri2_detJ]; linarith, fun ξ => ?_⟩
    rw [jacobian_tri2]
    exact tri x hx ξ

/-- the gradient in parametric coordinates from the physical one -/
theorem gradient_pullback {e : Element d n} {ξ : Val (.vec d)} (hd : e.detJ ξ ≠ 0) (f : Expr (.vec d) .scalar) (j : Fin d) :
    (Functions.gradient f).eval ξ j = ∑ i, physicalGradient e f ξ i * toMatrix (e.jacobian ξ) i j := by
  have h1 : physicalGradient e f ξ = Matrix.vecMul ((Functions.gradient f).eval ξ) (toMatrix (e.jacobian ξ))⁻¹ := rfl
  have h2 := Matrix.vecMul_vecMul ((Functions.gradient f).eval ξ) (toMatrix (e.jacobian ξ))⁻¹ (toMatrix (e.jacobian ξ))
  rw [Matrix.nonsing_inv_mul _ (isUnit_iff_ne_zero.mpr hd), Matrix.vecMul_one, ← h1] at h2
  rw [← h2]
  rfl

end Mito.Fem
