import Verif.Spec.Integrator
import Mathlib.MeasureTheory.Constructions.Pi
import Mathlib.MeasureTheory.Integral.Prod
import Mathlib.MeasureTheory.Measure.Lebesgue.Basic
import Mathlib.Analysis.SpecialFunctions.Integrals.Basic

/-! # Integrals over the reference simplex -/

namespace Mito.Geometry

open MeasureTheory

theorem simplex_compact (n : Nat) (t : ℝ) : IsCompact (Simplex n t) := by
  have hc : IsClosed (Simplex n t) := by
    have h1 : IsClosed {ξ : Fin n → ℝ | ∀ i, 0 ≤ ξ i} := by
      simp only [Set.setOf_forall]
      exact isClosed_iInter fun i => isClosed_le continuous_const (continuous_apply i)
    exact h1.inter (isClosed_le (continuous_finset_sum _ fun i _ => continuous_apply i) continuous_const)
  refine (isCompact_Icc (a := (0 : Fin n → ℝ)) (b := fun _ => t)).of_isClosed_subset hc ?_
  rintro ξ ⟨h1, h2⟩
  exact ⟨h1, fun i => (Finset.single_le_sum (fun j _ => h1 j) (Finset.mem_univ i)).trans h2⟩

theorem simplex_measurable (n : Nat) (t : ℝ) : MeasurableSet (Simplex n t) := (simplex_compact n t).measurableSet

theorem mem_simplex_cons {n : Nat} {t x : ℝ} {η : Fin n → ℝ} :
    (Fin.cons x η : Fin (n + 1) → ℝ) ∈ Simplex (n + 1) t ↔ 0 ≤ x ∧ η ∈ Simplex n (t - x) := by
  simp only [Simplex, Set.mem_setOf_eq, Fin.forall_fin_succ, Fin.cons_zero, Fin.cons_succ, Fin.sum_univ_succ]
  constructor
  · rintro ⟨⟨h1, h2⟩, h3⟩
    exact ⟨h1, h2, by linarith⟩
  · rintro ⟨h1, h2, h3⟩
    exact ⟨⟨h1, h2⟩, by linarith⟩

theorem simplex_empty {n : Nat} {t : ℝ} (h : t < 0) : Simplex n t = ∅ := by
  ext ξ
  simp only [Set.mem_empty_iff_false, iff_false]
  rintro ⟨h1, h2⟩
  have := Finset.sum_nonneg fun i (_ : i ∈ Finset.univ) => h1 i
  linarith

theorem simplex_zero {t : ℝ} (h : 0 ≤ t) : Simplex 0 t = Set.univ := by
  ext ξ
  simp [Simplex, h]

theorem integral_simplex_zero {t : ℝ} (h : 0 ≤ t) (f : (Fin 0 → ℝ) → ℝ) : ∫ ξ in Simplex 0 t, f ξ = f ![] := by
  rw [simplex_zero h, Measure.restrict_univ, Measure.volume_pi_eq_dirac ![], integral_dirac]

/-- slices of the simplex -/
theorem integral_simplex_succ {n : Nat} {t : ℝ} (ht : 0 ≤ t) {f : (Fin (n + 1) → ℝ) → ℝ} (hf : Continuous f) :
    ∫ ξ in Simplex (n + 1) t, f ξ = ∫ x in (0 : ℝ)..t, ∫ η in Simplex n (t - x), f (Fin.cons x η) := by
  have hint : Integrable ((Simplex (n + 1) t).indicator f) := by
    rw [integrable_indicator_iff (simplex_measurable _ _)]
    exact hf.continuousOn.integrableOn_compact (simplex_compact _ _)
  have mp := (volume_preserving_piFinSuccAbove (fun _ : Fin (n + 1) => ℝ) 0).symm
  rw [← integral_indicator (simplex_measurable _ _), ← mp.integral_comp (MeasurableEquiv.measurableEmbedding _)]
  have hint' : Integrable (fun p : ℝ × (Fin n → ℝ) => (Simplex (n + 1) t).indicator f (Fin.cons p.1 p.2)) := by
    have := (mp.integrable_comp_emb (MeasurableEquiv.measurableEmbedding _)).mpr hint
    refine this.congr (Filter.Eventually.of_forall fun p => ?_)
    simp [MeasurableEquiv.piFinSuccAbove, Fin.insertNthEquiv]
  have h1 : (fun p : ℝ × (Fin n → ℝ) => (Simplex (n + 1) t).indicator f
      ((MeasurableEquiv.piFinSuccAbove (fun _ : Fin (n + 1) => ℝ) 0).symm p)) =
      fun p => (Simplex (n + 1) t).indicator f (Fin.cons p.1 p.2) := by
    funext p
    simp [MeasurableEquiv.piFinSuccAbove, Fin.insertNthEquiv]
  rw [h1]
  rw [show (volume : Measure (ℝ × (Fin n → ℝ))) = volume.prod volume from rfl] at hint' ⊢
  rw [integral_prod _ hint']
  have h2 : (fun x : ℝ => ∫ η : Fin n → ℝ, (Simplex (n + 1) t).indicator f (Fin.cons x η)) =
      (Set.Icc 0 t).indicator fun x => ∫ η in Simplex n (t - x), f (Fin.cons x η) := by
    funext x
    by_cases hx : x ∈ Set.Icc 0 t
    · rw [Set.indicator_of_mem hx, ← integral_indicator (simplex_measurable _ _)]
      congr 1
      funext η
      by_cases hη : η ∈ Simplex n (t - x)
      · rw [Set.indicator_of_mem hη, Set.indicator_of_mem (mem_simplex_cons.mpr ⟨hx.1, hη⟩)]
      · rw [Set.indicator_of_notMem hη, Set.indicator_of_notMem fun h => hη (mem_simplex_cons.mp h).2]
    · rw [Set.indicator_of_notMem hx]
      have : ∀ η : Fin n → ℝ, (Simplex (n + 1) t).indicator f (Fin.cons x η) = 0 := by
        intro η
        refine Set.indicator_of_notMem (fun h => hx ?_) _
        obtain ⟨k1, k2⟩ := mem_simplex_cons.mp h
        refine ⟨k1, ?_⟩
        by_contra k3
        rw [simplex_empty (by linarith)] at k2
        exact k2
      simp [this]
  rw [h2, integral_indicator measurableSet_Icc, integral_Icc_eq_integral_Ioc, intervalIntegral.integral_of_le ht]

open Mito.Quadrature

theorem mean1_simplex {f : (Fin 1 → ℝ) → ℝ} (hf : Continuous f) : mean1 f = ∫ ξ in Simplex 1 1, f ξ := by
  rw [integral_simplex_succ zero_le_one hf, mean1]
  refine intervalIntegral.integral_congr fun x hx => ?_
  rw [Set.uIcc_of_le zero_le_one] at hx
  exact (integral_simplex_zero (sub_nonneg.mpr hx.2) fun η => f (Fin.cons x η)).symm

theorem integral_simplex_two {t : ℝ} (ht : 0 ≤ t) {f : (Fin 2 → ℝ) → ℝ} (hf : Continuous f) :
    ∫ ξ in Simplex 2 t, f ξ = ∫ x in (0 : ℝ)..t, ∫ y in (0 : ℝ)..t - x, f ![x, y] := by
  rw [integral_simplex_succ ht hf]
  refine intervalIntegral.integral_congr fun x hx => ?_
  rw [Set.uIcc_of_le ht] at hx
  have hx' := sub_nonneg.mpr hx.2
  have hc : Continuous fun η : Fin 1 → ℝ => f (Fin.cons x η) := hf.comp (by fun_prop)
  simp only [integral_simplex_succ hx' hc]
  refine intervalIntegral.integral_congr fun y hy => ?_
  rw [Set.uIcc_of_le hx'] at hy
  exact integral_simplex_zero (sub_nonneg.mpr hy.2) fun η => f (Fin.cons x (Fin.cons y η))

theorem mean2_simplex {f : (Fin 2 → ℝ) → ℝ} (hf : Continuous f) : mean2 f = 2 * ∫ ξ in Simplex 2 1, f ξ := by
  rw [integral_simplex_two zero_le_one hf, mean2]

theorem mean3_simplex {f : (Fin 3 → ℝ) → ℝ} (hf : Continuous f) : mean3 f = 6 * ∫ ξ in Simplex 3 1, f ξ := by
  rw [integral_simplex_succ zero_le_one hf, mean3]
  congr 1
  refine intervalIntegral.integral_congr fun x hx => ?_
  rw [Set.uIcc_of_le zero_le_one] at hx
  have hc : Continuous fun η : Fin 2 → ℝ => f (Fin.cons x η) := hf.comp (by fun_prop)
  simp only [integral_simplex_two (sub_nonneg.mpr hx.2) hc]
  rfl

/-- the volume of the reference simplex -/
theorem simplex_volume (n : Nat) {t : ℝ} (ht : 0 ≤ t) : ∫ _ in Simplex n t, (1 : ℝ) = t ^ n / n.factorial := by
  induction n generalizing t with
  | zero => rw [integral_simplex_zero ht]; simp
  | succ n ih =>
    rw [integral_simplex_succ ht continuous_const]
    have h : ∀ x ∈ Set.uIcc 0 t, ∫ _ in Simplex n (t - x), (1 : ℝ) = (t - x) ^ n / n.factorial := by
      intro x hx
      rw [Set.uIcc_of_le ht] at hx
      exact ih (sub_nonneg.mpr hx.2)
    rw [intervalIntegral.integral_congr h, intervalIntegral.integral_div,
      intervalIntegral.integral_comp_sub_left (fun x => x ^ n)]
    simp only [sub_self, sub_zero, integral_pow]
    rw [Nat.factorial_succ]
    push_cast
    rw [zero_pow (Nat.succ_ne_zero n)]
    field_simp
    ring

end Mito.Geometry
