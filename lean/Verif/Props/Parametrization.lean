import Verif.Fem.ElementsLemmas
import Verif.Spec.Integrator
import Mathlib.LinearAlgebra.AffineSpace.AffineMap

/-! # C43: parametrizations of geometric simplices -/

namespace Mito.Geometry

open Mito.Functions Mito.Fem

variable {n d : Nat}

/-- the point with the given barycentric coordinates -/
theorem parametrization_barycentric (x : Fin (n + 2) → Val (.vec d)) (ξ : Val (.vec (n + 1))) :
    (parametrization x).eval ξ = ∑ a, barycentric ξ a • x a := by
  funext i
  rw [parametrization_eval, Finset.sum_apply]
  refine Finset.sum_congr rfl fun a _ => ?_
  rw [xi_eval, Pi.smul_apply, smul_eq_mul]
  congr 1

theorem barycentric_sum (ξ : Fin n → ℝ) : ∑ a, barycentric ξ a = 1 := by
  simp [Fin.sum_univ_castSucc, barycentric]

theorem barycentric_nonneg {ξ : Fin n → ℝ} (h : ξ ∈ Simplex n 1) (a : Fin (n + 1)) : 0 ≤ barycentric ξ a := by
  induction a using Fin.lastCases with
  | last => simpa [barycentric] using h.2
  | cast a => simpa [barycentric] using h.1 a

theorem barycentric_refVertex (a b : Fin (n + 1)) : barycentric (refVertex n a) b = if a = b then 1 else 0 := by
  induction b using Fin.lastCases with
  | cast b => simp [barycentric, refVertex]
  | last =>
    induction a using Fin.lastCases with
    | last =>
      have : ∀ i : Fin n, ¬ (Fin.last n = i.castSucc) := fun i h => (Fin.castSucc_lt_last i).ne h.symm
      simp [barycentric, refVertex, this]
    | cast a => simp [barycentric, refVertex, (Fin.castSucc_lt_last a).ne]

/-- the vertices of the reference simplex are mapped to the nodes -/
theorem parametrization_vertex (x : Fin (n + 2) → Val (.vec d)) (a : Fin (n + 2)) :
    (parametrization x).eval (refVertex (n + 1) a) = x a := by
  rw [parametrization_barycentric]
  simp [barycentric_refVertex]

theorem parametrization_affine (x : Fin (n + 2) → Val (.vec d)) (ξ η : Val (.vec (n + 1))) (s t : ℝ) (h : s + t = 1) :
    (parametrization x).eval (s • ξ + t • η) = s • (parametrization x).eval ξ + t • (parametrization x).eval η := by
  have hb : ∀ a, barycentric (s • ξ + t • η) a = s * barycentric ξ a + t * barycentric η a := by
    intro a
    induction a using Fin.lastCases with
    | last =>
      simp [barycentric, Finset.sum_add_distrib, ← Finset.mul_sum]
      linear_combination -h
    | cast a => simp [barycentric]
  simp only [parametrization_barycentric, hb, add_smul, Finset.sum_add_distrib, Finset.smul_sum, smul_smul]

theorem simplex_convex (n : Nat) (t : ℝ) : Convex ℝ (Simplex n t) := by
  rintro ξ ⟨h1, h2⟩ η ⟨k1, k2⟩ s u hs hu hsu
  refine ⟨fun i => ?_, ?_⟩
  · simpa using add_nonneg (mul_nonneg hs (h1 i)) (mul_nonneg hu (k1 i))
  · simp only [Pi.add_apply, Pi.smul_apply, smul_eq_mul, Finset.sum_add_distrib, ← Finset.mul_sum]
    calc s * ∑ i, ξ i + u * ∑ i, η i ≤ s * t + u * t :=
          add_le_add (mul_le_mul_of_nonneg_left h2 hs) (mul_le_mul_of_nonneg_left k2 hu)
      _ = t := by rw [← add_mul, hsu, one_mul]

theorem refVertex_mem (a : Fin (n + 1)) : refVertex n a ∈ Simplex n 1 := by
  refine ⟨fun i => by unfold refVertex; positivity, ?_⟩
  have h1 := barycentric_refVertex (n := n) a (Fin.last n)
  have h2 : barycentric (refVertex n a) (Fin.last n) = 1 - ∑ i, refVertex n a i := by simp [barycentric]
  have : 0 ≤ 1 - ∑ i, refVertex n a i := by
    rw [← h2, h1]
    positivity
  linarith

/-- the image of the reference simplex is the convex hull of the nodes -/
theorem parametrization_image (x : Fin (n + 2) → Val (.vec d)) :
    (parametrization x).eval '' Simplex (n + 1) 1 = convexHull ℝ (Set.range x) := by
  apply Set.Subset.antisymm
  · rintro _ ⟨ξ, hξ, rfl⟩
    rw [parametrization_barycentric]
    exact mem_convexHull_of_exists_fintype (barycentric ξ) x (barycentric_nonneg hξ) (barycentric_sum ξ)
      (fun a => Set.mem_range_self a) rfl
  · refine convexHull_min ?_ ?_
    · rintro _ ⟨a, rfl⟩
      exact ⟨refVertex (n + 1) a, refVertex_mem a, parametrization_vertex x a⟩
    · rintro _ ⟨ξ, hξ, rfl⟩ _ ⟨η, hη, rfl⟩ s t hs ht hst
      exact ⟨s • ξ + t • η, simplex_convex _ _ hξ hη hs ht hst, parametrization_affine x ξ η s t hst⟩

/-- the parametrization is determined by the nodes: it is the only affine map that takes the vertices to them -/
theorem parametrization_unique (x : Fin (n + 2) → Val (.vec d)) (f : Val (.vec (n + 1)) →ᵃ[ℝ] Val (.vec d))
    (h : ∀ a, f (refVertex (n + 1) a) = x a) (ξ : Val (.vec (n + 1))) : (parametrization x).eval ξ = f ξ := by
  have h0 : refVertex (n + 1) (Fin.last (n + 1)) = 0 := by
    funext i
    simp [refVertex, (Fin.castSucc_lt_last i).ne']
  have h1 : ∀ i : Fin (n + 1), refVertex (n + 1) i.castSucc = Pi.single i 1 := by
    intro i
    funext j
    simp [refVertex, Pi.single_apply, eq_comm]
  have h2 : f ξ = f 0 + f.linear ξ := by
    have := f.map_vadd 0 ξ
    simp at this
    rw [this, add_comm]
  have h3 : f.linear ξ = ∑ i, ξ i • f.linear (Pi.single i 1) := by
    conv_lhs => rw [pi_eq_sum_univ' ξ]
    rw [map_sum]
    refine Finset.sum_congr rfl fun i _ => ?_
    rw [map_smul]
  have h4 : ∀ i, f.linear (Pi.single i 1) = x i.castSucc - x (Fin.last (n + 1)) := by
    intro i
    rw [← h, ← h, h0, h1]
    have := f.map_vadd 0 (Pi.single i 1)
    simp at this
    rw [this]
    abel
  rw [parametrization_barycentric, Fin.sum_univ_castSucc, h2, h3, ← h0, h]
  simp only [h4, smul_sub, Finset.sum_sub_distrib, ← Finset.sum_smul]
  simp [barycentric, sub_smul]
  abel

example : (parametrization ![![1, 0], ![0, 2], ![5, 5]]).eval (refVertex 2 1) = ![0, 2] := parametrization_vertex _ _

end Mito.Geometry
