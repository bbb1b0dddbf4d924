import Verif.Spec.Materials
import Mathlib.Analysis.Calculus.FDeriv.Mul
import Mathlib.Analysis.Calculus.FDeriv.Add
import Mathlib.Analysis.SpecialFunctions.Log.Deriv
import Mathlib.Topology.Algebra.Module.FiniteDimension
import Mathlib.LinearAlgebra.Matrix.Adjugate

/-! # Derivatives of functions of matrices -/

namespace Mito.Materials

open scoped Matrix.Norms.Operator

/-- an entry of a matrix -/
noncomputable def entry (i j : Fin 3) : Mat3 →L[ℝ] ℝ := LinearMap.toContinuousLinearMap (Matrix.entryLinearMap ℝ ℝ i j)

@[simp] theorem entry_apply (i j : Fin 3) (H : Mat3) : entry i j H = H i j := rfl

theorem entry_deriv (i j : Fin 3) (F : Mat3) : HasFDerivAt (fun F : Mat3 => F i j) (entry i j) F := (entry i j).hasFDerivAt

theorem HasGradient.entry (i j : Fin 3) (F : Mat3) : HasGradient (fun F => F i j) (Matrix.single i j 1) F := by
  refine ⟨_, entry_deriv i j F, fun H => ?_⟩
  simp only [dot, entry_apply, Matrix.single_apply, ite_mul, one_mul, zero_mul]
  rw [Finset.sum_eq_single i, Finset.sum_eq_single j]
  · simp
  · intro b _ hb; simp [hb.symm]
  · simp
  · intro b _ hb; simp [hb.symm]
  · simp

theorem dot_add_left (A B H : Mat3) : dot (A + B) H = dot A H + dot B H := by
  simp only [dot, Matrix.add_apply, add_mul, Finset.sum_add_distrib]

theorem dot_smul_left (c : ℝ) (A H : Mat3) : dot (c • A) H = c * dot A H := by
  simp only [dot, Matrix.smul_apply, smul_eq_mul, mul_assoc, Finset.mul_sum]

theorem dot_zero_left (H : Mat3) : dot 0 H = 0 := by simp [dot]

theorem HasGradient.const (c : ℝ) (F : Mat3) : HasGradient (fun _ => c) 0 F :=
  ⟨0, hasFDerivAt_const c F, fun H => by rw [dot_zero_left]; rfl⟩

theorem HasGradient.add {f g : Mat3 → ℝ} {A B F : Mat3} (hf : HasGradient f A F) (hg : HasGradient g B F) :
    HasGradient (fun F => f F + g F) (A + B) F := by
  obtain ⟨f', hf, ef⟩ := hf
  obtain ⟨g', hg, eg⟩ := hg
  exact ⟨f' + g', hf.add hg, fun H => by rw [dot_add_left, ← ef, ← eg]; rfl⟩

theorem HasGradient.mul {f g : Mat3 → ℝ} {A B F : Mat3} (hf : HasGradient f A F) (hg : HasGradient g B F) :
    HasGradient (fun F => f F * g F) (f F • B + g F • A) F := by
  obtain ⟨f', hf, ef⟩ := hf
  obtain ⟨g', hg, eg⟩ := hg
  exact ⟨f F • g' + g F • f', hf.mul hg, fun H => by rw [dot_add_left, dot_smul_left, dot_smul_left, ← ef, ← eg]; rfl⟩

theorem HasGradient.comp {φ : ℝ → ℝ} {φ' : ℝ} {f : Mat3 → ℝ} {A F : Mat3} (hφ : HasDerivAt φ φ' (f F)) (hf : HasGradient f A F) :
    HasGradient (fun F => φ (f F)) (φ' • A) F := by
  obtain ⟨f', hf, ef⟩ := hf
  exact ⟨φ' • f', hφ.comp_hasFDerivAt F hf, fun H => by rw [dot_smul_left, ← ef]; rfl⟩

theorem HasGradient.sum {ι : Type} (s : Finset ι) {f : ι → Mat3 → ℝ} {A : ι → Mat3} {F : Mat3} (h : ∀ i ∈ s, HasGradient (f i) (A i) F) :
    HasGradient (fun F => ∑ i ∈ s, f i F) (∑ i ∈ s, A i) F := by
  classical
  induction s using Finset.induction_on with
  | empty => simpa using HasGradient.const 0 F
  | insert i s hi ih =>
    simp only [Finset.sum_insert hi]
    exact (h i (Finset.mem_insert_self i s)).add (ih fun j hj => h j (Finset.mem_insert_of_mem hj))

theorem HasGradient.congr {f : Mat3 → ℝ} {A B F : Mat3} (h : HasGradient f A F) (e : A = B) : HasGradient f B F := e ▸ h

/-- gradients are unique -/
theorem HasGradient.unique {f : Mat3 → ℝ} {A B F : Mat3} (hA : HasGradient f A F) (hB : HasGradient f B F) : A = B := by
  obtain ⟨f', hf, ef⟩ := hA
  obtain ⟨g', hg, eg⟩ := hB
  have e := hf.unique hg
  subst e
  have key : ∀ (G : Mat3) i j, dot G (Matrix.single i j 1) = G i j := by
    intro G i j
    simp only [dot, Matrix.single_apply, mul_ite, mul_one, mul_zero]
    rw [Finset.sum_eq_single i, Finset.sum_eq_single j]
    · simp
    · intro b _ hb; simp [hb.symm]
    · simp
    · intro b _ hb; simp [hb.symm]
    · simp
  ext i j
  rw [← key A, ← key B, ← ef, ← eg]

/-- the derivative of the determinant -/
theorem hasGradient_det {F : Mat3} (h : F.det ≠ 0) : HasGradient Matrix.det (F.det • (F⁻¹).transpose) F := by
  have e : Matrix.det = fun F : Mat3 => F 0 0 * (F 1 1 * F 2 2) + -1 * (F 0 0 * (F 1 2 * F 2 1)) + -1 * (F 0 1 * (F 1 0 * F 2 2)) +
      F 0 1 * (F 1 2 * F 2 0) + F 0 2 * (F 1 0 * F 2 1) + -1 * (F 0 2 * (F 1 1 * F 2 0)) := by
    funext F
    rw [Matrix.det_fin_three]
    ring
  have hadj : F.det • (F⁻¹).transpose = F.adjugate.transpose := by
    rw [Matrix.inv_def, Ring.inverse_eq_inv', Matrix.transpose_smul, smul_smul, mul_inv_cancel₀ h, one_smul]
  rw [hadj]
  have m3 : ∀ a b c d x y : Fin 3, HasGradient (fun F : Mat3 => F a b * (F c d * F x y)) _ F := fun a b c d x y =>
    (HasGradient.entry a b F).mul ((HasGradient.entry c d F).mul (HasGradient.entry x y F))
  have n3 := fun a b c d x y : Fin 3 => (HasGradient.const (-1) F).mul (m3 a b c d x y)
  have h1 := ((((((m3 0 0 1 1 2 2).add (n3 0 0 1 2 2 1)).add (n3 0 1 1 0 2 2)).add (m3 0 1 1 2 2 0)).add (m3 0 2 1 0 2 1)).add
    (n3 0 2 1 1 2 0))
  rw [e]
  refine h1.congr ?_
  rw [Matrix.adjugate_fin_three]
  ext i j
  fin_cases i <;> fin_cases j <;> simp [Matrix.single_apply] <;> ring

theorem trace_eq (F : Mat3) : (F.transpose * F).trace = dot F F := by
  simp only [Matrix.trace, Matrix.diag_apply, Matrix.mul_apply, Matrix.transpose_apply, dot]
  exact Finset.sum_comm

theorem hasGradient_trace (F : Mat3) : HasGradient (fun F : Mat3 => (F.transpose * F).trace) ((2 : ℝ) • F) F := by
  simp only [trace_eq, dot]
  have h := HasGradient.sum Finset.univ fun i _ => HasGradient.sum Finset.univ fun j _ =>
    (HasGradient.entry i j F).mul (HasGradient.entry i j F)
  refine h.congr ?_
  ext i j
  fin_cases i <;> fin_cases j <;> simp [Fin.sum_univ_three, Matrix.single_apply] <;> ring

/-- the derivative of an entry of the inverse -/
theorem hasGradient_inv {F : Mat3} (h : F.det ≠ 0) (J i : Fin 3) :
    HasGradient (fun F => F⁻¹ J i) (Matrix.of fun k L => -(F⁻¹ J k * F⁻¹ L i)) F := by
  have hu : IsUnit F := (Matrix.isUnit_iff_isUnit_det _).mpr (isUnit_iff_ne_zero.mpr h)
  obtain ⟨u, rfl⟩ := hu
  have h1 := hasFDerivAt_ringInverse (𝕜 := ℝ) u
  have h2 := (entry J i).hasFDerivAt.comp (u : Mat3) h1
  have e : (fun F : Mat3 => F⁻¹ J i) = (entry J i) ∘ Ring.inverse := by
    funext F
    simp [Matrix.nonsing_inv_eq_ringInverse]
  refine ⟨_, e ▸ h2, fun H => ?_⟩
  have e2 : ((u : Mat3)⁻¹) = (↑u⁻¹ : Mat3) := by rw [Matrix.nonsing_inv_eq_ringInverse, Ring.inverse_unit]
  have e3 : (entry J i).comp (-(ContinuousLinearMap.mulLeftRight ℝ Mat3) ↑u⁻¹ ↑u⁻¹) H = -((↑u⁻¹ * H * ↑u⁻¹ : Mat3) J i) := rfl
  refine Eq.trans e3 ?_
  simp only [e2, dot, Matrix.of_apply, Matrix.mul_apply, Finset.sum_mul]
  rw [Finset.sum_comm, ← Finset.sum_neg_distrib]
  refine Finset.sum_congr rfl fun k _ => ?_
  rw [← Finset.sum_neg_distrib]
  refine Finset.sum_congr rfl fun L _ => ?_
  ring

end Mito.Materials
