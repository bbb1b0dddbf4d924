import Mathlib.Analysis.SpecialFunctions.Log.Basic
import Mathlib.LinearAlgebra.Matrix.NonsingularInverse
import Mathlib.LinearAlgebra.Matrix.Trace

/-!
# Model of the materials, lib/mito/materials

`double` is the set of reals.  `std::log` of a number that is not positive is a NaN in the code and some number in the model: see
`Gent.Defined` in `Verif/Spec/Materials.lean`.
-/

namespace Mito.Materials

/-- `tensor::matrix_t<3>` -/
abbrev Mat3 := Matrix (Fin 3) (Fin 3) ℝ

/-- `tensor::fourth_order_tensor_t<3>` -/
abbrev Tensor4 := Fin 3 → Fin 3 → Fin 3 → Fin 3 → ℝ

/-- `tensor::dot` of matrices (pyre) -/
def dot (A B : Mat3) : ℝ := ∑ i, ∑ j, A i j * B i j

/-- `tensor::symmetric` (pyre) -/
noncomputable def symmetric (A : Mat3) : Mat3 := (1 / 2 : ℝ) • (A + A.transpose)

/-- `tensor::norm` of a matrix (pyre) -/
noncomputable def norm (A : Mat3) : ℝ := Real.sqrt (dot A A)

/-- `tensor::norm` of a fourth order tensor (pyre) -/
noncomputable def norm4 (C : Tensor4) : ℝ := Real.sqrt (∑ i, ∑ j, ∑ k, ∑ l, C i j k l * C i j k l)

/-- a material: its energy, stress and tangents, functions of the deformation gradient -/
structure Material where
  energy : Mat3 → ℝ
  stress : Mat3 → Mat3
  tangents : Mat3 → Tensor4

/-! ## `LinearElastic`, lib/mito/materials/LinearElastic.h -/

/-- lib/mito/materials/LinearElastic.h:26-54; the density is left out -/
structure LinearElastic where
  E : ℝ
  nu : ℝ

namespace LinearElastic

/-- lib/mito/materials/LinearElastic.h:30 -/
noncomputable def lambda (m : LinearElastic) : ℝ := m.E * m.nu / ((1.0 + m.nu) * (1.0 - 2.0 * m.nu))

/-- lib/mito/materials/LinearElastic.h:31 -/
noncomputable def mu (m : LinearElastic) : ℝ := m.E / (2.0 * (1.0 + m.nu))

/-- lib/mito/materials/LinearElastic.h:67-78 -/
noncomputable def stress (m : LinearElastic) (F : Mat3) : Mat3 :=
  let epsilon := symmetric (F - 1)
  let tr := epsilon.trace
  (m.lambda * tr) • (1 : Mat3) + (2.0 * m.mu) • epsilon

/-- lib/mito/materials/LinearElastic.h:57-65 -/
noncomputable def energy (m : LinearElastic) (F : Mat3) : ℝ :=
  let epsilon := symmetric (F - 1)
  0.5 * dot (m.stress F) epsilon

/-- `C[{ i, j, k, l }] += x` -/
noncomputable def add (C : Tensor4) (i j k l : Fin 3) (x : ℝ) : Tensor4 :=
  fun i' j' k' l' => if i' = i ∧ j' = j ∧ k' = k ∧ l' = l then C i' j' k' l' + x else C i' j' k' l'

/-- the body of the loop of `tangents`, lib/mito/materials/LinearElastic.h:88-93 -/
noncomputable def tangentsBody (m : LinearElastic) (C : Tensor4) (a b : Fin 3) : Tensor4 :=
  add (add (add C a a b b m.lambda) a b a b m.mu) b a a b m.mu

/-- lib/mito/materials/LinearElastic.h:80-98 -/
noncomputable def tangents (m : LinearElastic) (_ : Mat3) : Tensor4 :=
  (List.finRange 3).foldl (fun C a => (List.finRange 3).foldl (fun C b => m.tangentsBody C a b) C) fun _ _ _ _ => 0

/-- the material -/
noncomputable def material (m : LinearElastic) : Material := ⟨m.energy, m.stress, m.tangents⟩

end LinearElastic

/-! ## `Gent`, lib/mito/materials/Gent.h -/

/-- lib/mito/materials/Gent.h:24-51; the density is left out -/
structure Gent where
  kappa : ℝ
  mu : ℝ
  Jm : ℝ

namespace Gent

/-- lib/mito/materials/Gent.h:54-72 -/
noncomputable def energy (m : Gent) (F : Mat3) : ℝ :=
  let detF := F.det
  let Jsq_minus_1 := detF * detF - 1
  let logJ := Real.log detF
  let trC := (F.transpose * F).trace
  let A := 0.5 * Jsq_minus_1 - logJ;
  -0.5 * m.mu * (m.Jm * Real.log (1 - (trC - 3) / m.Jm) + 2 * logJ) + 0.5 * m.kappa * A * A * A * A

/-- lib/mito/materials/Gent.h:74-97 -/
noncomputable def stress (m : Gent) (F : Mat3) : Mat3 :=
  let invF := F⁻¹
  let detF := F.det
  let Jsq_minus_1 := detF * detF - 1
  let logJ := Real.log detF
  let trC := (F.transpose * F).trace
  let A := 0.5 * Jsq_minus_1 - logJ
  let C := m.Jm - trC + 3
  let B := m.Jm / C
  (m.mu * B) • F + (2 * m.kappa * A * A * A * Jsq_minus_1 - m.mu) • invF.transpose

/-- lib/mito/materials/Gent.h:99-149; each entry is the sum of what the loops add to it -/
noncomputable def tangents (m : Gent) (F : Mat3) : Tensor4 :=
  let invF := F⁻¹
  let detF := F.det
  let Jsq_minus_1 := detF * detF - 1
  let logJ := Real.log detF
  let trC := (F.transpose * F).trace
  let A := 0.5 * Jsq_minus_1 - logJ
  let C := m.Jm - trC + 3
  let B := m.Jm / C
  let coef_0 := m.mu * B
  let coef_1 := 2.0 * m.mu * m.Jm / (C * C)
  let coef_2 := m.mu - 2 * m.kappa * A * A * A * Jsq_minus_1
  let coef_3 := 2.0 * m.kappa * (3.0 * A * A * Jsq_minus_1 * Jsq_minus_1 + 2.0 * detF * detF * A * A * A)
  fun i J k L => (if i = k ∧ J = L then coef_0 else 0) +
    (coef_1 * F i J * F k L + coef_2 * invF J k * invF L i + coef_3 * invF J i * invF L k)

/-- the material -/
noncomputable def material (m : Gent) : Material := ⟨m.energy, m.stress, m.tangents⟩

end Gent

/-! ## `MaterialConsistencyTest`, lib/mito/materials/MaterialConsistencyTest.h -/

/-- `F` with `x` added to one entry -/
noncomputable def perturb (F : Mat3) (i j : Fin 3) (x : ℝ) : Mat3 := F + Matrix.single i j x

/-- `_energy_increment`, lib/mito/materials/MaterialConsistencyTest.h:29-61 -/
noncomputable def energyIncrement (m : Material) (h : ℝ) (F : Mat3) : Mat3 :=
  Matrix.of fun i j => m.energy (perturb F i j h) - m.energy (perturb F i j (-h))

/-- `_stress_increment`, lib/mito/materials/MaterialConsistencyTest.h:63-100 -/
noncomputable def stressIncrement (m : Material) (h : ℝ) (F : Mat3) : Tensor4 :=
  fun i j k l => m.stress (perturb F k l h) i j - m.stress (perturb F k l (-h)) i j

/-- `test_stress`, lib/mito/materials/MaterialConsistencyTest.h:104-126 -/
def testStress (m : Material) (h tol : ℝ) (F : Mat3) : Prop :=
  norm (energyIncrement m h F - (2.0 * h) • m.stress F) < tol

/-- `test_tangents`, lib/mito/materials/MaterialConsistencyTest.h:129-151 -/
def testTangents (m : Material) (h tol : ℝ) (F : Mat3) : Prop :=
  norm4 (fun i j k l => stressIncrement m h F i j k l - m.tangents F i j k l * 2.0 * h) < tol

end Mito.Materials
