import Verif.Functions.Derivative
import Verif.Materials.Materials
import Verif.Tensor.Forms

/-!
# Model of the benchmarks

Each of these benchmarks compares the time of a computation by the library with the time of the same computation on arrays.  The numbers are
reals; `std::rand` returns any natural number.
-/

namespace Mito.Benchmarks

open Mito.Functions Mito.Materials Mito.Tensor

/-! ### benchmarks/mito.lib/materials/gent.cc -/

/-- lines 17-20 of benchmarks/mito.lib/materials/gent.cc; the density is not used -/
def material : Gent := ⟨1, 1, 1⟩

/-- `epsilon`, benchmarks/mito.lib/materials/gent.cc:124 and 136 -/
noncomputable def epsilon (rand : Nat) : ℝ := 0.01 * ((rand % 20001 : Nat) / 10000.0 - 1.0)

/-- `F` in row-major order, benchmarks/mito.lib/materials/gent.cc:27-28 -/
noncomputable def arrayF (e : ℝ) : Fin 9 → ℝ := ![1 + e, e, e, e, 1 + e, e, e, e, 1 + e]

/-- `F`, benchmarks/mito.lib/materials/gent.cc:110-112 -/
noncomputable def matrixF (e : ℝ) : Mat3 := !![1 + e, e, e; e, 1 + e, e; e, e, 1 + e]

/-- `detF`, benchmarks/mito.lib/materials/gent.cc:31-42 -/
def arrayDet (F : Fin 9 → ℝ) : ℝ :=
  F 0 * (F 4 * F 8 - F 5 * F 7) - F 1 * (F 3 * F 8 - F 5 * F 6) + F 2 * (F 3 * F 7 - F 4 * F 6)

/-- `F_inv`, benchmarks/mito.lib/materials/gent.cc:44-51 -/
noncomputable def arrayInverse (F : Fin 9 → ℝ) : Fin 9 → ℝ :=
  let detinv := 1.0 / arrayDet F
  ![detinv * (F 4 * F 8 - F 5 * F 7), detinv * (-F 1 * F 8 + F 2 * F 7), detinv * (F 1 * F 5 - F 2 * F 4),
    detinv * (-F 3 * F 8 + F 5 * F 6), detinv * (F 0 * F 8 - F 2 * F 6), detinv * (-F 0 * F 5 + F 2 * F 3),
    detinv * (F 3 * F 7 - F 4 * F 6), detinv * (-F 0 * F 7 + F 1 * F 6), detinv * (F 0 * F 4 - F 1 * F 3)]

/-- `gent_array` for a deformation gradient and a material, benchmarks/mito.lib/materials/gent.cc:53-102 -/
noncomputable def gentArray (m : Gent) (F : Fin 9 → ℝ) : Fin 9 → ℝ :=
  let F_inv := arrayInverse F
  let detF := arrayDet F
  let Jsq_minus_1 := detF * detF - 1
  let logJ := Real.log detF
  let trC := F 0 * F 0 + F 1 * F 1 + F 2 * F 2 + F 3 * F 3 + F 4 * F 4 + F 5 * F 5 + F 6 * F 6 + F 7 * F 7 + F 8 * F 8
  let A := 0.5 * Jsq_minus_1 - logJ
  let C := m.Jm - trC + 3
  let B := m.Jm / C
  let p := fun i j => m.mu * B * F i + (2 * m.kappa * A * A * A * Jsq_minus_1 - m.mu) * F_inv j
  ![p 0 0, p 1 3, p 2 6, p 3 1, p 4 4, p 5 7, p 6 2, p 7 5, p 8 8]

/-- `gent_mito`, benchmarks/mito.lib/materials/gent.cc:104-117 -/
noncomputable def gentMito (e : ℝ) : Mat3 := material.stress (matrixF e)

/-- the array of a matrix in row-major order -/
def rowMajor (F : Mat3) : Fin 9 → ℝ := ![F 0 0, F 0 1, F 0 2, F 1 0, F 1 1, F 1 2, F 2 0, F 2 1, F 2 2]

/-! ### benchmarks/mito.lib/tensor/wedge.cc -/

/-- `wedge_array`, benchmarks/mito.lib/tensor/wedge.cc:14-22 -/
def wedgeArray (a b xi1 xi2 : Fin 3 → ℝ) : ℝ :=
  (a 0 * xi1 0 + a 1 * xi1 1 + a 2 * xi1 2) * (b 0 * xi2 0 + b 1 * xi2 1 + b 2 * xi2 2) -
    (b 0 * xi1 0 + b 1 * xi1 1 + b 2 * xi1 2) * (a 0 * xi2 0 + a 1 * xi2 1 + a 2 * xi2 2)

/-- the two-form of benchmarks/mito.lib/tensor/wedge.cc:60-74 for vectors `a` and `b`, called with `xi1` and `xi2` as on line 29 -/
def wedgeMito (a b xi1 xi2 : Fin 3 → ℝ) : ℝ := wedge2 (oneForm a 1) (oneForm b 1) xi1 xi2

/-! ### benchmarks/mito.lib/fields/laplacian.cc -/

/-- `laplacian_baseline`, benchmarks/mito.lib/fields/laplacian.cc:30-38 -/
def laplacianBaseline (x : Val (.vec 2)) : ℝ :=
  12 * x 0 * x 0 * x 1 * x 1 * x 1 * x 1 + 12 * x 1 * x 1 * x 0 * x 0 * x 0 * x 0

/-- `f`, benchmarks/mito.lib/fields/laplacian.cc:45-50 -/
def quartic : Expr (.vec 2) .scalar := .compS (.prim (.pow 3)) (.mul (.component 0) (.component 1))

/-- `laplacian_mito`, benchmarks/mito.lib/fields/laplacian.cc:42-63 -/
noncomputable def laplacianMito (x : Val (.vec 2)) : ℝ := (divergence (gradient quartic)).eval x ()

/-- `random_coordinate`, benchmarks/mito.lib/fields/laplacian.cc:17-26: both coordinates are the same number -/
noncomputable def randomCoordinate (rand : ℝ) : Val (.vec 2) := ![rand, rand]

end Mito.Benchmarks
