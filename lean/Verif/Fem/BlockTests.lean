import Verif.Fem.Blocks
import Verif.Quadrature.Tables

/-! # The tests of the element matrices in the repository -/

namespace Mito.Fem

open Mito.Functions

/-- the segment of the tests, tests/mito.lib/fem/block_grad_grad_segment.cc:34-38 and tests/mito.lib/fem/block_mass_segment.cc:34-38 -/
def testSegment : Fin 2 → Val (.vec 1) := ![fun _ => 0, fun _ => 1]

/-- the triangle of the tests, tests/mito.lib/fem/block_grad_grad.cc:34-39 and tests/mito.lib/fem/block_mass.cc:34-39 -/
def testTriangle : Fin 3 → Val (.vec 2) := ![![0, 0], ![1, 0], ![0, 1]]

/-- `tensor::norm` of the difference of two matrices: the root of the sum of the squares of the entries -/
noncomputable def errorNorm {n : Nat} (m : Fin n → Fin n → ℝ) (q : Fin n → Fin n → ℚ) : ℝ :=
  Real.sqrt (∑ a, ∑ b, (m a b - (q a b : ℝ)) ^ 2)

/-- tests/mito.lib/fem/block_grad_grad_segment.cc:57 -/
def testGradGradSegment : Fin 2 → Fin 2 → ℚ := ![![1, -1], ![-1, 1]]

/-- tests/mito.lib/fem/block_mass_segment.cc:56 -/
def testMassSegment : Fin 2 → Fin 2 → ℚ := fun a b => 1 / 6 * (![![2, 1], ![1, 2]] : Fin 2 → Fin 2 → ℚ) a b

/-- tests/mito.lib/fem/block_grad_grad.cc:60-61 -/
def testGradGrad1 : Fin 3 → Fin 3 → ℚ := fun a b => 1 / 2 * (![![2, -1, -1], ![-1, 1, 0], ![-1, 0, 1]] : Fin 3 → Fin 3 → ℚ) a b

/-- tests/mito.lib/fem/block_grad_grad.cc:96-103 -/
def testGradGrad2 : Fin 6 → Fin 6 → ℚ :=
  ![![1, 1 / 6, 1 / 6, -2 / 3, 0, -2 / 3],
    ![1 / 6, 1 / 2, 0, -2 / 3, 0, 0],
    ![1 / 6, 0, 1 / 2, 0, 0, -2 / 3],
    ![-2 / 3, -2 / 3, 0, 8 / 3, -4 / 3, 0],
    ![0, 0, 0, -4 / 3, 8 / 3, -4 / 3],
    ![-2 / 3, 0, -2 / 3, 0, -4 / 3, 8 / 3]]

/-- tests/mito.lib/fem/block_mass.cc:59-60 -/
def testMass1 : Fin 3 → Fin 3 → ℚ := fun a b => 1 / 24 * (![![2, 1, 1], ![1, 2, 1], ![1, 1, 2]] : Fin 3 → Fin 3 → ℚ) a b

/-- tests/mito.lib/fem/block_mass.cc:94-101 -/
def testMass2 : Fin 6 → Fin 6 → ℚ :=
  ![![1 / 60, -1 / 360, -1 / 360, 0, -1 / 90, 0],
    ![-1 / 360, 1 / 60, -1 / 360, 0, 0, -1 / 90],
    ![-1 / 360, -1 / 360, 1 / 60, -1 / 90, 0, 0],
    ![0, 0, -1 / 90, 4 / 45, 2 / 45, 2 / 45],
    ![-1 / 90, 0, 0, 2 / 45, 4 / 45, 2 / 45],
    ![0, -1 / 90, 0, 2 / 45, 2 / 45, 4 / 45]]

end Mito.Fem
