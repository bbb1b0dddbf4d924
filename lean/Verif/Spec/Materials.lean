import Verif.Materials.Materials
import Mathlib.Analysis.Calculus.FDeriv.Basic
import Mathlib.Analysis.Matrix.Normed

/-! # Specification of materials (C63, C64, C76) -/

namespace Mito.Materials

open scoped Matrix.Norms.Operator

/-- `G` is the gradient of `f` at `F` (the norm of matrices does not matter) -/
def HasGradient (f : Mat3 → ℝ) (G : Mat3) (F : Mat3) : Prop := ∃ f' : Mat3 →L[ℝ] ℝ, HasFDerivAt f f' F ∧ ∀ H, f' H = dot G H

/-- the stress is the gradient of the energy -/
def Material.StressConsistent (m : Material) (F : Mat3) : Prop := HasGradient m.energy (m.stress F) F

/-- the tangents are the gradient of the stress -/
def Material.TangentsConsistent (m : Material) (F : Mat3) : Prop :=
  ∀ i J, HasGradient (fun F => m.stress F i J) (Matrix.of (m.tangents F i J)) F

def MajorSymmetric (C : Tensor4) : Prop := ∀ i j k l, C i j k l = C k l i j

def MinorSymmetric (C : Tensor4) : Prop := ∀ i j k l, C i j k l = C j i k l ∧ C i j k l = C i j l k

/-- the energy and the stress of a Gent material are defined: the logarithms and quotients are -/
def Gent.Defined (m : Gent) (F : Mat3) : Prop := 0 < F.det ∧ m.Jm ≠ 0 ∧ 0 < 1 - ((F.transpose * F).trace - 3) / m.Jm

end Mito.Materials
