import Verif.Spec.Coordinates
import Verif.Geometry.Gradient
import Mathlib.Analysis.Calculus.FDeriv.Basic

/-! # Specification of gradients and divergences in curvilinear coordinates (C112) -/

namespace Mito.Geometry

open Mito.Tensor Mito.Functions Filter Topology

variable {d : Nat}

/-- `G` is the gradient of a function of positions -/
def HasGradient (F : Vec d → ℝ) (G p : Vec d) : Prop := ∃ L : Vec d →L[ℝ] ℝ, HasFDerivAt F L p ∧ ∀ v, L v = G ⬝ᵥ v

/-- `c` is the divergence of a vector field of positions -/
def HasDivergence (W : Vec d → Vec d) (c : ℝ) (p : Vec d) : Prop :=
  ∃ L : Vec d →L[ℝ] Vec d, HasFDerivAt W L p ∧ ∑ i, L (Pi.single i 1) i = c

/-- the scalar field `f` in coordinates is the function `F` of the positions -/
def Represents (pos : Vec d → Vec d) (f : Expr (.vec d) .scalar) (F : Vec d → ℝ) (A : Vec d) : Prop :=
  ∀ᶠ B in 𝓝 A, f.eval B () = F (pos B)

/-- the vector field `v` in coordinates, written in the frame, is the vector field `W` of the positions -/
def RepresentsV (pos : Vec d → Vec d) (frame : Vec d → Mat d) (v : Expr (.vec d) (.vec d)) (W : Vec d → Vec d) (A : Vec d) : Prop :=
  ∀ᶠ B in 𝓝 A, (frame B).mulVec (v.eval B) = W (pos B)

/-- `D I` is the derivative of the frame with respect to the coordinate `I` -/
def FrameDerivative (frame : Vec d → Mat d) (D : Fin d → Mat d) (A : Vec d) : Prop :=
  ∀ I i k, HasDerivAt (fun t => frame (Function.update A I t) i k) (D I i k) (A I)

end Mito.Geometry
