import Verif.Fem.Elements
import Mathlib.Analysis.Calculus.FDeriv.Basic
import Mathlib.Topology.Algebra.Module.LinearMapPiProd

/-! # Specification of elements (C50, C51, C52) -/

namespace Mito.Fem

open Mito.Functions

/-- `v` is the gradient of `g` at `y` -/
def HasGradient {d : Nat} (g : Val (.vec d) → ℝ) (v : Val (.vec d)) (y : Val (.vec d)) : Prop :=
  HasFDerivAt g (∑ i : Fin d, v i • ContinuousLinearMap.proj (R := ℝ) (φ := fun _ : Fin d => ℝ) i) y

/-- the affine function with the given coefficients -/
def affine {d : Nat} (c : ℝ) (l : Fin d → ℝ) (y : Val (.vec d)) : ℝ := c + ∑ i : Fin d, l i * y i

/-- the quadratic function with the given coefficients -/
def quadratic {d : Nat} (c : ℝ) (l : Fin d → ℝ) (q : Fin d → Fin d → ℝ) (y : Val (.vec d)) : ℝ :=
  affine c l y + ∑ i : Fin d, ∑ j : Fin d, q i j * (y i * y j)

/-- the parametric coordinates of the nodes of the segment -/
def nodesSeg1 : Fin 2 → Val (.vec 1)
  | 0 => ![0]
  | 1 => ![1]

/-- the parametric coordinates of the nodes of the linear triangle -/
def nodesRef : Fin 3 → Val (.vec 2)
  | 0 => ![1, 0]
  | 1 => ![0, 1]
  | 2 => ![0, 0]

/-- the length of a segment from its first to its second node -/
def length (x : Fin 2 → Val (.vec 1)) : ℝ := x 1 0 - x 0 0

/-- the area of a triangle, positive if its nodes are counterclockwise -/
noncomputable def triangleArea (x : Fin 3 → Val (.vec 2)) : ℝ :=
  ((x 1 0 - x 0 0) * (x 2 1 - x 0 1) - (x 2 0 - x 0 0) * (x 1 1 - x 0 1)) / 2

end Mito.Fem
