import Verif.Geometry.Coordinates
import Mathlib.Analysis.Calculus.Deriv.Basic

/-! # Specification of coordinates (C34–C42, C72) -/

namespace Mito.Geometry

open Mito.Tensor

/-- the oriented volume of a simplex: the determinant of its edge vectors -/
noncomputable def simplexVolume {d : Nat} (x : Fin (d + 1) → Vec d) : ℝ :=
  (d.factorial : ℝ)⁻¹ * Matrix.det (Matrix.of fun j : Fin d => x j.succ - x 0)

/-- curvilinear coordinates of Euclidean space: `pos` gives the positions, and the columns of `frame x` are the orthonormal frame in
which vectors at `x` are written -/
structure Chart {d : Nat} (S : System d) (dom : Set (Vec d)) (pos : Vec d → Vec d) (frame : Vec d → Mat d) : Prop where
  orthogonal : ∀ A, (frame A).transpose * frame A = 1
  oriented : ∀ A, (frame A).det = 1
  add : ∀ A ∈ dom, ∀ v, pos (S.add A v) = pos A + (frame A).mulVec v
  sub : ∀ A ∈ dom, ∀ B, (frame A).mulVec (S.sub B A) = pos B - pos A

/-- the directions of increasing `r` and `θ` -/
noncomputable def polarFrame (A : Vec 2) : Mat 2 := !![Real.cos (A 1), -Real.sin (A 1); Real.sin (A 1), Real.cos (A 1)]

/-- the directions of increasing `r`, `θ` and `φ` -/
noncomputable def sphericalFrame (A : Vec 3) : Mat 3 :=
  !![Real.sin (A 1) * Real.cos (A 2), Real.cos (A 1) * Real.cos (A 2), -Real.sin (A 2);
     Real.sin (A 1) * Real.sin (A 2), Real.cos (A 1) * Real.sin (A 2), Real.cos (A 2);
     Real.cos (A 1), -Real.sin (A 1), 0]

/-- the coordinate basis is the one of the chart: the partial derivatives of the position -/
def CoordinateBasis {d : Nat} (S : System d) (pos : Vec d → Vec d) (frame : Vec d → Mat d) : Prop :=
  ∀ (A : Vec d) (I : Fin d), HasDerivAt (fun t => pos (Function.update A I t)) ((frame A).mulVec (S.e I A)) (A I)

/-- the metric is the one of the coordinate basis -/
def GramMetric {d : Nat} (S : System d) : Prop := ∀ (A : Vec d) (I J : Fin d), S.g A I J = S.e I A ⬝ᵥ S.e J A

/-- the volume of the parallelotope with the given edges -/
noncomputable def parallelotope {d n : Nat} (v : Fin n → Vec d) : ℝ :=
  Real.sqrt (Matrix.det (Matrix.of fun i j : Fin n => v i ⬝ᵥ v j))

/-- `b` is `a` up to a multiple of `2π` -/
def SameAngle (a b : ℝ) : Prop := ∃ k : ℤ, b = a + k * (2 * Real.pi)

end Mito.Geometry
