import Verif.Geometry.Coordinates

/-! # Quadrilaterals -/

namespace Mito.Geometry

open Mito.Tensor

/-- the open segments from `a` to `b` and from `c` to `d` meet: the quadrilateral with these diagonals is convex -/
def Crossing (a b c d : Vec 2) : Prop :=
  ∃ s ∈ Set.Ioo (0 : ℝ) 1, ∃ r ∈ Set.Ioo (0 : ℝ) 1, (1 - s) • a + s • b = (1 - r) • c + r • d

end Mito.Geometry
