import Verif.Spec.Boundary
import Verif.Spec.Coordinates

/-! # Specification vocabulary for sums over a mesh and over its boundary (C77) -/

namespace Mito.Meshes

open Mito.Topology Mito.Geometry Mito.Tensor

/-- a function of oriented simplices: exchanging two vertices changes the sign -/
def Alternating (w : List Id → ℝ) : Prop :=
  ∀ p x m y s, w (p ++ x :: (m ++ y :: s)) = - w (p ++ y :: (m ++ x :: s))

/-- the value of `g` at the only vertex -/
def atVertex (g : Id → ℝ) : List Id → ℝ
  | [a] => g a
  | _ => 0

/-- the difference of `g` between the ends of a segment -/
def overEnds (g : Id → ℝ) : List Id → ℝ
  | [a, b] => g b - g a
  | _ => 0

/-- the sum of `w` over the edges of a triangle -/
def overEdges (w : List Id → ℝ) : List Id → ℝ
  | [a, b, c] => w [a, b] + w [b, c] + w [c, a]
  | _ => 0

/-- the sum of `w` over the faces of a tetrahedron, with the orientation induced by the one of the tetrahedron -/
def overFaces (w : List Id → ℝ) : List Id → ℝ
  | [a, b, c, d] => w [b, c, d] - w [a, c, d] + w [a, b, d] - w [a, b, c]
  | _ => 0

/-- the vertices of a cell, in the order of its nodes -/
def GCell.vertices (c : GCell) : List Id := c.nodes.map (·.vertex)

/-- the signed area of the triangle on three vertices at the positions `p` -/
noncomputable def area (p : Id → Vec 2) : List Id → ℝ
  | [a, b, c] => simplexVolume ![p a, p b, p c]
  | _ => 0

/-- the signed volume of the tetrahedron on four vertices at the positions `p` -/
noncomputable def volume (p : Id → Vec 3) : List Id → ℝ
  | [a, b, c, d] => simplexVolume ![p a, p b, p c, p d]
  | _ => 0

/-- the flux of the field `F` through the segment from `a` to `b` (to its right), with the midpoint rule -/
noncomputable def flux2 (F : Vec 2 → Vec 2) (p : Id → Vec 2) : List Id → ℝ
  | [a, b] =>
    let x := F ((1 / 2 : ℝ) • (p a + p b))
    x 0 * (p b 1 - p a 1) - x 1 * (p b 0 - p a 0)
  | _ => 0

/-- the flux of the field `F` through the triangle `a b c` (along `(b - a) × (c - a)`), with the rule of the barycenter -/
noncomputable def flux3 (F : Vec 3 → Vec 3) (p : Id → Vec 3) : List Id → ℝ
  | [a, b, c] =>
    let x := F ((1 / 3 : ℝ) • (p a + p b + p c))
    1 / 2 * Matrix.det !![x 0, x 1, x 2; p b 0 - p a 0, p b 1 - p a 1, p b 2 - p a 2; p c 0 - p a 0, p c 1 - p a 1, p c 2 - p a 2]
  | _ => 0

end Mito.Meshes
