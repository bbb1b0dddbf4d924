import Verif.Mesh.FlipDiagonal
import Verif.Geometry.Coordinates

/-! # Volumes of the geometric simplices of a plane mesh -/

namespace Mito.Meshes

open Mito.Geometry Mito.Tensor

/-- `volume` of a triangle, lib/mito/manifolds/Manifold.h:118-139, in a cartesian plane, where `point` gives the coordinates of the
points of the nodes.  (Simplified: the arithmetic is that of the real numbers.) -/
noncomputable def cellVolume (point : Node → Vec 2) (c : GCell) : ℝ :=
  (cartesian 2).volume fun a => point (c.nodes.getD a ⟨0, 0⟩)

end Mito.Meshes
