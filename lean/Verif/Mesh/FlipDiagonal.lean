import Verif.Mesh.Boundary
import Verif.Topology.FlipDiagonal

/-! # Model of `flip_diagonal` on geometric simplices -/

namespace Mito.Meshes

open Mito.Topology

/-- `flip_diagonal`, lib/mito/geometry/utilities.h:147-169: the nodes of the second simplex come first -/
def flipDiagonal (t : Topo) (c0 c1 : GCell) : Outcome (Topo × GCell × GCell) :=
  match t.flipDiagonal c0.simplex c1.simplex with
  | .ok (t1, x, y) =>
    match geometricSimplex t1 2 x (c1.nodes ++ c0.nodes) with
    | none => .fails
    | some (t2, d0) =>
      match geometricSimplex t2 2 y (c1.nodes ++ c0.nodes) with
      | none => .fails
      | some (t3, d1) => .ok (t3, d0, d1)
  | .throws => .throws
  | .assertion => .assertion
  | .undefined => .undefined
  | .fails => .fails

end Mito.Meshes
