import Verif.Spec.FlipDiagonal

/-! # Specification: the faces of a tetrahedron (C83) -/

namespace Mito.Topology

/-- the oriented triangles in `l`, taken in a suitable order, are the faces of the tetrahedron with the different vertices
`a b c d`, each oriented as `Topology::tetrahedron` does -/
def BoundsTetrahedron (t : Topo) (l : List Id) : Prop :=
  ∃ a b c d, [a, b, c, d].Nodup ∧ ∃ x y z w, l.Perm [x, y, z, w] ∧
    IsTriangle t x a b c ∧ IsTriangle t y b d c ∧ IsTriangle t z d b a ∧ IsTriangle t w d a c

end Mito.Topology
