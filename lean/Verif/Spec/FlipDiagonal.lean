import Verif.Topology.Model

/-! # Specification vocabulary for flipping diagonals (C32, C33) -/

namespace Mito.Topology

/-- `o` is the oriented triangle `a b c`: its vertices are `a b c` up to an even permutation -/
def IsTriangle (t : Topo) (o a b c : Id) : Prop :=
  ∃ l, t.verticesOf 2 o = some l ∧ Combinatorics.permutationSign l [a, b, c] = some 1

/-- the directed edges of the triangle `a b c` -/
def triangleEdges (a b c : Id) : List (Id × Id) := [(a, b), (b, c), (c, a)]

/-- the directed edges that are not traversed the other way by the others -/
def outline (E : List (Id × Id)) : List (Id × Id) := E.filter fun e => (e.2, e.1) ∉ E

/-- the subsimplices of `o`, as its composition lists them, run `a → b → c → a` -/
def Around (t : Topo) (o a b c : Id) : Prop :=
  ((t.composition 2 o).map fun s => (t.tail s, t.head s)).Perm
    [(some a, some b), (some b, some c), (some c, some a)]

instance (t : Topo) (o a b c : Id) : Decidable (Around t o a b c) := by
  unfold Around; infer_instance

/-- the two triangles have a subsimplex in common, in whatever orientation -/
def ShareEdge (t : Topo) (x y : Id) : Prop :=
  ∃ p ∈ t.composition 2 x, ∃ q ∈ t.composition 2 y, t.fp 1 p = t.fp 1 q

instance (t : Topo) (x y : Id) : Decidable (ShareEdge t x y) := by
  unfold ShareEdge; infer_instance

end Mito.Topology
