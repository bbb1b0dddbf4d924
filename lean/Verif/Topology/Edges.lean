import Verif.Topology.Model

/-! # Model of `edges()`: the edges of a simplex -/

namespace Mito.Topology

/-- The edges of a footprint, lib/mito/topology/Simplex.h:133-160: those of the simplices in the composition, down to the triangles,
whose composition consists of edges.  There is no such member for vertices and segments.  The code inserts the edges in a
collection of the user, a `std::set` in tests/mito.lib/topology/cell_edges.cc:24-25; here they are listed in the order of insertion, and
equal ones are listed again. -/
def Topo.edgesF (t : Topo) : (N : Nat) → Id → List Id
  | 0, _ | 1, _ => []
  | 2, f => t.compF 2 f
  | N + 3, f => (t.compF (N + 3) f).flatMap fun o => t.edgesF (N + 2) (t.fp (N + 2) o)

/-- the edges of an oriented simplex: those of its footprint, lib/mito/topology/OrientedSimplex.h:157-162 -/
def Topo.edges (t : Topo) (N : Nat) (o : Id) : List Id := t.edgesF N (t.fp N o)

end Mito.Topology
