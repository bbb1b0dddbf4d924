import Verif.Topology.Edges
import Verif.Spec.Topology
import Verif.Spec.FlipDiagonal

/-! # Specification: the edges of a simplex (C115) -/

namespace Mito.Topology

/-- among the oriented segments in `l` is one from `u` to `v` -/
def Runs (t : Topo) (l : List Id) (u v : Id) : Prop := ∃ e ∈ l, t.tail e = some u ∧ t.head e = some v

/-- the oriented segments in `l`, in some order, run along the directed edges `E` -/
def RunAlong (t : Topo) (l : List Id) (E : List (Id × Id)) : Prop :=
  (l.map fun e => (t.tail e, t.head e)).Perm (E.map fun p => (some p.1, some p.2))

instance (t : Topo) (l : List Id) (E : List (Id × Id)) : Decidable (RunAlong t l E) := by
  unfold RunAlong; infer_instance

end Mito.Topology
