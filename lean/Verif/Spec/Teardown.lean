import Verif.Topology.Teardown
import Mathlib.Data.Finset.Lattice.Fold

/-!
# Vocabulary for the end of the topology
-/

namespace Mito.Topology

/-- the states that a history goes through, the first one included -/
def states (t : Topo) : List Op → List Topo
  | [] => [t]
  | op :: ops =>
    t :: (match step t op with
      | none => []
      | some t' => states t' ops)

/-- `sO` and `sF` list, without repetition, the addresses at which a simplex lived at some moment of
the history. -/
structure Slots (s : List Id) (ops : List Op) (sO sF : Nat → List Id) : Prop where
  nodupO : ∀ N, (sO N).Nodup
  nodupF : ∀ N, (sF N).Nodup
  memO : ∀ N o, o ∈ sO N ↔ ∃ t ∈ states (.init s) ops, o ∈ (t.lvl N).ors
  memF : ∀ N f, f ∈ sF N ↔ ∃ t ∈ states (.init s) ops, f ∈ (t.lvl N).fps

/-- the slots of oriented simplices of order `N`, in increasing order of their addresses -/
def slotsO (s : List Id) (ops : List Op) (N : Nat) : List Id :=
  let L := states (.init s) ops
  (List.range ((L.map fun t => (t.lvl N).ors.sup id).sum + 1)).filter fun i =>
    L.any fun t => i ∈ (t.lvl N).ors

/-- the slots of footprints of order `N`, in increasing order of their addresses -/
def slotsF (s : List Id) (ops : List Op) (N : Nat) : List Id :=
  let L := states (.init s) ops
  (List.range ((L.map fun t => (t.lvl N).fps.sup id).sum + 1)).filter fun i =>
    L.any fun t => i ∈ (t.lvl N).fps

/-- the simplex is alive -/
def Topo.Live (t : Topo) : Handle → Prop
  | .oriented N o => o ∈ (t.lvl N).ors
  | .footprint N f => f ∈ (t.lvl N).fps

/-- how many pointers to an oriented simplex the slots of erased footprints still hold -/
def Topo.staleO (t : Topo) (sF : Nat → List Id) (N : Nat) (o : Id) : Nat :=
  (((sF (N + 1)).filter (· ∉ (t.lvl (N + 1)).fps)).map fun f => (t.compF (N + 1) f).count o).sum

/-- how many pointers to a footprint the slots of erased oriented simplices still hold -/
def Topo.staleF (t : Topo) (sO : Nat → List Id) (N : Nat) (f : Id) : Nat :=
  (((sO N).filter (· ∉ (t.lvl N).ors)).filter fun o => t.fp N o = f).length

/-- Static objects which are complete before the first call of `topology()` hold no pointers in the
end. -/
def EarlyStaticsEmpty (es : List Event) (held : Nat → List Handle) : Prop :=
  ∀ pre k post, es = pre ++ .static k :: post → .topology ∉ pre → held k = []

end Mito.Topology
