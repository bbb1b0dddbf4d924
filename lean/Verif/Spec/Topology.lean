import Verif.Topology.Model

/-! # Specification vocabulary for the topology (C14-C22) -/

namespace Mito.Topology

/-- the topology after some history of user operations, starting from an empty one -/
def Reachable (t : Topo) : Prop :=
  ∃ (supply : List Id) (ops : List Op), run (.init supply) ops = some t

/-- `true` for every operation except the composition of a simplex from oriented subsimplices -/
def Op.fromVerticesOnly : Op → Bool
  | .simplex _ _ => false
  | _ => true

/-- the topology after some history in which simplices are only built from vertices -/
def VReachable (t : Topo) : Prop :=
  ∃ (supply : List Id) (ops : List Op), (∀ op ∈ ops, op.fromVerticesOnly = true) ∧
    run (.init supply) ops = some t

/-- `Sub t N o M x`: `x` (of order `M`) is `o` (of order `N`), or a subsimplex of it, or a subsimplex
of a subsimplex, … -/
inductive Sub (t : Topo) (N : Nat) (o : Id) : Nat → Id → Prop
  | self : Sub t N o N o
  | face {M : Nat} {y x : Id} : Sub t N o (M + 1) y → x ∈ t.composition (M + 1) y → Sub t N o M x

/-- the segments in `l`, taken in a suitable order, run `a → b → c → a` through three different
vertices -/
def DirectedLoop (t : Topo) (l : List Id) : Prop :=
  ∃ a b c : Id, a ≠ b ∧ b ≠ c ∧ c ≠ a ∧
    (l.map fun s => (t.tail s, t.head s)).Perm
      [(some a, some b), (some b, some c), (some c, some a)]

/-- what the composition `c` asks for is alive as `o`: the same subsimplices up to orientation and
order, and the order of `c` is related to that of the footprint by a permutation whose sign is the
orientation of `o` -/
def Realizes (t : Topo) (N : Nat) (c : List Id) (o : Id) : Prop :=
  o ∈ (t.lvl (N + 1)).ors ∧
    Combinatorics.permutationSign (c.map (t.fp N))
      ((t.compF (N + 1) (t.fp (N + 1) o)).map (t.fp N)) = some (t.sg (N + 1) o)

/-! ### the handles of the user (C20) -/

deriving instance DecidableEq for Op

/-- the oriented simplex that an operation returns to the user, with its order -/
def returned (t : Topo) : Op → Option (Nat × Id)
  | .vertex | .hold _ _ | .drop _ _ | .holdF _ _ | .dropF _ _ | .erase _ _ => none
  | .oriented N f s => (t.orientedF N f s).map fun r => (N, r.2)
  | .simplex N c => (t.simplex N c).map fun r => (N + 1, r.2)
  | .segment a b => (t.segment a b).map fun r => (1, r.2)
  | .triangle a b c => (t.triangle a b c).map fun r => (2, r.2)
  | .tetrahedron a b c d => (t.tetrahedron a b c d).map fun r => (3, r.2)
  | .flip N o => (t.flip N o).map fun r => (N, r.2)

/-- how many handles on the oriented simplex `o` of order `N` the operation gives up (a handle passed to
`erase` is reset if the simplex is erased) -/
def givesUp (t : Topo) (N : Nat) (o : Id) : Op → Nat
  | .drop M x => if M = N ∧ x = o then 1 else 0
  | .erase M x => if M = N ∧ x = o ∧ (Topo.erase M t x).2 = true then 1 else 0
  | _ => 0

/-- the operation gives up, or may give up, a handle on the oriented simplex `o` of order `N` -/
def mayGiveUp (N : Nat) (o : Id) : Op → Bool
  | .drop M x | .erase M x => M = N ∧ x = o
  | _ => false

/-- the operation gives up a handle on the footprint `f` of order `N` -/
def givesUpF (N : Nat) (f : Id) : Op → Bool
  | .dropF M x => M = N ∧ x = f
  | _ => false

end Mito.Topology
