import Verif.Topology.Model

/-!
# Model of the end of the topology

`topology()` returns a function-local static (`utilities::Singleton`), which is destroyed when the
process ends.  The destructor of `Topology` is that of its data members in reverse order of their
declaration: tetrahedra, triangles, segments, vertices; within a factory first the map of
orientations, then the oriented simplices, then the footprints.  The destructor of a repository runs
the destructor of every slot handed out so far, *including the slots of erased simplices, which still
hold the pointers of their last occupant* (`~SharedPointer` does not reset its pointer), and then the
memory of the repository is given back.

Simplifications.
* A memory access is looked at as far as the addresses are concerned: `Mem` records which slots are
  memory of the topology.  Reading or writing any other slot is the outcome `none`.  That the object
  in a slot may have been destroyed already is not an error here (it is undefined behaviour in C++
  all the same; C67 counts how often a slot is destroyed).
* The slots handed out are given as lists, in the order of the iterator; the theorems ask that they
  are the addresses at which a simplex lived at some moment (`Slots`), in any order.
-/

namespace Mito.Topology

/-- The memory of the repositories, and the reference counts (`Shareable::_reference_count`,
lib/mito/utilities/Shareable.h:53) stored in it. -/
structure Mem where
  /-- slots of the oriented simplices of an order -/
  mapO : Nat → Finset Id
  /-- slots of the footprints of an order -/
  mapF : Nat → Finset Id
  cntO : Nat → Id → Int
  cntF : Nat → Id → Int

/-- A pointer to a simplex: oriented or a footprint. -/
inductive Handle where
  | oriented (N : Nat) (o : Id)
  | footprint (N : Nat) (f : Id)
deriving DecidableEq

/-- `SharedPointer::~SharedPointer`, lib/mito/utilities/SharedPointer.icc:87-93 and 181-196: the
count in the resource goes down by one.  `none`: the resource is not memory of the topology. -/
def Mem.release (m : Mem) : Handle → Option Mem
  | .oriented N o =>
    if o ∈ m.mapO N then
      some { m with cntO := Function.update m.cntO N
                      (Function.update (m.cntO N) o (m.cntO N o - 1)) }
    else none
  | .footprint N f =>
    if f ∈ m.mapF N then
      some { m with cntF := Function.update m.cntF N
                      (Function.update (m.cntF N) f (m.cntF N f - 1)) }
    else none

/-- the destructors of a list of pointers -/
def Mem.releaseAll (m : Mem) : List Handle → Option Mem
  | [] => some m
  | h :: hs =>
    match m.release h with
    | none => none
    | some m' => m'.releaseAll hs

/-- the memory of the repository of oriented simplices is given back
(lib/mito/utilities/SegmentedAllocator.h:93-120) -/
def Mem.freeO (m : Mem) (N : Nat) : Mem := { m with mapO := Function.update m.mapO N ∅ }
/-- the memory of the repository of footprints is given back -/
def Mem.freeF (m : Mem) (N : Nat) : Mem := { m with mapF := Function.update m.mapF N ∅ }

/-- the pointers in the slots of oriented simplices: `OrientedSimplex::_footprint`
(lib/mito/topology/OrientedSimplex.h:169) -/
def Topo.heldByOriented (t : Topo) (N : Nat) (slots : List Id) : List Handle :=
  slots.map fun o => .footprint N (t.fp N o)

/-- the pointers in the slots of footprints: `Simplex::_simplices`
(lib/mito/topology/Simplex.h:189); vertices have none -/
def Topo.heldByFootprints (t : Topo) : (N : Nat) → (slots : List Id) → List Handle
  | 0, _ => []
  | N + 1, slots => slots.flatMap fun f => (t.compF (N + 1) f).map (.oriented N)

/-- `~Repository` (lib/mito/utilities/Repository.h:71-77) for both repositories of a factory, in the
order of `~OrientedSimplexFactory` (members in lib/mito/topology/OrientedSimplexFactory.h:250-257):
oriented simplices before footprints. -/
def Topo.destroyFactory (t : Topo) (sO sF : Nat → List Id) (N : Nat) (m : Mem) : Option Mem :=
  match m.releaseAll (t.heldByOriented N (sO N)) with
  | none => none
  | some m1 =>
    match (m1.freeO N).releaseAll (t.heldByFootprints N (sF N)) with
    | none => none
    | some m2 => some (m2.freeF N)

/-- `~Topology`: the factories of the orders below `n`, the highest first
(lib/mito/topology/Topology.h:116-126; the code has `n = 4`). -/
def Topo.destroy (t : Topo) (sO sF : Nat → List Id) : (n : Nat) → Mem → Option Mem
  | 0, m => some m
  | N + 1, m =>
    match t.destroyFactory sO sF N m with
    | none => none
    | some m' => t.destroy sO sF N m'

/-- the memory when the destruction starts: the counts are those of C01 -/
def Topo.mem (t : Topo) (sO sF : Nat → List Id) : Mem :=
  ⟨fun N => (sO N).toFinset, fun N => (sF N).toFinset, fun N o => t.refs N o, fun N f => t.refsF N f⟩

/-! ### Static objects -/

/-- What matters for the end of a process. -/
inductive Event where
  /-- a call of `topology()` -/
  | topology
  /-- the construction of the static object `k` of the user is complete -/
  | static (k : Nat)
deriving DecidableEq

/-- The objects with static storage in the order in which their construction was completed.
`Singleton::GetInstance` (lib/mito/utilities/Singleton.h:19-24): the first call constructs the
topology, the others do nothing. -/
def statics : List Event → List Event
  | [] => []
  | e :: es => e :: (if e = .topology then (statics es).filter (· ≠ .topology) else statics es)

/-- The end of the process: objects with static storage are destroyed in the reverse order of their
construction.  `held k` are the pointers which the static object `k` holds in the end. -/
def Topo.atExit (t : Topo) (sO sF : Nat → List Id) (held : Nat → List Handle) (n : Nat) :
    List Event → Mem → Option Mem
  | [], m => some m
  | .topology :: es, m =>
    match t.destroy sO sF n m with
    | none => none
    | some m' => t.atExit sO sF held n es m'
  | .static k :: es, m =>
    match m.releaseAll (held k) with
    | none => none
    | some m' => t.atExit sO sF held n es m'

end Mito.Topology
