import Verif.Math.Combinatorics
import Mathlib.Data.Finset.Card
import Mathlib.Algebra.BigOperators.Group.Finset.Basic
import Mathlib.Data.List.Sort
import Mathlib.Logic.Function.Basic

/-!
# Model of lib/mito/topology: simplices, factories, topology

One `Level` per order `N`: the factory of oriented simplices of that order together with its factory
of unoriented simplices ("footprints").  The code has the orders 0…3; the model has every order.

Simplifications.
* Simplices are named by their ids (addresses).  Which address a new simplex gets is decided by the
  allocator: the model draws it from `supply` and only insists that it is not the address of a
  simplex alive (this is what C03 and C11 prove about the allocator and the repository); addresses
  of erased simplices may come back.
* The reference count of a simplex is computed as what it is proved to be in C01, the number of
  pointers to it: those in footprints (respectively oriented simplices) alive plus the handles held
  outside the factories (`ext`, `extF`), which include the local copies made inside `erase`.
  Temporaries of the creating functions are not counted: nothing is erased during their lifetime.
* The data of a dead simplex is kept (nobody looks at it, see the invariant `Inv.comp_live`).
-/

namespace Mito.Topology

open Mito.Combinatorics

abbrev Id := Nat

/-- Data members of `OrientedSimplexFactory<N>` (lib/mito/topology/OrientedSimplexFactory.h:250-257)
and of its `SimplexFactory<N>` (lib/mito/topology/SimplexFactory.h:136-139), and of the simplices in
their repositories. -/
structure Level where
  /-- unoriented simplices alive, `_simplices` -/
  fps : Finset Id
  /-- `Simplex::_simplices` (Simplex.h:189): the oriented subsimplices -/
  comp : Id → List Id
  /-- `_compositions` -/
  comps : List Id → Option Id
  /-- oriented simplices alive, `_oriented_simplices` -/
  ors : Finset Id
  /-- `OrientedSimplex::_footprint` (OrientedSimplex.h:169) -/
  ofp : Id → Id
  /-- `OrientedSimplex::_orientation` (OrientedSimplex.h:171) -/
  osg : Id → Int
  /-- `_orientations` -/
  orients : Id × Int → Option Id

/-- The topology: one factory per order (lib/mito/topology/Topology.h), the handles held by users
(and by local variables of `erase`) on oriented and unoriented simplices, and the addresses the
allocator is going to return. -/
structure Topo where
  lvl : Nat → Level
  ext : Nat → Id → Nat
  extF : Nat → Id → Nat
  supply : List Id

def Level.empty : Level :=
  ⟨∅, fun _ => [], fun _ => none, ∅, fun _ => 0, fun _ => 0, fun _ => none⟩

/-- Constructor, lib/mito/topology/Topology.icc:11-16. -/
def Topo.init (supply : List Id) : Topo := ⟨fun _ => .empty, fun _ _ => 0, fun _ _ => 0, supply⟩

/-- replace the level of order `N` -/
def Topo.setLvl (t : Topo) (N : Nat) (l : Level) : Topo :=
  { t with lvl := Function.update t.lvl N l }

/-- `o->footprint()` -/
def Topo.fp (t : Topo) (N : Nat) (o : Id) : Id := (t.lvl N).ofp o
/-- `o->orientation()` -/
def Topo.sg (t : Topo) (N : Nat) (o : Id) : Int := (t.lvl N).osg o
/-- `f->composition()`, lib/mito/topology/Simplex.h:56-59 -/
def Topo.compF (t : Topo) (N : Nat) (f : Id) : List Id := (t.lvl N).comp f

/-- `std::swap(c[0], c[1])` -/
def swap01 {α : Type*} : List α → List α
  | x :: y :: l => y :: x :: l
  | l => l

/-- `o->composition()`, lib/mito/topology/OrientedSimplex.h:79-90. -/
def Topo.composition (t : Topo) (N : Nat) (o : Id) : List Id :=
  if t.sg N o = -1 then swap01 (t.compF N (t.fp N o)) else t.compF N (t.fp N o)

/-! ### Vertices -/

/-- The set of vertices of a footprint, in increasing order of their ids
(lib/mito/topology/Simplex.h:62-88; `std::set` iterates in increasing order).  Order 0 is the vertex
itself. -/
def Topo.vertexSet (t : Topo) : (N : Nat) → Id → List Id
  | 0, f => [f]
  | N + 1, f =>
    (((t.compF (N + 1) f).flatMap fun o => t.vertexSet N (t.fp N o)).dedup).insertionSort (· ≤ ·)

/-- Append the ordered vertices of a footprint / oriented simplex,
lib/mito/topology/Simplex.h:92-131, OrientedSimplex.h:100-131.  `none`: the composition is too short
to be indexed. -/
def Topo.verticesOf (t : Topo) : (N : Nat) → Id → Option (List Id)
  | 0, o => some [t.fp 0 o]
  | 1, o =>
    match t.compF 1 (t.fp 1 o) with
    | x :: y :: _ =>
      let l := [t.fp 0 x, t.fp 0 y]
      some (if t.sg 1 o = -1 then swap01 l else l)
    | _ => none
  | N + 2, o =>
    match t.compF (N + 2) (t.fp (N + 2) o) with
    | x :: y :: _ =>
      match t.verticesOf (N + 1) x with
      | none => none
      | some l =>
        let l' := l ++ (t.vertexSet (N + 1) (t.fp (N + 1) y)).filter (· ∉ l)
        some (if t.sg (N + 2) o = -1 then swap01 l' else l')
    | _ => none

/-- `tail`, lib/mito/topology/utilities.h:110-113 -/
def Topo.tail (t : Topo) (o : Id) : Option Id := ((t.composition 1 o)[0]?).map (t.fp 0)
/-- `head`, lib/mito/topology/utilities.h:115-118 -/
def Topo.head (t : Topo) (o : Id) : Option Id := ((t.composition 1 o)[1]?).map (t.fp 0)

/-- `sanityCheck`, lib/mito/topology/Simplex.h:163-185, OrientedSimplex.h:165 -/
def Topo.sanityCheck (t : Topo) : (N : Nat) → Id → Bool
  | 0, _ => true
  | N + 1, o =>
    ((t.compF (N + 1) (t.fp (N + 1) o)).all fun x => t.sanityCheck N x) &&
      (t.vertexSet (N + 1) (t.fp (N + 1) o)).length == N + 2

/-! ### Reference counts -/

/-- references to an oriented simplex -/
def Topo.refs (t : Topo) (N : Nat) (o : Id) : Nat :=
  t.ext N o + ∑ f ∈ (t.lvl (N + 1)).fps, (t.compF (N + 1) f).count o

/-- references to a footprint -/
def Topo.refsF (t : Topo) (N : Nat) (f : Id) : Nat :=
  t.extF N f + ((t.lvl N).ors.filter fun o => (t.lvl N).ofp o = f).card

/-! ### Validity of a composition -/

/-- the pairs (id of subsubsimplex, orientation · orientation) looked at by `isValid`,
lib/mito/topology/utilities.h:151-158 -/
def Topo.netPairs (t : Topo) (N : Nat) (c : List Id) : List (Id × Int) :=
  c.flatMap fun s =>
    (t.composition (N + 1) s).map fun x => (t.fp N x, t.sg N x * t.sg (N + 1) s)

/-- net orientation of a subsubsimplex -/
def net (l : List (Id × Int)) (k : Id) : Int := ((l.filter (·.1 = k)).map (·.2)).sum

/-- `isValid<N>` for a composition of a simplex of order `N`,
lib/mito/topology/utilities.h:134-193; `none` is the failed assertion on the number of
subsubsimplices. -/
def Topo.isValid (t : Topo) : (N : Nat) → List Id → Option Bool
  | 0, _ => none
  | 1, c =>
    match c with
    | [x, y] => some (t.fp 0 x != t.fp 0 y && t.sg 0 x != t.sg 0 y)
    | _ => none
  | N + 2, c =>
    let l := t.netPairs N c
    let keys := (l.map (·.1)).dedup
    if keys.length ≠ (N + 3) * (N + 2) / 2 then none
    else some (keys.all fun k => net l k == 0)

/-! ### Factories: look up and create -/

/-- `_representative`, lib/mito/topology/SimplexFactory.h:147-193: the sorted ids of the footprints of
the subsimplices (of order `N`). -/
def Topo.representative (t : Topo) (N : Nat) (c : List Id) : List Id :=
  (c.map (t.fp N)).insertionSort (· ≤ ·)

/-- `Repository::emplace` for a footprint, with composition `c` -/
def Topo.emplaceF (t : Topo) (N : Nat) (c : List Id) : Option (Topo × Id) :=
  match t.supply with
  | [] => none
  | i :: rest =>
    if i ∈ (t.lvl N).fps then none
    else
      let l := t.lvl N
      some ({ t.setLvl N { l with fps := insert i l.fps, comp := Function.update l.comp i c }
              with supply := rest }, i)

/-- `Repository::emplace` for an oriented simplex -/
def Topo.emplaceO (t : Topo) (N : Nat) (f : Id) (s : Int) : Option (Topo × Id) :=
  match t.supply with
  | [] => none
  | i :: rest =>
    if i ∈ (t.lvl N).ors then none
    else
      let l := t.lvl N
      some ({ t.setLvl N { l with ors := insert i l.ors, ofp := Function.update l.ofp i f,
                                  osg := Function.update l.osg i s }
              with supply := rest }, i)

/-- `findSimplex`, lib/mito/topology/SimplexFactory.h:56-75, order `N + 1` -/
def Topo.findSimplex (t : Topo) (N : Nat) (c : List Id) : Option Id :=
  (t.lvl (N + 1)).comps (t.representative N c)

/-- `SimplexFactory<N + 1>::simplex`, lib/mito/topology/SimplexFactory.h:80-105 -/
def Topo.simplexF (t : Topo) (N : Nat) (c : List Id) : Option (Topo × Id) :=
  let key := t.representative N c
  match (t.lvl (N + 1)).comps key with
  | some f => some (t, f)
  | none =>
    match t.emplaceF (N + 1) c with
    | none => none
    | some (t1, f) =>
      let l := t1.lvl (N + 1)
      some (t1.setLvl (N + 1) { l with comps := Function.update l.comps key (some f) }, f)

/-- `findOrientedSimplex`, lib/mito/topology/OrientedSimplexFactory.h:87-108 -/
def Topo.findOriented (t : Topo) (N : Nat) (f : Id) (s : Int) : Option Id :=
  (t.lvl N).orients (f, s)

/-- `orientedSimplex(simplex, orientation)`,
lib/mito/topology/OrientedSimplexFactory.h:114-141 (`Topology::simplex`, Topology.icc:75-82) -/
def Topo.orientedF (t : Topo) (N : Nat) (f : Id) (s : Int) : Option (Topo × Id) :=
  match (t.lvl N).orients (f, s) with
  | some o => some (t, o)
  | none =>
    match t.emplaceO N f s with
    | none => none
    | some (t1, o) =>
      let l := t1.lvl N
      some (t1.setLvl N { l with orients := Function.update l.orients (f, s) (some o) }, o)

/-- `_orientation`, lib/mito/topology/OrientedSimplexFactory.h:225-247 -/
def Topo.orientation (t : Topo) (N : Nat) (c : List Id) (f : Id) : Option Int :=
  permutationSign (c.map (t.fp N)) ((t.compF (N + 1) f).map (t.fp N))

/-- `orientedSimplex(composition)`, lib/mito/topology/OrientedSimplexFactory.h:146-165
(`Topology::simplex`, Topology.icc:84-91); order `N + 1`.  `none` is a failed assertion. -/
def Topo.simplex (t : Topo) (N : Nat) (c : List Id) : Option (Topo × Id) :=
  match t.isValid (N + 1) c with
  | some true =>
    match t.simplexF N c with
    | none => none
    | some (t1, f) =>
      match t1.orientation N c f with
      | none => none
      | some s => t1.orientedF (N + 1) f s
  | _ => none

/-- `existsOrientedSimplex(composition)`,
lib/mito/topology/OrientedSimplexFactory.h:53-75 (`Topology::exists`, Topology.icc:258-262); order
`N + 1`.  `none` is a failed assertion. -/
def Topo.existsComp (t : Topo) (N : Nat) (c : List Id) : Option Bool :=
  match t.findSimplex N c with
  | none => some false
  | some f =>
    match t.orientation N c f with
    | none => none
    | some s => some (t.findOriented (N + 1) f s).isSome

/-- `Topology::vertex`, lib/mito/topology/Topology.icc:251-256 -/
def Topo.vertex (t : Topo) : Option (Topo × Id) := t.emplaceF 0 []

/-- `Topology::segment(vertices)`, lib/mito/topology/Topology.icc:135-147 (the assertion on the
vertices is the subject of C19).  The order of evaluation is that of a braced list. -/
def Topo.segment (t : Topo) (a b : Id) : Option (Topo × Id) :=
  match t.orientedF 0 a (-1) with
  | none => none
  | some (t1, x) =>
    match t1.orientedF 0 b 1 with
    | none => none
    | some (t2, y) => t2.simplex 0 [x, y]

/-- `Topology::triangle(vertices)`, lib/mito/topology/Topology.icc:149-163 -/
def Topo.triangle (t : Topo) (a b c : Id) : Option (Topo × Id) :=
  match t.segment a b with
  | none => none
  | some (t1, x) =>
    match t1.segment b c with
    | none => none
    | some (t2, y) =>
      match t2.segment c a with
      | none => none
      | some (t3, z) => t3.simplex 1 [x, y, z]

/-- `Topology::tetrahedron(vertices)`, lib/mito/topology/Topology.icc:165-181 -/
def Topo.tetrahedron (t : Topo) (a b c d : Id) : Option (Topo × Id) :=
  match t.triangle a b c with
  | none => none
  | some (t1, x) =>
    match t1.triangle b d c with
    | none => none
    | some (t2, y) =>
      match t2.triangle d b a with
      | none => none
      | some (t3, z) =>
        match t3.triangle d a c with
        | none => none
        | some (t4, w) => t4.simplex 2 [x, y, z, w]

/-- `Topology::simplex(vertices)`, lib/mito/topology/Topology.icc:102-115; the order is the number of
vertices minus one. -/
def Topo.fromVertices (t : Topo) : List Id → Option (Topo × Id)
  | [a, b] => t.segment a b
  | [a, b, c] => t.triangle a b c
  | [a, b, c, d] => t.tetrahedron a b c d
  | _ => none

/-- `Topology::exists(vertices)` for segments, lib/mito/topology/Topology.icc:264-282 -/
def Topo.existsSegment (t : Topo) (a b : Id) : Option Bool :=
  match t.findOriented 0 a (-1), t.findOriented 0 b 1 with
  | some x, some y => t.existsComp 0 [x, y]
  | _, _ => some false

/-- `Topology::flip`, lib/mito/topology/Topology.icc:197-203 -/
def Topo.flip (t : Topo) (N : Nat) (o : Id) : Option (Topo × Id) :=
  t.orientedF N (t.fp N o) (-t.sg N o)

/-- `Topology::exists_flipped`, lib/mito/topology/Topology.icc:190-195 -/
def Topo.existsFlipped (t : Topo) (N : Nat) (o : Id) : Bool :=
  (t.findOriented N (t.fp N o) (-t.sg N o)).isSome

/-- `n_simplices`, lib/mito/topology/Topology.icc:183-188 -/
def Topo.nSimplices (t : Topo) (N : Nat) : Nat := (t.lvl N).ors.card

/-! ### Erasure -/

/-- `SimplexFactory::erase`, lib/mito/topology/SimplexFactory.h:109-128 and 219-233.  The caller holds
one handle (`footprint` in OrientedSimplexFactory.h:205) which is not counted in `refsF`, hence the
test `references() > 1` reads `refsF > 0`. -/
def Topo.eraseF (t : Topo) (N : Nat) (f : Id) : Topo :=
  if 0 < t.refsF N f then t
  else
    let l := t.lvl N
    match N with
    | 0 => t.setLvl 0 { l with fps := l.fps.erase f }
    | M + 1 =>
      t.setLvl (M + 1)
        { l with fps := l.fps.erase f,
                 comps := Function.update l.comps (t.representative M (l.comp f)) none }

/-- change the number of outside handles on an oriented simplex -/
def Topo.setExt (t : Topo) (N : Nat) (o : Id) (k : Nat) : Topo :=
  { t with ext := Function.update t.ext N (Function.update (t.ext N) o k) }

/-- `OrientedSimplexFactory::erase`, lib/mito/topology/OrientedSimplexFactory.h:194-222.  The handle
passed in is counted in `ext`; it is reset when the simplex is erased, which the flag reports. -/
def Topo.eraseO (t : Topo) (N : Nat) (o : Id) : Topo × Bool :=
  if 1 < t.refs N o then (t, false)
  else
    let l := t.lvl N
    let f := l.ofp o
    let t1 := t.setLvl N
      { l with orients := Function.update l.orients (f, l.osg o) none, ors := l.ors.erase o }
    let t2 := t1.setExt N o (t1.ext N o - 1)
    (t2.eraseF N f, true)

/-- take one more handle on an oriented simplex -/
def Topo.hold (t : Topo) (N : Nat) (o : Id) : Topo := t.setExt N o (t.ext N o + 1)
/-- drop a handle -/
def Topo.drop (t : Topo) (N : Nat) (o : Id) : Topo := t.setExt N o (t.ext N o - 1)

/-- the loop `for (auto & subsimplex : composition) _erase(subsimplex);`: collects the handles that
were not reset -/
def eraseLoop (er : Topo → Id → Topo × Bool) : Topo → List Id → Topo × List Id
  | t, [] => (t, [])
  | t, x :: xs =>
    let r := er t x
    let q := eraseLoop er r.1 xs
    (q.1, if r.2 then q.2 else x :: q.2)

/-- `Topology::_erase`, lib/mito/topology/Topology.icc:205-235.  The flag tells whether the handle was
reset. -/
def Topo.erase : (N : Nat) → Topo → Id → Topo × Bool
  | 0, t, o => t.eraseO 0 o
  | N + 1, t, o =>
    let c := t.composition (N + 1) o
    -- the local copy of the composition
    let t1 := c.foldl (fun t x => t.hold N x) t
    let r := t1.eraseO (N + 1) o
    let q := eraseLoop (Topo.erase N) r.1 c
    -- end of the lifetime of the local copy
    (q.2.foldl (fun t x => t.drop N x) q.1, r.2)

/-! ### Histories -/

/-- what a user can do -/
inductive Op where
  /-- `vertex()`; the user keeps the handle -/
  | vertex
  /-- `simplex(footprint, orientation)` -/
  | oriented (N : Nat) (f : Id) (s : Int)
  /-- `simplex<N + 1>(composition)` -/
  | simplex (N : Nat) (c : List Id)
  | segment (a b : Id)
  | triangle (a b c : Id)
  | tetrahedron (a b c d : Id)
  | flip (N : Nat) (o : Id)
  /-- copy a handle (from another handle, or out of a composition) -/
  | hold (N : Nat) (o : Id)
  /-- destroy a handle -/
  | drop (N : Nat) (o : Id)
  /-- copy a handle to a footprint -/
  | holdF (N : Nat) (f : Id)
  /-- destroy a handle to a footprint -/
  | dropF (N : Nat) (f : Id)
  /-- `erase(simplex)` through one handle -/
  | erase (N : Nat) (o : Id)

/-- the user keeps the returned handle -/
def keep (N : Nat) : Option (Topo × Id) → Option Topo
  | none => none
  | some (t, o) => some (t.hold N o)

/-- change the number of outside handles on a footprint -/
def Topo.setExtF (t : Topo) (N : Nat) (f : Id) (k : Nat) : Topo :=
  { t with extF := Function.update t.extF N (Function.update (t.extF N) f k) }

/-- One operation.  `none`: a precondition of the API is violated (the arguments are not simplices
alive, or handles not held), or an assertion of the code fails, or the supply of addresses returns
an address in use. -/
def step (t : Topo) : Op → Option Topo
  | .vertex =>
    match t.vertex with
    | none => none
    | some (t1, v) => some (t1.setExtF 0 v (t1.extF 0 v + 1))
  | .oriented N f s =>
    if f ∈ (t.lvl N).fps ∧ (s = 1 ∨ s = -1) then keep N (t.orientedF N f s) else none
  | .simplex N c =>
    if (∀ x ∈ c, x ∈ (t.lvl N).ors) ∧ c.length = N + 2 ∧ c.Nodup then
      keep (N + 1) (t.simplex N c)
    else none
  | .segment a b =>
    if a ∈ (t.lvl 0).fps ∧ b ∈ (t.lvl 0).fps then keep 1 (t.segment a b) else none
  | .triangle a b c =>
    if a ∈ (t.lvl 0).fps ∧ b ∈ (t.lvl 0).fps ∧ c ∈ (t.lvl 0).fps then
      keep 2 (t.triangle a b c) else none
  | .tetrahedron a b c d =>
    if a ∈ (t.lvl 0).fps ∧ b ∈ (t.lvl 0).fps ∧ c ∈ (t.lvl 0).fps ∧ d ∈ (t.lvl 0).fps then
      keep 3 (t.tetrahedron a b c d) else none
  | .flip N o => if o ∈ (t.lvl N).ors then keep N (t.flip N o) else none
  | .hold N o => if 0 < t.refs N o then some (t.hold N o) else none
  | .drop N o => if 0 < t.ext N o then some (t.drop N o) else none
  | .holdF N f => if 0 < t.refsF N f then some (t.setExtF N f (t.extF N f + 1)) else none
  | .dropF N f => if 0 < t.extF N f then some (t.setExtF N f (t.extF N f - 1)) else none
  | .erase N o => if 0 < t.ext N o then some (Topo.erase N t o).1 else none

/-- a history -/
def run (t : Topo) : List Op → Option Topo
  | [] => some t
  | op :: ops =>
    match step t op with
    | none => none
    | some t' => run t' ops

end Mito.Topology
