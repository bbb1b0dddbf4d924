import Verif.Mesh.Mesh
import Verif.Topology.Programs

/-!
# Programs that use a topology and a mesh

The topology and the user's variables are those of `Verif/Topology/Programs.lean`.  A cell of the mesh
(lib/mito/geometry/GeometricSimplex.h:160-165) holds a handle on its simplex, which here is one more variable.  The cells lie in a
segmented vector, which by C118 is a list of slots: an erased cell keeps its slot and its handle until
the slot is used again.

Simplifications.  The nodes are the variables with their vertices, and the program keeps them until its end
(a cell holds its nodes too, which is not counted).  There is one mesh.
-/

namespace Mito.MeshPrograms

open Mito.Topology Mito.Meshes

/-- The topology, the variables and a mesh of cells of order `order + 1` (lib/mito/mesh/Mesh.h:211-217).  A slot has the
variable of its cell and the flag `is_valid()`; `free` are the slots to be used again, `refs` the references that
`insert` returned, `count` the size of the container. -/
structure State where
  base : Machine
  order : Nat
  slots : List (Nat × Bool)
  free : List Nat
  refs : List Nat
  count : Int
  orient : Id → Option (Int × Int)

/-- the facets of the simplex of a variable, as the mesh sees them, lib/mito/mesh/Mesh.h:73-78; `none`: not a simplex of the order of the
cells (a null handle is dereferenced) -/
def facetsOf (σ : Machine) (order v : Nat) : Option (List (Nat × Int)) :=
  match lookO σ.env v with
  | some (N, o) =>
    if N = order + 1 then some ((σ.topo.composition (order + 1) o).map fun x => (σ.topo.fp order x, σ.topo.sg order x)) else none
  | none => none

/-- the end of the life of the handle in a variable, lib/mito/utilities/SharedPointer.icc:88-92 -/
def release (σ : Machine) (w : Nat) : Option Machine :=
  if (look σ.env w).isSome then exec σ (.drop w) else some σ

/-- `_cells.emplace`, lib/mito/utilities/SegmentedVector.h:73-93: the object in a slot that is used again is
destroyed, and then the new one is made by the call `c`. -/
def emplace (s : State) (valid : Bool) (c : Cmd) : Option State :=
  match s.free with
  | [] =>
    match exec s.base c with
    | none => none
    | some σ => some { s with base := σ, slots := s.slots ++ [(s.base.env.length, valid)], refs := s.refs ++ [s.slots.length],
                              count := s.count + 1 }
  | i :: f =>
    match s.slots[i]? with
    | none => none
    | some (w, _) =>
      match release s.base w with
      | none => none
      | some σ1 =>
        match exec σ1 c with
        | none => none
        | some σ => some { s with base := σ, slots := s.slots.set i (s.base.env.length, valid), free := f, refs := s.refs ++ [i],
                                  count := s.count + 1 }

/-- the facets of the simplex of `v` are counted, lib/mito/mesh/Mesh.h:70-82 -/
def count (s : State) (v : Nat) : Option State :=
  match facetsOf s.base s.order v with
  | none => none
  | some F => some { s with orient := F.foldl (bump 1) s.orient }

/-- `insert(nodes)`, lib/mito/mesh/Mesh.h:191-202; `c` builds the simplex -/
def insertNodes (s : State) (c : Cmd) : Option State :=
  match emplace s true c with
  | none => none
  | some s1 => count s1 s.base.env.length

/-- `insert(cell)`, lib/mito/mesh/Mesh.h:180-188, where the handle of the cell is the variable `v`; its flag is copied -/
def insertCell (s : State) (v : Nat) (valid : Bool) : Option State :=
  match count s v with
  | none => none
  | some s1 => emplace s1 valid (.copy v)

/-- `erase(cell)`, lib/mito/mesh/Mesh.h:104-127, for the cell in the slot `i` -/
def eraseSlot (s : State) (i : Nat) : Option State :=
  match s.slots[i]? with
  | none => none
  | some (_, false) => some s
  | some (w, true) =>
    match facetsOf s.base s.order w with
    | none => none
    | some F => some { s with slots := s.slots.set i (w, false), free := s.free ++ [i], count := s.count - 1,
                              orient := F.foldl unbump s.orient }

/-- what the two functions that erase duplicates compare: the footprint or the simplex,
lib/mito/mesh/Mesh.h:136 and 153 -/
def keyOf (σ : Machine) (topological : Bool) (v : Nat) : Option Id :=
  match lookO σ.env v with
  | some (N, o) => some (if topological then σ.topo.fp N o else o)
  | none => none

/-- the loop of the functions that erase duplicates, lib/mito/mesh/Mesh.h:130-161, over the slots `is` -/
def eraseDuplicatesIn (topological : Bool) : State → List Nat → List Id → Option State
  | s, [], _ => some s
  | s, i :: is, seen =>
    match s.slots[i]? with
    | some (w, true) =>
      match keyOf s.base topological w with
      | none => none
      | some k =>
        if k ∈ seen then
          match eraseSlot s i with
          | none => none
          | some s1 => eraseDuplicatesIn topological s1 is seen
        else eraseDuplicatesIn topological s is (k :: seen)
    | _ => eraseDuplicatesIn topological s is seen

/-- a call of the user -/
inductive Call where
  /-- a call of the topology with the user's variables -/
  | topology (c : Cmd)
  /-- `auto & r = mesh.insert({ nodes })`, where `c` builds the simplex from the vertices of the nodes -/
  | insert (c : Cmd)
  /-- `auto & r = mesh.insert(cell)`, where `cell` is the user's and `v` its simplex -/
  | insertCell (v : Nat)
  /-- `auto & r = mesh.insert(r')`, where `r'` is the `k`-th reference -/
  | insertAgain (k : Nat)
  /-- `mesh.erase(r)` -/
  | erase (k : Nat)
  /-- `topology.erase(r.simplex())`, lib/mito/geometry/GeometricSimplex.h:126-130 -/
  | eraseSimplex (k : Nat)
  /-- `mesh.erase_topological_duplicates()`, or `mesh.erase_geometrical_duplicates()` -/
  | eraseDuplicates (topological : Bool)
  deriving DecidableEq, Repr

/-- the variable that a call of the topology may reset -/
def resets : Cmd → Option Nat
  | .drop v => some v
  | .erase v => some v
  | _ => none

/-- does the call build a simplex from vertices, lib/mito/geometry/GeometricSimplex.h:76-84 -/
def builds : Cmd → Bool
  | .segment _ _ => true
  | .triangle _ _ _ => true
  | .tetrahedron _ _ _ _ => true
  | _ => false

/-- One call.  `none`: the arguments are not what the call wants, an assertion fails, or undefined behaviour. -/
def mexec (s : State) : Call → Option State
  | .topology c =>
    if ∀ v ∈ resets c, v ∉ s.slots.map Prod.fst then (exec s.base c).map fun σ => { s with base := σ } else none
  | .insert c => if builds c then insertNodes s c else none
  | .insertCell v => insertCell s v true
  | .insertAgain k =>
    match s.refs[k]? with
    | none => none
    | some i =>
      match s.slots[i]? with
      | none => none
      | some (w, valid) => insertCell s w valid
  | .erase k =>
    match s.refs[k]? with
    | none => none
    | some i => eraseSlot s i
  | .eraseSimplex k =>
    match s.refs[k]? with
    | none => none
    | some i =>
      match s.slots[i]? with
      | none => none
      | some (w, _) => (exec s.base (.erase w)).map fun σ => { s with base := σ }
  | .eraseDuplicates b => eraseDuplicatesIn b s (List.range s.slots.length) []

/-- the variables of the cells that a loop over the mesh visits -/
def cells (s : State) : List Nat := (s.slots.filter (·.2)).map Prod.fst

/-- `isOnBoundary`, lib/mito/mesh/Mesh.h:163-177; `none` is the exception -/
def isOnBoundary (s : State) (f : Nat × Int) : Option Bool :=
  match s.orient f.1 with
  | none => none
  | some p => some ((if f.2 = -1 then p.1 else p.2) == 0)

/-- how many of the facets are on the boundary -/
def countBoundary (s : State) : List (Nat × Int) → Option Int
  | [] => some 0
  | f :: l =>
    match isOnBoundary s f, countBoundary s l with
    | some b, some n => some ((if b then 1 else 0) + n)
    | _, _ => none

/-- the facets of the cells -/
def allFacets (s : State) : List Nat → Option (List (Nat × Int))
  | [] => some []
  | v :: l =>
    match facetsOf s.base s.order v, allFacets s l with
    | some F, some G => some (F ++ G)
    | _, _ => none

/-- a question of the user -/
inductive MQuery where
  | topology (q : Query)
  /-- `mesh.nCells()` -/
  | nCells
  /-- `boundary_size(mesh)`, lib/mito/mesh/Boundary.icc:13-35 -/
  | boundarySize
  /-- `mesh.isOnBoundary(v)` -/
  | isOnBoundary (v : Nat)
  /-- `r.is_valid()` -/
  | isValid (k : Nat)
  /-- how many cells a loop visits -/
  | visited
  /-- `cell.simplex() == v` for the `j`-th cell that a loop visits -/
  | cellIs (j v : Nat)
  /-- `r.simplex().is_nullptr()` -/
  | isNull (k : Nat)
  deriving DecidableEq, Repr

/-- The answer.  `none`: the arguments are not what the question wants, an exception, or undefined behaviour. -/
def mask (s : State) : MQuery → Option Int
  | .topology q => Topology.ask s.base q
  | .nCells => some s.count
  | .boundarySize =>
    match allFacets s (cells s) with
    | none => none
    | some F => countBoundary s F
  | .isOnBoundary v =>
    match lookO s.base.env v with
    | some (N, o) => if N = s.order then (isOnBoundary s (s.base.topo.fp N o, s.base.topo.sg N o)).map ofBool else none
    | none => none
  | .isValid k =>
    match s.refs[k]? with
    | none => none
    | some i => (s.slots[i]?).map fun p => ofBool p.2
  | .visited => some (cells s).length
  | .cellIs j v =>
    match (cells s)[j]? with
    | none => none
    | some w => Topology.ask s.base (.same w v)
  | .isNull k =>
    match s.refs[k]? with
    | none => none
    | some i =>
      match s.slots[i]? with
      | none => none
      | some (w, _) => Topology.ask s.base (.isNull w)

/-- a program: calls and questions; how it goes on may depend on the answers -/
inductive MProg where
  | done (n : Int)
  | call (c : Call) (p : MProg)
  | ask (q : MQuery) (k : Option Int → MProg)

/-- the end of a program: the state and the number; `none`: a call failed -/
def MProg.run : MProg → State → Option (State × Int)
  | .done n, s => some (s, n)
  | .call c p, s =>
    match mexec s c with
    | none => none
    | some s' => p.run s'
  | .ask q k, s => (k (mask s q)).run s

/-- the number of calls that a program makes -/
def MProg.calls : MProg → State → Nat
  | .done _, _ => 0
  | .call c p, s =>
    match mexec s c with
    | none => 1
    | some s' => p.calls s' + 1
  | .ask q k, s => (k (mask s q)).calls s

/-- a test: calls, and questions with the answer that is expected -/
inductive MItem where
  | call (c : Call)
  | expect (q : MQuery) (a : Int)

/-- a test as a program: it ends with 0 if every answer is the one expected, and with 1 at the first that is not -/
def mtest : List MItem → MProg
  | [] => .done 0
  | .call c :: l => .call c (mtest l)
  | .expect q a :: l => .ask q fun b => if b = some a then mtest l else .done 1

/-- no simplices and an empty mesh of cells of order `n + 1` -/
def mstart (supply : List Id) (n : Nat) : State := ⟨⟨.init supply, []⟩, n, [], [], [], 0, fun _ => none⟩

end Mito.MeshPrograms
