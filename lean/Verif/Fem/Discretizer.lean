import Verif.Utilities.Numbering

/-!
# Model of the discretizers of lib/mito/fem/elements

Mesh nodes and discretization nodes are handles that are compared and hashed by their id, the address of the
resource (lib/mito/utilities/StdSharedPointer.h:55-68); both are modelled by that id.  A new
discretization node gets an id from `alloc`, which is given the ids of the discretization nodes that are
alive; nothing is assumed of it but that it does not return one of these.  (Ids of nodes that died may come
back.  That `alloc` is a function of the list is no restriction: whenever the id it gives is kept, the list
grows.)  `other` are the discretization nodes alive in the rest of the program.

Not modelled: the cell, the coordinate system and the shape functions an element holds (see
`Verif/Fem/Elements.lean` for these).
-/

namespace Mito.Discretizer

open Mito.Numbering

/-- a map to discretization nodes -/
abbrev Map (κ : Type) := List (κ × Nat)

/-- the discretization nodes of a map -/
def values {κ : Type} (m : Map κ) : List Nat := m.map (·.2)

/-- `m.insert({ k, discretization_node_type() }).first->second`: the present node if there is one, the new
one otherwise -/
def insertNew {κ : Type} [DecidableEq κ] (m : Map κ) (k : κ) (new : Nat) : Map κ × Nat :=
  match lookup m k with
  | some v => (m, v)
  | none => (m ++ [(k, new)], new)

/-- the discretization nodes of the nodes of a cell,
lib/mito/fem/elements/seg1/DiscretizerCG.h:39-44, lib/mito/fem/elements/tri1/DiscretizerCG.h:39-46 -/
def visitNodes (alloc : List Nat → Nat) (other : List Nat) : Map Nat → List Nat → Map Nat × List Nat
  | m, [] => (m, [])
  | m, n :: ns =>
    let r := insertNew m n (alloc (other ++ values m))
    let s := visitNodes alloc other r.1 ns
    (s.1, r.2 :: s.2)

/-- the loop on the cells, lib/mito/fem/elements/seg1/DiscretizerCG.h:32-48 and
lib/mito/fem/elements/tri1/DiscretizerCG.h:32-50: the map and the connectivities of the elements.
A cell is the list of its nodes. -/
def elementsP1 (alloc : List Nat → Nat) (other : List Nat) :
    Map Nat → List (List Nat) → Map Nat × List (List Nat)
  | m, [] => (m, [])
  | m, c :: cs =>
    let r := visitNodes alloc other m c
    let s := elementsP1 alloc other r.1 cs
    (s.1, r.2 :: s.2)

/-- how collecting the constrained nodes may end -/
inductive Outcome (α : Type) where
  | ok (a : α)
  /-- `at` of an absent key -/
  | throws
  /-- the end iterator was dereferenced -/
  | undefined
deriving DecidableEq, Repr

/-- the constrained nodes, lib/mito/fem/elements/seg1/DiscretizerCG.h:53-58 and
lib/mito/fem/elements/tri1/DiscretizerCG.h:53-60, as the list of the nodes that are inserted in the set;
`domain` are the nodes of the domain of the constraint in the order of the loops -/
def constrainedP1 (m : Map Nat) : List Nat → Outcome (List Nat)
  | [] => .ok []
  | n :: ns =>
    match lookup m n with
    | none => .undefined
    | some d =>
      match constrainedP1 m ns with
      | .ok ds => .ok (d :: ds)
      | o => o

/-- the maps of the second order discretizer: of the mesh nodes, and of the pairs of ids of discretization
nodes -/
structure Maps where
  nodes : Map Nat
  mids : Map (Nat × Nat)

/-- the discretization nodes alive -/
def live (other : List Nat) (s : Maps) : List Nat := other ++ (values s.nodes ++ values s.mids)

/-- `ordered_nodes`, lib/mito/fem/elements/tri2/DiscretizerCG.h:60-62 -/
def ordered (a b : Nat) : Nat × Nat := if a < b then (a, b) else (b, a)

/-- the node of a mesh node -/
def addNode (alloc : List Nat → Nat) (other : List Nat) (s : Maps) (n : Nat) : Maps × Nat :=
  let r := insertNew s.nodes n (alloc (live other s))
  (⟨r.1, s.mids⟩, r.2)

/-- the node between two discretization nodes -/
def addMid (alloc : List Nat → Nat) (other : List Nat) (s : Maps) (a b : Nat) : Maps × Nat :=
  let r := insertNew s.mids (ordered a b) (alloc (live other s))
  (⟨s.nodes, r.1⟩, r.2)

/-- a triangle as a triple of nodes -/
abbrev Cell := Nat × Nat × Nat

/-- the nodes of an element, lib/mito/fem/elements/tri2/DiscretizerCG.h:48-79 -/
def elementP2 (alloc : List Nat → Nat) (other : List Nat) (s : Maps) (c : Cell) : Maps × List Nat :=
  let r0 := addNode alloc other s c.1
  let r1 := addNode alloc other r0.1 c.2.1
  let r2 := addNode alloc other r1.1 c.2.2
  let r3 := addMid alloc other r2.1 r0.2 r1.2
  let r4 := addMid alloc other r3.1 r1.2 r2.2
  let r5 := addMid alloc other r4.1 r2.2 r0.2
  (r5.1, [r0.2, r1.2, r2.2, r3.2, r4.2, r5.2])

/-- the loop on the cells, lib/mito/fem/elements/tri2/DiscretizerCG.h:45-80 -/
def elementsP2 (alloc : List Nat → Nat) (other : List Nat) :
    Maps → List Cell → Maps × List (List Nat)
  | s, [] => (s, [])
  | s, c :: cs =>
    let r := elementP2 alloc other s c
    let t := elementsP2 alloc other r.1 cs
    (t.1, r.2 :: t.2)

/-- the constrained nodes, lib/mito/fem/elements/tri2/DiscretizerCG.h:83-99; a cell of the domain is a
segment -/
def constrainedP2 (s : Maps) : List (Nat × Nat) → Outcome (List Nat)
  | [] => .ok []
  | (a, b) :: cs =>
    match lookup s.nodes a, lookup s.nodes b with
    | some da, some db =>
      match lookup s.mids (ordered da db) with
      | none => .throws
      | some m =>
        match constrainedP2 s cs with
        | .ok ds => .ok (da :: db :: m :: ds)
        | o => o
    | _, _ => .undefined

end Mito.Discretizer
