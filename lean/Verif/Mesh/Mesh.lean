import Verif.Utilities.SegmentedVector
import Mathlib.Logic.Function.Basic

/-!
# Model of `mito::mesh::Mesh`

The cells are stored in the segmented vector of `Verif/Utilities/SegmentedVector.lean` (the class
says `_cells(100)`: segments of 100 elements).

The type of cell is a parameter `α`, and so is `fac : α → List (Nat × Int)`: the facets of a cell,
that is the pairs (id of the footprint, orientation) of `cell.simplex()->composition()`.  It does not
depend on time because a cell holds its simplex, and a simplex in use does not change (C20).
`Verif/Mesh/Boundary.lean` instantiates it with the topology.
-/

namespace Mito.Meshes

open Mito.Alloc Mito.SegVec

/-- Data members, lib/mito/mesh/Mesh.h:211-217.  `orient` is the map `_orientations`; the pair counts
the occurrences with orientation `+1` (component `[0]`) and with the other one (`[1]`). -/
structure Mesh (α : Type) where
  cells : SVec α
  orient : Nat → Option (Int × Int)

/-- Default constructor, lib/mito/mesh/Mesh.h:51-54. -/
def Mesh.init {α : Type} : Mesh α := ⟨.init 100, fun _ => none⟩

variable {α : Type}

/-- `_orientations[k][…] += d`: `operator[]` of `std::unordered_map` creates a missing entry with
value `{0, 0}`. -/
def bump (d : Int) (o : Nat → Option (Int × Int)) (f : Nat × Int) : Nat → Option (Int × Int) :=
  let p := (o f.1).getD (0, 0)
  Function.update o f.1 (some (if f.2 = 1 then (p.1 + d, p.2) else (p.1, p.2 + d)))

/-- `_register_cell_orientation`, lib/mito/mesh/Mesh.h:70-82. -/
def register (fac : α → List (Nat × Int)) (o : Nat → Option (Int × Int)) (c : α) :
    Nat → Option (Int × Int) :=
  (fac c).foldl (bump 1) o

/-- the body of the loop in `erase`, lib/mito/mesh/Mesh.h:111-123 -/
def unbump (o : Nat → Option (Int × Int)) (f : Nat × Int) : Nat → Option (Int × Int) :=
  let o1 := bump (-1) o f
  if o1 f.1 = some (0, 0) then Function.update o1 f.1 none else o1

/-- `insert(cell)`, lib/mito/mesh/Mesh.h:180-188.  `b` is what `operator new` would return; `valid` is
the flag of the cell passed in (copied by the copy constructor). -/
def Mesh.insert (fac : α → List (Nat × Int)) (m : Mesh α) (c : α) (valid : Bool) (b : Nat) :
    Option (Mesh α × Nat) :=
  let o := register fac m.orient c
  match SegVec.emplace m.cells (c, valid) b with
  | none => none
  | some (v, a) => some (⟨v, o⟩, a)

/-- `insert(nodes)`, lib/mito/mesh/Mesh.h:191-202, where `c` is the cell built from the nodes. -/
def Mesh.insertNodes (fac : α → List (Nat × Int)) (m : Mesh α) (c : α) (b : Nat) :
    Option (Mesh α × Nat) :=
  match SegVec.emplace m.cells (c, true) b with
  | none => none
  | some (v, a) => some (⟨v, register fac m.orient c⟩, a)

/-- `erase`, lib/mito/mesh/Mesh.h:104-127, for the cell at the address `a`.  The cell is read after it
was marked invalid, which is fine because the object still exists.  `none`: there is no object. -/
def Mesh.erase (fac : α → List (Nat × Int)) (m : Mesh α) (a : Nat) : Option (Mesh α) :=
  match m.cells.mem a with
  | none => none
  | some (c, _) =>
    match SegVec.erase m.cells a with
    | none => none
    | some (v, erased) =>
      some ⟨v, if erased then (fac c).foldl unbump m.orient else m.orient⟩

/-- `nCells`, lib/mito/mesh/Mesh.h:85-89. -/
def Mesh.nCells (m : Mesh α) : Int := SegVec.size m.cells

/-- read the objects at a list of addresses -/
def readAll (mem : Nat → Option (α × Bool)) : List Nat → Option (List α)
  | [] => some []
  | a :: l =>
    match mem a, readAll mem l with
    | some (c, _), some cs => some (c :: cs)
    | _, _ => none

/-- the cells visited by `for (const auto & cell : mesh.cells())`, in order; the capacity of the
container is enough fuel for the loop (`cellList_some`) -/
def Mesh.cellList (m : Mesh α) : Option (List α) :=
  match SegVec.elements m.cells (SegVec.capacity m.cells) with
  | none => none
  | some l => readAll m.cells.mem l

/-- `isOnBoundary`, lib/mito/mesh/Mesh.h:163-177, for the oriented facet `f`; `none` is the exception
thrown by `.at`. -/
def Mesh.isOnBoundary (m : Mesh α) (f : Nat × Int) : Option Bool :=
  match m.orient f.1 with
  | none => none
  | some p => some ((if f.2 = -1 then p.1 else p.2) == 0)

/-- The loops of `erase_topological_duplicates` and `erase_geometrical_duplicates`,
lib/mito/mesh/Mesh.h:130-161, from iterator `it` on; `key` is the footprint, respectively the oriented
simplex, of a cell, `seen` the set `simplices`, and `e` the position of `end()`, computed once.
`none`: undefined behaviour, or out of fuel. -/
def eraseDuplicatesFrom {κ : Type} [DecidableEq κ] (fac : α → List (Nat × Int)) (key : α → κ)
    (e : Nat) : Nat → Mesh α → It → List κ → Option (Mesh α)
  | fuel, m, it, seen =>
    if it.ptr = e then some m
    else
      match fuel with
      | 0 => none
      | fuel + 1 =>
        match m.cells.mem it.ptr with
        | none => none
        | some (c, _) =>
          match (if key c ∈ seen then m.erase fac it.ptr else some m) with
          | none => none
          | some m1 =>
            match nextValid m1.cells.alloc (isValidAt m1.cells) (fuel + 1) it with
            | none => none
            | some it' =>
              eraseDuplicatesFrom fac key e fuel m1 it'
                (if key c ∈ seen then seen else key c :: seen)

/-- `erase_topological_duplicates` (`key` is the footprint of the simplex of a cell) and
`erase_geometrical_duplicates` (`key` is the oriented simplex), lib/mito/mesh/Mesh.h:130-161. -/
def Mesh.eraseDuplicates {κ : Type} [DecidableEq κ] (fac : α → List (Nat × Int)) (key : α → κ)
    (m : Mesh α) : Option (Mesh α) :=
  let fuel := SegVec.capacity m.cells
  match mkContainerIt m.cells.alloc (isValidAt m.cells) fuel (itBegin m.cells.alloc) with
  | none => none
  | some it => eraseDuplicatesFrom fac key (itEnd m.cells.alloc).ptr fuel m it []

/-- insert a list of cells one after the other, as `boundary`, `filter`, `tetra` and the partitioner
do; `bs` is what `operator new` would return at each insertion -/
def Mesh.insertAll (fac : α → List (Nat × Int)) : Mesh α → List α → List Nat → Option (Mesh α)
  | m, [], _ => some m
  | _, _ :: _, [] => none
  | m, c :: cs, b :: bs =>
    match m.insertNodes fac c b with
    | none => none
    | some (m1, _) => m1.insertAll fac cs bs

end Mito.Meshes
