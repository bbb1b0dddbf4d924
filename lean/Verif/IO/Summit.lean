import Verif.Utilities.Numbering
import Mathlib.Data.Rat.Defs

/-!
# Model of lib/mito/io/summit: the mesh writer and the mesh reader

A file is the list of its tokens (what `>>` splits at white space).  Numbers are exact rationals;
`printed x` stands for the number that is read back after `x` was printed with 15 digits.  A mesh is the
list of the node lists of its cells: the cells are inserted with `mesh.insert({ nodes... })`, which keeps
the nodes in order (lib/mito/geometry/GeometricSimplex.h:98-104); the topology below is modelled in
Verif/Mesh.
-/

namespace Mito.Summit

open Mito.Numbering

/-- a token of a file -/
inductive Token where
  | num (q : ℚ)
  | word (s : String)
deriving DecidableEq, Repr

/-- a node: its identity and the identity of the point it sits on -/
structure Node where
  id : Nat
  point : Nat
deriving DecidableEq, Repr

abbrev Cell := List Node

/-! ### writer -/

/-- the points met by the constructor, lib/mito/io/summit/MeshSummitWriter.h:47-57 -/
def meshPoints (cells : List Cell) : List Nat := cells.flatMap fun c => c.map (·.point)

/-- `_points`, lib/mito/io/summit/MeshSummitWriter.h:44-57: counting starts from one -/
def points (cells : List Cell) : List (Nat × Nat) := number 1 (meshPoints cells)

/-- `points_vector`, lib/mito/io/summit/MeshSummitWriter.h:78-82: entries not set are null.  `order` is
the order in which the hash map is visited. -/
def pointsVector (n : Nat) (order : List (Nat × Nat)) : List (Option Nat) :=
  order.foldl (fun v e => v.set (e.2 - 1) (some e.1)) (List.replicate n none)

/-- the tokens of one cell, lib/mito/io/summit/MeshSummitWriter.h:94-102 -/
def writeCell (type : Nat) (m : List (Nat × Nat)) (elementType : List Token) (c : Cell) :
    Option (List Token) :=
  (allSome (c.map fun n => lookup m n.point)).map fun ids =>
    .num type :: ids.map (fun i => .num i) ++ [.num 1] ++ elementType

/-- `write`, lib/mito/io/summit/MeshSummitWriter.h:66-109; `none`: a null point is followed, or
`_points.at` throws.  `elementType` are the tokens of `_element_type`. -/
def write (D type : Nat) (coords : Nat → List ℚ) (printed : ℚ → ℚ) (elementType : List Token)
    (order : List (Nat × Nat)) (cells : List Cell) : Option (List Token) :=
  match allSome (pointsVector (points cells).length order) with
  | none => none
  | some pts =>
    match allSome (cells.map (writeCell type (points cells) elementType)) with
    | none => none
    | some lines =>
      some ([.num D, .num (points cells).length, .num cells.length, .num 1] ++
        pts.flatMap (fun p => (coords p).map fun x => .num (printed x)) ++ lines.flatten)

/-! ### reader -/

/-- an input stream: the tokens left and the fail bit -/
structure Stream where
  tokens : List Token
  failed : Bool
deriving DecidableEq, Repr

/-- `>>` to a `double`: a failed read gives zero -/
def readNum (s : Stream) : ℚ × Stream :=
  if s.failed then (0, s)
  else
    match s.tokens with
    | .num q :: r => (q, ⟨r, false⟩)
    | r => (0, ⟨r, true⟩)

/-- `>>` to an `int`.  Simplification: a token that is a number but not an integer is a failed read (the
code would read the digits before the point); the writer puts no such token where an integer is read. -/
def readInt (s : Stream) : Int × Stream :=
  if s.failed then (0, s)
  else
    match s.tokens with
    | .num q :: r => if q.den = 1 then (q.num, ⟨r, false⟩) else (0, ⟨.num q :: r, true⟩)
    | r => (0, ⟨r, true⟩)

/-- `>>` to a `std::string` whose value is not used -/
def skip (s : Stream) : Stream :=
  if s.failed then s
  else
    match s.tokens with
    | _ :: r => ⟨r, false⟩
    | [] => ⟨[], true⟩

/-- `n` reads in a row -/
def readMany {α : Type} (read : Stream → α × Stream) : Nat → Stream → List α × Stream
  | 0, s => ([], s)
  | n + 1, s =>
    let (x, s1) := read s
    let (xs, s2) := readMany read n s1
    (x :: xs, s2)

/-- how reading may end -/
inductive Outcome (α : Type) where
  | ok (a : α)
  | throws
  | assertion
  | undefined
deriving DecidableEq, Repr

/-- `nodes[index[I]]...`: `none` if an index is out of range -/
def inRange (n : Nat) (ids : List Int) : Option (List Nat) :=
  if ids.all fun i => 0 ≤ i && i < n then some (ids.map Int.toNat) else none

/-- `readElements` (continuous Galerkin), lib/mito/io/summit/reader.h:107-127 with `readElement`, 40-105:
the cells as lists of indices of nodes; `none`: an index is out of range, undefined behaviour.
`V` is the number of nodes of a cell. -/
def readElements (type V nNodes : Nat) : Nat → Stream → Option (List (List Nat) × Stream)
  | 0, s => some ([], s)
  | n + 1, s =>
    let (cellType, s1) := readInt s
    if cellType = type then
      let (ids, s2) := readMany readInt V s1
      match inRange nNodes (ids.map (· - 1)) with
      | none => none
      | some c =>
        match readElements type V nNodes n (skip s2) with
        | none => none
        | some (cs, s3) => some (c :: cs, s3)
    else readElements type V nNodes n s1

/-- `reader`, lib/mito/io/summit/reader.h:129-191, with `readVertices`, 11-38: the coordinates of the nodes
and the cells -/
def reader (D type V : Nat) (file : List Token) : Outcome (List (List ℚ) × List (List Nat)) :=
  let (dim, s1) := readInt ⟨file, false⟩
  if (D : Int) ≠ dim then .assertion
  else
    let (nVertices, s2) := readInt s1
    -- `nodes.reserve`
    if nVertices < 0 then .throws
    else
      let (nCells, s3) := readInt s2
      let (nTypes, s4) := readInt s3
      if nTypes ≠ 1 then .assertion
      else
        let (nodes, s5) := readMany (readMany readNum D) nVertices.toNat s4
        match readElements type V nodes.length nCells.toNat s5 with
        | none => .undefined
        | some (cells, _) =>
          if (nodes.length : Int) ≠ nVertices then .assertion
          else if (cells.length : Int) ≠ nCells then .assertion
          else .ok (nodes, cells)

/-- `reader`, lib/mito/io/summit/reader.h:129-191, without assertions, as in release builds (`NDEBUG`) -/
def readerRelease (D type V : Nat) (file : List Token) : Outcome (List (List ℚ) × List (List Nat)) :=
  let (_, s1) := readInt ⟨file, false⟩
  let (nVertices, s2) := readInt s1
  if nVertices < 0 then .throws
  else
    let (nCells, s3) := readInt s2
    let (_, s4) := readInt s3
    let (nodes, s5) := readMany (readMany readNum D) nVertices.toNat s4
    match readElements type V nodes.length nCells.toNat s5 with
    | none => .undefined
    | some (cells, _) => .ok (nodes, cells)

end Mito.Summit
