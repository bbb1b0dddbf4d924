import Mathlib.Data.List.Basic

/-!
# Numbering the keys met in a loop

Several parts of the code number objects in the order in which they are met:
`auto [_, inserted] = map.insert({ key, index }); if (inserted) ++index;`
(lib/mito/io/summit/MeshSummitWriter.h:44-57, lib/mito/io/vtk/MeshVTKWriter.h:40-58,
lib/mito/io/vtk/NodeVTKWriter.h:49-67).  The hash map is the list of its entries, in order of insertion;
where the order in which the map is visited matters, it is a parameter.
-/

namespace Mito.Numbering

variable {κ : Type} [DecidableEq κ]

/-- `map.at(key)`: `none` is the exception -/
def lookup (m : List (κ × Nat)) (k : κ) : Option Nat := (m.find? fun e => e.1 = k).map (·.2)

/-- one round of the loop -/
def step (s : List (κ × Nat) × Nat) (k : κ) : List (κ × Nat) × Nat :=
  match lookup s.1 k with
  | some _ => s
  | none => (s.1 ++ [(k, s.2)], s.2 + 1)

/-- the map after the loop over `l`, starting to count from `start` -/
def number (start : Nat) (l : List κ) : List (κ × Nat) := (l.foldl step ([], start)).1

/-- all the entries, unless one is missing -/
def allSome {α : Type} : List (Option α) → Option (List α)
  | [] => some []
  | none :: _ => none
  | some a :: l => (allSome l).map (a :: ·)

end Mito.Numbering
