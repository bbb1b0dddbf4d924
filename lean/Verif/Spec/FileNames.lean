import Verif.IO.FileNames
import Mathlib.Data.List.Nodup

/-! # Specification vocabulary for the names of files (C106) -/

namespace Mito.FileNames

/-- No file with data is written twice in a job of `n` tasks that run the same program. -/
def NoClash (n : Nat) (ws : List Writer) : Prop :=
  ∀ (i j : Nat) (hi : i < ws.length) (hj : j < ws.length) (r s : Nat), r < n → s < n → ws[i].dataFile r = ws[j].dataFile s → i = j ∧ r = s

/-- the names of the writers of one kind -/
def namesOf (k : Kind) (ws : List Writer) : List (List Char) := (ws.filter fun w => w.kind = k).map (·.name)

/-- what the author of the program has to take care of -/
structure Careful (n : Nat) (ws : List Writer) : Prop where
  /-- writers of the same kind have different names -/
  different : ∀ k, (namesOf k ws).Nodup
  /-- with several tasks only parallel writers are used -/
  parallel : 2 ≤ n → ∀ w ∈ ws, w.kind = .parallel
  /-- no serial writer has the name of a piece of a parallel one -/
  pieces : ∀ a ∈ namesOf .serial ws, ∀ b ∈ namesOf .parallel ws, ∀ r < n, a ≠ numbered b r

end Mito.FileNames
