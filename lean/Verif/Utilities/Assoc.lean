/-!
# `std::map` and `std::unordered_map` as association lists

A map is the list of its entries.  (The order of the list stands for the order in which the map is visited;
what is proved of the code does not depend on it.)
-/

namespace Mito.Assoc

variable {κ V : Type} [DecidableEq κ]

/-- `find` -/
def get (m : List (κ × V)) (k : κ) : Option V := (m.find? fun e => e.1 = k).map (·.2)

/-- `emplace`, `insert`: an entry that is present stays as it is -/
def insert (m : List (κ × V)) (k : κ) (v : V) : List (κ × V) :=
  match get m k with
  | some _ => m
  | none => m ++ [(k, v)]

/-- `at(k) = v` for a key that is present -/
def set (m : List (κ × V)) (k : κ) (v : V) : List (κ × V) :=
  m.map fun e => if e.1 = k then (e.1, v) else e

end Mito.Assoc
