import Verif.IO.VTK

/-! # Specification vocabulary for VTK grids (C47) -/

namespace Mito.VTK

variable {ν κ C : Type}

/-- The map `m` and the grid `g` describe `cells`: the ids of the map are `0, 1, ...` up to the number of
points and belong to different keys; there are as many cells with as many ids as there were nodes; each id
is that of the key of the node, and the point behind it is the point of that node. -/
structure Describes (key : ν → κ) (coords : ν → C) (cells : List (List ν)) (m : List (κ × Nat))
    (g : Grid C) : Prop where
  dense : m.map (·.2) = List.range g.points.length
  distinct : (m.map (·.1)).Nodup
  cellCount : g.cells.length = cells.length
  arity : ∀ (j : Nat) (c : List ν), cells[j]? = some c → (g.cells[j]?).map List.length = some c.length
  places : ∀ (j k : Nat) (c : List ν) (n : ν), cells[j]? = some c → c[k]? = some n →
    ∃ r i, g.cells[j]? = some r ∧ r[k]? = some i ∧ (key n, i) ∈ m ∧ g.points[i]? = some (coords n)

end Mito.VTK
