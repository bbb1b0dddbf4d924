import Verif.IO.Summit
import Verif.Spec.Numbering
import Mathlib.Data.Finset.Card
import Mathlib.Data.Finset.Dedup

/-! # Specification vocabulary for Summit files (C46) -/

namespace Mito.Summit

/-- The mesh read (`nodes`: the coordinates of the nodes, `read`: the cells) is the mesh written, up to the
numbering of the points: as many cells, a node for each point of the mesh, the `k`-th node of the `j`-th cell
has the printed coordinates of the point of the `k`-th node of the `j`-th cell, and two places in cells have
the same node exactly if they had the same point. -/
structure SameMesh (coords : Nat → List ℚ) (printed : ℚ → ℚ) (cells : List Cell)
    (nodes : List (List ℚ)) (read : List (List Nat)) : Prop where
  cellCount : read.length = cells.length
  nodeCount : nodes.length = (meshPoints cells).toFinset.card
  arity : ∀ (j : Nat) (c : Cell), cells[j]? = some c → (read[j]?).map List.length = some c.length
  places : ∀ (j k : Nat) (c : Cell) (n : Node), cells[j]? = some c → c[k]? = some n →
    ∃ r i, read[j]? = some r ∧ r[k]? = some i ∧ nodes[i]? = some ((coords n.point).map printed)
  shared : ∀ (j k j' k' : Nat) (c c' : Cell) (n n' : Node) (r r' : List Nat) (i i' : Nat),
    cells[j]? = some c → c[k]? = some n → cells[j']? = some c' → c'[k']? = some n' →
    read[j]? = some r → r[k]? = some i → read[j']? = some r' → r'[k']? = some i' →
    (i = i' ↔ n.point = n'.point)

end Mito.Summit
