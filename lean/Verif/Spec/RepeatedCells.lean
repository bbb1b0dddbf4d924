import Verif.Spec.LoadSimplices

/-! # Specification vocabulary for files in which cells are repeated (C135) -/

namespace Mito.Load

/-- the first cell of a list that is on the same nodes -/
def firstOn (cells : List (List Nat)) (c : List Nat) : Option (List Nat) := cells.find? fun d => d.toFinset = c.toFinset

/-- the cells, each in the order of nodes of the first cell on the same nodes -/
def firstOrders (cells : List (List Nat)) : List (List Nat) := cells.map fun c => (firstOn cells c).getD c

end Mito.Load
