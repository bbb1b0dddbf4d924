import Verif.Fem.Discretizer
import Mathlib.Data.Sym.Sym2

/-! # Specification vocabulary for discretizers (C58) -/

namespace Mito.Discretizer

/-- `conn` are the nodes of the elements of `cells`, one per node of a cell, and two of them are the same
exactly if their mesh nodes are the same. -/
structure SharesNodes (cells conn : List (List Nat)) : Prop where
  count : conn.length = cells.length
  arity : ∀ (j : Nat) (c : List Nat), cells[j]? = some c → (conn[j]?).map List.length = some c.length
  shared : ∀ (j k j' k' : Nat) (c c' e e' : List Nat) (n n' d d' : Nat),
    cells[j]? = some c → c[k]? = some n → cells[j']? = some c' → c'[k']? = some n' →
    conn[j]? = some e → e[k]? = some d → conn[j']? = some e' → e'[k']? = some d' →
    (d = d' ↔ n = n')

/-- the places of a second order triangle: its nodes and its edges, in the order of the element -/
def places (c : Cell) : List (Nat ⊕ Sym2 Nat) :=
  [.inl c.1, .inl c.2.1, .inl c.2.2, .inr s(c.1, c.2.1), .inr s(c.2.1, c.2.2), .inr s(c.2.2, c.1)]

/-- `conn` are the nodes of the second order elements of `cells`, one per node and edge of a cell, and two of
them are the same exactly if their nodes or their edges are the same. -/
structure SharesPlaces (cells : List Cell) (conn : List (List Nat)) : Prop where
  count : conn.length = cells.length
  arity : ∀ e ∈ conn, e.length = 6
  shared : ∀ (j k j' k' : Nat) (c c' : Cell) (e e' : List Nat) (n n' : Nat ⊕ Sym2 Nat) (d d' : Nat),
    cells[j]? = some c → (places c)[k]? = some n → cells[j']? = some c' → (places c')[k']? = some n' →
    conn[j]? = some e → e[k]? = some d → conn[j']? = some e' → e'[k']? = some d' →
    (d = d' ↔ n = n')

end Mito.Discretizer
