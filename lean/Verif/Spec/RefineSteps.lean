import Verif.Spec.Refine

/-! # Refining in steps (C89) -/

namespace Mito.Refine

variable {K : Type*} [Field K]

/-- the positions of the nodes of the cells -/
def shape (L : List (List (PNode K))) : List (List (Nat → K)) := L.map fun c => c.map PNode.pos

/-- the positions of the nodes of the parts of a segment or a triangle -/
def parts : List (Nat → K) → List (List (Nat → K))
  | [a, b] => [[a, midpoint a b], [midpoint a b, b]]
  | [a, b, c] => [[a, midpoint a b, midpoint c a], [midpoint a b, b, midpoint b c], [midpoint b c, c, midpoint c a],
      [midpoint c a, midpoint a b, midpoint b c]]
  | _ => []

/-- dividing `n` times -/
def divide : Nat → List (Nat → K) → List (List (Nat → K))
  | 0, c => [c]
  | n + 1, c => (parts c).flatMap (divide n)

end Mito.Refine
