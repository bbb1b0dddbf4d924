import Verif.Mesh.Refine
import Mathlib.Algebra.BigOperators.Group.List.Defs
import Mathlib.Order.Defs.LinearOrder

/-! # Specification vocabulary for refinement (C30, C31) -/

namespace Mito.Refine

variable {K : Type*} [Field K]

/-- Twice, six times … the signed volume of the projection of a simplex to the coordinate axes `i`,
`j`, `l` (as many as its order): the determinant of the edge vectors at the first node.  In the plane
(space) with `i, j (, l) = 0, 1 (, 2)` it is the signed area (volume) itself; for cells embedded in a
higher-dimensional space these are the components of their area vector. -/
def signedVolume (i j l : Nat) : List (PNode K) → K
  | [a, b] => b.pos i - a.pos i
  | [a, b, c] =>
    (b.pos i - a.pos i) * (c.pos j - a.pos j) - (b.pos j - a.pos j) * (c.pos i - a.pos i)
  | [a, b, c, d] =>
    (b.pos i - a.pos i) * ((c.pos j - a.pos j) * (d.pos l - a.pos l) -
        (c.pos l - a.pos l) * (d.pos j - a.pos j))
      - (b.pos j - a.pos j) * ((c.pos i - a.pos i) * (d.pos l - a.pos l) -
        (c.pos l - a.pos l) * (d.pos i - a.pos i))
      + (b.pos l - a.pos l) * ((c.pos i - a.pos i) * (d.pos j - a.pos j) -
        (c.pos j - a.pos j) * (d.pos i - a.pos i))
  | _ => 0

/-- a cell of order 1, 2 or 3 -/
def IsCell (c : List (PNode K)) : Prop := 2 ≤ c.length ∧ c.length ≤ 4

/-- the point `x` lies in the simplex `c`: it is a convex combination of its nodes -/
def InHull [LinearOrder K] (c : List (PNode K)) (x : Nat → K) : Prop :=
  ∃ w : List K, w.length = c.length ∧ (∀ a ∈ w, 0 ≤ a) ∧ w.sum = 1 ∧
    ∀ i, x i = (List.zipWith (fun a p => a * p.pos i) w c).sum

/-- nodes at the same position are the same node -/
def Conforming (L : List (List (PNode K))) : Prop :=
  ∀ c ∈ L, ∀ d ∈ L, ∀ p ∈ c, ∀ q ∈ d, p.pos = q.pos → p.id = q.id

/-- the number of nodes made by `n` subdivisions into `q` parts with `e` new nodes each -/
def newNodes (q e : Nat) : Nat → Nat
  | 0 => 0
  | n + 1 => e + q * newNodes q e n

end Mito.Refine
