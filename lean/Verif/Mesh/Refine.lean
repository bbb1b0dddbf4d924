import Mathlib.Algebra.Field.Basic
import Mathlib.Data.List.Basic

/-!
# Model of lib/mito/mesh/tetra.h: uniform refinement

A node is its identity and its coordinates.  Coordinates are exact elements of a field `K` (in the
code: `double`); the coordinate system is a Cartesian one, where points and vectors have the same
components.  Creating a node (lib/mito/geometry/factories.h:35-52) makes a new point and a new vertex:
here, the next unused identity.  Inserting a cell in the refined mesh is appending its nodes.
-/

namespace Mito.Refine

variable {K : Type*} [Field K]

/-- A node with the coordinates of its point; the coordinates are indexed from 0. -/
structure PNode (K : Type*) where
  id : Nat
  pos : Nat → K

/-- `midpoint`, lib/mito/geometry/CoordinateSystem.h:94-100 -/
def midpoint (a b : Nat → K) : Nat → K := fun i => a i + 1 / 2 * (b i - a i)

/-- `midnode`, lib/mito/mesh/tetra.h:12-21; `k` is the next unused identity -/
def midnode (k : Nat) (a b : PNode K) : PNode K := ⟨k, midpoint a.pos b.pos⟩

/-- what is done to the new cells: the last argument of `subdivide` -/
def each {β : Type*} (f : Nat → β → Nat × List (List (PNode K))) :
    Nat → List β → Nat × List (List (PNode K))
  | k, [] => (k, [])
  | k, x :: xs =>
    let r := f k x
    let q := each f r.1 xs
    (q.1, r.2 ++ q.2)

/-- the two halves of a segment, lib/mito/mesh/tetra.h:30-38 and 44-46 -/
def halves (k : Nat) (c : PNode K × PNode K) : List (PNode K × PNode K) :=
  let m := midnode k c.1 c.2
  [(c.1, m), (m, c.2)]

/-- `subdivide` for segments, lib/mito/mesh/tetra.h:23-50, with `n_refinements = n + 1`.  (It does not
terminate for `n_refinements ≤ 0`.) -/
def subdivideSegment : Nat → Nat → PNode K × PNode K → Nat × List (List (PNode K))
  | 0, k, c => (k + 1, (halves k c).map fun d => [d.1, d.2])
  | n + 1, k, c => each (subdivideSegment n) (k + 1) (halves k c)

/-- the four parts of a triangle, lib/mito/mesh/tetra.h:60-76 and 82-86 -/
def quarters (k : Nat) (c : PNode K × PNode K × PNode K) : List (PNode K × PNode K × PNode K) :=
  let n0 := c.1
  let n1 := c.2.1
  let n2 := c.2.2
  let n01 := midnode k n0 n1
  let n12 := midnode (k + 1) n1 n2
  let n20 := midnode (k + 2) n2 n0
  [(n0, n01, n20), (n01, n1, n12), (n12, n2, n20), (n20, n01, n12)]

/-- `subdivide` for triangles, lib/mito/mesh/tetra.h:52-90, with `n_refinements = n + 1` -/
def subdivideTriangle : Nat → Nat → PNode K × PNode K × PNode K → Nat × List (List (PNode K))
  | 0, k, c => (k + 3, (quarters k c).map fun d => [d.1, d.2.1, d.2.2])
  | n + 1, k, c => each (subdivideTriangle n) (k + 3) (quarters k c)

/-- the eight parts of a tetrahedron as they are inserted, lib/mito/mesh/tetra.h:100-129 -/
def eighths (k : Nat) (c : PNode K × PNode K × PNode K × PNode K) :
    List (PNode K × PNode K × PNode K × PNode K) :=
  let n0 := c.1
  let n1 := c.2.1
  let n2 := c.2.2.1
  let n3 := c.2.2.2
  let n01 := midnode k n0 n1
  let n02 := midnode (k + 1) n0 n2
  let n03 := midnode (k + 2) n0 n3
  let n12 := midnode (k + 3) n1 n2
  let n13 := midnode (k + 4) n1 n3
  let n23 := midnode (k + 5) n2 n3
  [(n0, n01, n02, n03), (n1, n01, n13, n12), (n2, n02, n12, n23), (n3, n13, n03, n23),
    (n02, n01, n13, n03), (n02, n03, n13, n23), (n02, n13, n01, n12), (n02, n23, n13, n12)]

/-- the eight parts of a tetrahedron as they are subdivided further, lib/mito/mesh/tetra.h:135-159:
the fourth and the seventh list their nodes in another order -/
def eighthsRec (k : Nat) (c : PNode K × PNode K × PNode K × PNode K) :
    List (PNode K × PNode K × PNode K × PNode K) :=
  let n0 := c.1
  let n1 := c.2.1
  let n2 := c.2.2.1
  let n3 := c.2.2.2
  let n01 := midnode k n0 n1
  let n02 := midnode (k + 1) n0 n2
  let n03 := midnode (k + 2) n0 n3
  let n12 := midnode (k + 3) n1 n2
  let n13 := midnode (k + 4) n1 n3
  let n23 := midnode (k + 5) n2 n3
  [(n0, n01, n02, n03), (n1, n01, n13, n12), (n2, n02, n12, n23), (n03, n3, n13, n23),
    (n02, n01, n13, n03), (n02, n03, n13, n23), (n01, n02, n13, n12), (n02, n23, n13, n12)]

/-- `subdivide` for tetrahedra, lib/mito/mesh/tetra.h:92-163, with `n_refinements = n + 1` -/
def subdivideTetrahedron :
    Nat → Nat → PNode K × PNode K × PNode K × PNode K → Nat × List (List (PNode K))
  | 0, k, c => (k + 6, (eighths k c).map fun d => [d.1, d.2.1, d.2.2.1, d.2.2.2])
  | n + 1, k, c => each (subdivideTetrahedron n) (k + 6) (eighthsRec k c)

/-- one cell: its nodes are handed over as separate arguments, lib/mito/mesh/tetra.h:193-205 -/
def subdivideCell (n : Nat) (k : Nat) : List (PNode K) → Nat × List (List (PNode K))
  | [a, b] => subdivideSegment n k (a, b)
  | [a, b, c] => subdivideTriangle n k (a, b, c)
  | [a, b, c, d] => subdivideTetrahedron n k (a, b, c, d)
  | _ => (k, [])

/-- `tetra`, lib/mito/mesh/tetra.h:165-210: the nodes of the cells of the refined mesh, in order, and the
next unused identity -/
def tetra (n : Nat) (k : Nat) (cells : List (List (PNode K))) : Nat × List (List (PNode K)) :=
  match n with
  | 0 => (k, cells)
  | n + 1 => each (subdivideCell n) k cells

end Mito.Refine
