import Verif.Mesh.Refine
import Mathlib.Data.Real.Basic

/-!
# Model of lib/mito/mesh/tetra.h with rounding

The same functions as in `Verif/Mesh/Refine.lean`, with the operation that computes the coordinates of midpoints as a parameter
(`tetraWith_midpoint` shows that they are the same functions).  `flMidpoint` is that operation with rounding: every addition, subtraction and
multiplication of `double` is the exact one followed by a function `fl`.
-/

namespace Mito.Refine

abbrev Mid := (Nat → ℝ) → (Nat → ℝ) → Nat → ℝ

/-- `midnode`, lib/mito/mesh/tetra.h:12-21 -/
def midnodeWith (mid : Mid) (k : Nat) (a b : PNode ℝ) : PNode ℝ := ⟨k, mid a.pos b.pos⟩

/-- `midpoint` with rounding, lib/mito/geometry/CoordinateSystem.h:94-100; `0.5` is a `double` -/
noncomputable def flMidpoint (fl : ℝ → ℝ) : Mid := fun a b i => fl (a i + fl (1 / 2 * fl (b i - a i)))

/-- `halves` -/
def halvesWith (mid : Mid) (k : Nat) (c : PNode ℝ × PNode ℝ) : List (PNode ℝ × PNode ℝ) :=
  let m := midnodeWith mid k c.1 c.2
  [(c.1, m), (m, c.2)]

/-- `subdivide` for segments, lib/mito/mesh/tetra.h:23-50, with `n_refinements = n + 1`.  (It does not
terminate for `n_refinements ≤ 0`.) -/
def subdivideSegmentWith (mid : Mid) : Nat → Nat → PNode ℝ × PNode ℝ → Nat × List (List (PNode ℝ))
  | 0, k, c => (k + 1, (halvesWith mid k c).map fun d => [d.1, d.2])
  | n + 1, k, c => each (subdivideSegmentWith mid n) (k + 1) (halvesWith mid k c)

/-- the four parts of a triangle, lib/mito/mesh/tetra.h:60-76 and 82-86 -/
def quartersWith (mid : Mid) (k : Nat) (c : PNode ℝ × PNode ℝ × PNode ℝ) : List (PNode ℝ × PNode ℝ × PNode ℝ) :=
  let n0 := c.1
  let n1 := c.2.1
  let n2 := c.2.2
  let n01 := midnodeWith mid k n0 n1
  let n12 := midnodeWith mid (k + 1) n1 n2
  let n20 := midnodeWith mid (k + 2) n2 n0
  [(n0, n01, n20), (n01, n1, n12), (n12, n2, n20), (n20, n01, n12)]

/-- `subdivide` for triangles, lib/mito/mesh/tetra.h:52-90, with `n_refinements = n + 1` -/
def subdivideTriangleWith (mid : Mid) : Nat → Nat → PNode ℝ × PNode ℝ × PNode ℝ → Nat × List (List (PNode ℝ))
  | 0, k, c => (k + 3, (quartersWith mid k c).map fun d => [d.1, d.2.1, d.2.2])
  | n + 1, k, c => each (subdivideTriangleWith mid n) (k + 3) (quartersWith mid k c)

/-- the eight parts of a tetrahedron as they are inserted, lib/mito/mesh/tetra.h:100-129 -/
def eighthsWith (mid : Mid) (k : Nat) (c : PNode ℝ × PNode ℝ × PNode ℝ × PNode ℝ) :
    List (PNode ℝ × PNode ℝ × PNode ℝ × PNode ℝ) :=
  let n0 := c.1
  let n1 := c.2.1
  let n2 := c.2.2.1
  let n3 := c.2.2.2
  let n01 := midnodeWith mid k n0 n1
  let n02 := midnodeWith mid (k + 1) n0 n2
  let n03 := midnodeWith mid (k + 2) n0 n3
  let n12 := midnodeWith mid (k + 3) n1 n2
  let n13 := midnodeWith mid (k + 4) n1 n3
  let n23 := midnodeWith mid (k + 5) n2 n3
  [(n0, n01, n02, n03), (n1, n01, n13, n12), (n2, n02, n12, n23), (n3, n13, n03, n23),
    (n02, n01, n13, n03), (n02, n03, n13, n23), (n02, n13, n01, n12), (n02, n23, n13, n12)]

/-- the eight parts of a tetrahedron as they are subdivided further, lib/mito/mesh/tetra.h:135-159:
the fourth and the seventh list their nodes in another order -/
def eighthsRecWith (mid : Mid) (k : Nat) (c : PNode ℝ × PNode ℝ × PNode ℝ × PNode ℝ) :
    List (PNode ℝ × PNode ℝ × PNode ℝ × PNode ℝ) :=
  let n0 := c.1
  let n1 := c.2.1
  let n2 := c.2.2.1
  let n3 := c.2.2.2
  let n01 := midnodeWith mid k n0 n1
  let n02 := midnodeWith mid (k + 1) n0 n2
  let n03 := midnodeWith mid (k + 2) n0 n3
  let n12 := midnodeWith mid (k + 3) n1 n2
  let n13 := midnodeWith mid (k + 4) n1 n3
  let n23 := midnodeWith mid (k + 5) n2 n3
  [(n0, n01, n02, n03), (n1, n01, n13, n12), (n2, n02, n12, n23), (n03, n3, n13, n23),
    (n02, n01, n13, n03), (n02, n03, n13, n23), (n01, n02, n13, n12), (n02, n23, n13, n12)]

/-- `subdivide` for tetrahedra, lib/mito/mesh/tetra.h:92-163, with `n_refinements = n + 1` -/
def subdivideTetrahedronWith (mid : Mid) :
    Nat → Nat → PNode ℝ × PNode ℝ × PNode ℝ × PNode ℝ → Nat × List (List (PNode ℝ))
  | 0, k, c => (k + 6, (eighthsWith mid k c).map fun d => [d.1, d.2.1, d.2.2.1, d.2.2.2])
  | n + 1, k, c => each (subdivideTetrahedronWith mid n) (k + 6) (eighthsRecWith mid k c)

/-- one cell: its nodes are handed over as separate arguments, lib/mito/mesh/tetra.h:193-205 -/
def subdivideCellWith (mid : Mid) (n : Nat) (k : Nat) : List (PNode ℝ) → Nat × List (List (PNode ℝ))
  | [a, b] => subdivideSegmentWith mid n k (a, b)
  | [a, b, c] => subdivideTriangleWith mid n k (a, b, c)
  | [a, b, c, d] => subdivideTetrahedronWith mid n k (a, b, c, d)
  | _ => (k, [])

/-- `tetra`, lib/mito/mesh/tetra.h:165-210: the nodes of the cells of the refined mesh, in order, and the
next unused identity -/
def tetraWith (mid : Mid) (n : Nat) (k : Nat) (cells : List (List (PNode ℝ))) : Nat × List (List (PNode ℝ)) :=
  match n with
  | 0 => (k, cells)
  | n + 1 => each (subdivideCellWith mid n) k cells

end Mito.Refine
