import Verif.Spec.Integrator
import Verif.Spec.Refine
import Verif.Spec.RefineShape

/-! # Integrals on refined meshes (C88) -/

namespace Mito.Quadrature

open Mito.Functions Mito.Geometry Mito.Refine

/-- the coordinates of the nodes of a cell of order `n + 1` in a space of dimension `d` -/
noncomputable def coords (n d : Nat) (c : List (PNode ℝ)) : Fin (n + 2) → Val (.vec d) := fun a i =>
  match c[a.val]? with
  | some p => p.pos i.val
  | none => 0

/-- the cells of a manifold on a mesh given by the nodes of its cells.  The simplices of different cells are different; here their ids
are the positions in the mesh. -/
noncomputable def meshCells (n d : Nat) (mesh : List (List (PNode ℝ))) : List (Cell n d) :=
  mesh.zipIdx.map fun c => ⟨c.2, coords n d c.1⟩

/-- the set of points of a cell of a mesh -/
def meshHull (n d : Nat) (c : List (PNode ℝ)) : Set (Val (.vec d)) := convexHull ℝ (Set.range (coords n d c))

/-- the points of all cells of a mesh -/
def meshDomain (n d : Nat) (mesh : List (List (PNode ℝ))) : Set (Val (.vec d)) := ⋃ c ∈ mesh, meshHull n d c

/-- around every point of `D` the function `f` agrees with a polynomial of degree `r` up to the order `r + 1`, with constant `C` -/
def TaylorOn {d : Nat} (f : Val (.vec d) → ℝ) (D : Set (Val (.vec d))) (r : Nat) (C : ℝ) : Prop :=
  ∀ x ∈ D, ∃ p : MvPolynomial (Fin d) ℝ, p.totalDegree ≤ r ∧ ∀ y ∈ D, |f y - MvPolynomial.eval y p| ≤ C * dist x y ^ (r + 1)

end Mito.Quadrature
