import Verif.Fem.Dirichlet
import Verif.Spec.Elements
import Verif.Spec.Boundary
import Verif.Spec.Dirichlet
import Verif.Fem.Blocks
import Verif.Spec.Components
import Verif.Spec.Integrator
import Verif.Spec.Stokes
import Mathlib.Analysis.Calculus.ContDiff.Defs
import Mathlib.MeasureTheory.Integral.IntervalIntegral.Basic

/-! # Convergence of the solutions of the Poisson problem (C90) -/

namespace Mito.Fem

open Mito.Functions Mito.Geometry Mito.Meshes Mito.Topology Mito.Discretizer Mito.DiscreteSystem Mito.Quadrature MeasureTheory

/-- the flux of the field `F` through the segment from `a` to `b`, to its right -/
noncomputable def flux (F : Fin 2 → (Fin 2 → ℝ) → ℝ) (a b : Fin 2 → ℝ) : ℝ :=
  ∫ s in (0 : ℝ)..1, (F 0 (fun k => a k + s * (b k - a k)) * (b 1 - a 1) - F 1 (fun k => a k + s * (b k - a k)) * (b 0 - a 0))

/-- partial derivatives -/
noncomputable def partial2 (u : (Fin 2 → ℝ) → ℝ) (k : Fin 2) (y : Fin 2 → ℝ) : ℝ := fderiv ℝ u y (Pi.single k 1)

/-- the source of the Poisson problem with the solution `u` -/
noncomputable def sourceOf (u : (Fin 2 → ℝ) → ℝ) (y : Fin 2 → ℝ) : ℝ := -∑ k, partial2 (partial2 u k) k y

/-- `cells` are the cells of a mesh of triangles on the topology `t` and `B` those of its boundary.  At the positions `p` of the vertices
all triangles have positive area; there is one node at each vertex, nodes have different ids, and no two triangles are on the same side of
an edge. -/
structure Triangulates (t : Topo) (cells B : List GCell) (p : Id → Val (.vec 2)) : Prop where
  topology : VReachable t
  mesh : ∃ m s known t', Reachable (facets t 1) m s known ∧ m.cellList = some cells ∧ boundary t 1 m = some (t', B)
  cell : ∀ c ∈ cells, CellOk t 2 c
  edges : (cells.flatMap (facets t 1)).Nodup
  positive : ∀ c ∈ cells, t.sg 2 c.simplex = 1 ∧ 0 < Meshes.area p c.vertices
  nodes : OneNode cells
  ids : ∀ c ∈ cells, ∀ c' ∈ cells, ∀ x ∈ c.nodes, ∀ y ∈ c'.nodes, x.id = y.id → x = y

/-- the triangles have the size `h` at most and the quotient of the square of their size and their area is `κ` at most.  The coordinates
of their nodes are bounded by `R`.  (The size is the largest difference of coordinates.) -/
def Fine (cells : List GCell) (p : Id → Val (.vec 2)) (h κ R : ℝ) : Prop :=
  ∀ c ∈ cells, (∃ r ≤ h, (∀ a b, dist (positions 3 p c a) (positions 3 p c b) ≤ r) ∧ r ^ 2 ≤ κ * triangleArea (positions 3 p c)) ∧
    ∀ a k, |positions 3 p c a k| ≤ R

/-- the area of all triangles -/
noncomputable def areaOf (cells : List GCell) (p : Id → Val (.vec 2)) : ℝ := (cells.map fun c => triangleArea (positions 3 p c)).sum

/-- `u` vanishes at the nodes on the boundary -/
def Vanishes (B : List GCell) (p : Id → Val (.vec 2)) (u : (Fin 2 → ℝ) → ℝ) : Prop := ∀ b ∈ B, ∀ x ∈ b.nodes, u (p x.vertex) = 0

/-- the square of the H1 norm of the difference between the field with the values `U` at the discretization nodes and the function `u` -/
noncomputable def errorSquare {n : Nat} (space : Space Nat 2 n) (U : Nat → ℝ) (u : (Fin 2 → ℝ) → ℝ) : ℝ :=
  (space.map fun ec => ∫ ξ in Simplex 2 1, ec.1.detJ ξ *
    ((∑ a, U (ec.2 a) * (ec.1.shape a).eval ξ () - u (ec.1.parametrization.eval ξ)) ^ 2 +
      ∑ k, (∑ a, U (ec.2 a) * ec.1.gradient a ξ k - partial2 u k (ec.1.parametrization.eval ξ)) ^ 2)).sum

/-- the discretizer succeeds, and however often the system with the source `f` is solved, by any exact solver, the square of the H1 norm of
the difference between the discrete solution and `u` is `η` at most -/
def SolvesWithin {n : Nat} (rule : Rule 2) (f u : (Fin 2 → ℝ) → ℝ) (η : ℝ) (o : Outcome (Space Nat 2 n × List Nat)) : Prop :=
  ∃ space l, o = .ok (space, l) ∧ ∀ solver, Exact solver → ∀ k, ∃ S U,
    solveTimes solver (poisson rule f space) (k + 1) (create (functionSpace space l)) = some S ∧
    (∀ ec ∈ space, ∀ a, Assoc.get S.field (ec.2 a) = some (U (ec.2 a))) ∧ errorSquare space U u ≤ η

/-- The same for the L2 norm that the code computes with the rule. -/
def SolvesWithinL2 {n : Nat} (rule : Rule 2) (f : (Fin 2 → ℝ) → ℝ) (u : Expr (.vec 2) .scalar) (η : ℝ)
    (o : Outcome (Space Nat 2 n × List Nat)) : Prop :=
  ∃ space l, o = .ok (space, l) ∧ ∀ solver, Exact solver → ∀ k, ∃ S U,
    solveTimes solver (poisson rule f space) (k + 1) (create (functionSpace space l)) = some S ∧
    (∀ ec ∈ space, ∀ a, Assoc.get S.field (ec.2 a) = some (U (ec.2 a))) ∧ l2Norm rule space (.fem U) (.field u) ^ 2 ≤ η

/-- the bounds for the squares of the errors, for triangles of area one: `e` is a bound for the error of the gradient of the interpolating
function, `ε` for the variation of the source on a triangle and `F` for the source -/
noncomputable def energyBound (e ε F R h : ℝ) : ℝ := 4 * (e + (F + ε) * h) ^ 2 + 8 * R ^ 2 * ε ^ 2
@[inherit_doc energyBound]
noncomputable def h1Bound (e ε F R h : ℝ) : ℝ := 4 * e ^ 2 + 8 * e ^ 2 * h ^ 2 + (2 + 8 * R ^ 2) * energyBound e ε F R h
@[inherit_doc energyBound]
noncomputable def l2Bound (e ε F R h : ℝ) : ℝ := 8 * e ^ 2 * h ^ 2 + (16 * R ^ 2 + 8 * h ^ 2) * energyBound e ε F R h

end Mito.Fem
