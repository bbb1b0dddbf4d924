import Verif.Spec.PoissonConvergence
import Verif.Spec.RefineTorn
import Mathlib.Analysis.Calculus.Deriv.Basic

/-! # Convergence of the solutions of the Poisson problem on segments (C93) -/

namespace Mito.Fem

open Mito.Functions Mito.Geometry Mito.Meshes Mito.Topology Mito.Discretizer Mito.DiscreteSystem Mito.Quadrature MeasureTheory

/-- `cells` are the cells of a mesh of segments on the topology `t` and `B` those of its boundary.  At the positions `p` of the vertices
all segments have positive length; there is one node at each vertex, nodes have different ids, and no two segments begin (or end) at the
same vertex. -/
structure Divides (t : Topo) (cells B : List GCell) (p : Id → Val (.vec 1)) : Prop where
  topology : VReachable t
  mesh : ∃ m s known t', Reachable (facets t 0) m s known ∧ m.cellList = some cells ∧ boundary t 0 m = some (t', B)
  cell : ∀ c ∈ cells, CellOk t 1 c
  ends : (cells.flatMap (facets t 0)).Nodup
  positive : ∀ c ∈ cells, t.sg 1 c.simplex = 1 ∧ 0 < extent (fun v => p v 0) c.vertices
  nodes : OneNode cells
  ids : ∀ c ∈ cells, ∀ c' ∈ cells, ∀ x ∈ c.nodes, ∀ y ∈ c'.nodes, x.id = y.id → x = y

/-- the segments have the length `h` at most and their ends are within the distance `R` of the origin -/
def Short (cells : List GCell) (p : Id → Val (.vec 1)) (h R : ℝ) : Prop :=
  ∀ c ∈ cells, length (positions 2 p c) ≤ h ∧ ∀ a, |positions 2 p c a 0| ≤ R

/-- the length of all segments -/
noncomputable def lengthOf (cells : List GCell) (p : Id → Val (.vec 1)) : ℝ := (cells.map fun c => length (positions 2 p c)).sum

/-- `u` vanishes at the nodes on the boundary -/
def VanishesAtEnds (B : List GCell) (p : Id → Val (.vec 1)) (u : ℝ → ℝ) : Prop := ∀ b ∈ B, ∀ x ∈ b.nodes, u (p x.vertex 0) = 0

/-- the source of the Poisson problem with the solution `u` -/
noncomputable def source1 (u : ℝ → ℝ) (y : Val (.vec 1)) : ℝ := -deriv (deriv u) (y 0)

/-- the square of the H1 norm of the difference between the field with the values `U` at the discretization nodes and the function `u` -/
noncomputable def errorSquare1 {n : Nat} (space : Space Nat 1 n) (U : Nat → ℝ) (u : ℝ → ℝ) : ℝ :=
  (space.map fun ec => ∫ ξ in (0 : ℝ)..1, ec.1.detJ (fun _ => ξ) *
    ((∑ a, U (ec.2 a) * (ec.1.shape a).eval (fun _ => ξ) () - u (ec.1.parametrization.eval (fun _ => ξ) 0)) ^ 2 +
      (∑ a, U (ec.2 a) * ec.1.gradient a (fun _ => ξ) 0 - deriv u (ec.1.parametrization.eval (fun _ => ξ) 0)) ^ 2)).sum

/-- the discretizer succeeds, and however often the system with the source of `u` is solved, by any exact solver, the square of the H1 norm
of the difference between the discrete solution and `u` is `η` at most -/
def SolvesWithin1 {n : Nat} (rule : Rule 1) (u : ℝ → ℝ) (η : ℝ) (o : Outcome (Space Nat 1 n × List Nat)) : Prop :=
  ∃ space l, o = .ok (space, l) ∧ ∀ solver, Exact solver → ∀ k, ∃ S U,
    solveTimes solver (poisson rule (source1 u) space) (k + 1) (create (functionSpace space l)) = some S ∧
    (∀ ec ∈ space, ∀ a, Assoc.get S.field (ec.2 a) = some (U (ec.2 a))) ∧ errorSquare1 space U u ≤ η

/-- The same for the L2 norm that the code computes with the rule, for an expression `ex` that is the function `u`. -/
def SolvesWithinL21 {n : Nat} (rule : Rule 1) (u : ℝ → ℝ) (ex : Expr (.vec 1) .scalar) (η : ℝ)
    (o : Outcome (Space Nat 1 n × List Nat)) : Prop :=
  ∃ space l, o = .ok (space, l) ∧ ∀ solver, Exact solver → ∀ k, ∃ S U,
    solveTimes solver (poisson rule (source1 u) space) (k + 1) (create (functionSpace space l)) = some S ∧
    (∀ ec ∈ space, ∀ a, Assoc.get S.field (ec.2 a) = some (U (ec.2 a))) ∧ l2Norm rule space (.fem U) (.field ex) ^ 2 ≤ η

/-- `cells` are, at the positions `p`, the cells of the mesh of segments that `tetra` returns for `n` refinements of `coarse` -/
def RefinedAt (n k : Nat) (coarse : List (List (Refine.PNode ℝ))) (v : Nat → Id) (cells : List GCell) (p : Id → Val (.vec 1)) : Prop :=
  Refine.RefinedFrom n k coarse v cells ∧ ∀ d ∈ (Refine.tetra n k coarse).2, ∀ q ∈ d, p (v q.id) 0 = q.pos 0

/-- the segments of `coarse` have the length `h` at most and are within the distance `R` of the origin -/
def CoarseShort (coarse : List (List (Refine.PNode ℝ))) (h R : ℝ) : Prop :=
  ∀ c ∈ coarse, (∀ a ∈ c, ∀ b ∈ c, |b.pos 0 - a.pos 0| ≤ h) ∧ ∀ a ∈ c, |a.pos 0| ≤ R

/-- `u` vanishes at the nodes that are in one segment only -/
def CoarseVanishes (coarse : List (List (Refine.PNode ℝ))) (u : ℝ → ℝ) : Prop :=
  ∀ c ∈ coarse, ∀ q ∈ c, coarse.countP (Refine.holds [q.id]) = 1 → u (q.pos 0) = 0

end Mito.Fem
