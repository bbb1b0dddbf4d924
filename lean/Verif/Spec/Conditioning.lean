import Verif.Spec.PoissonConvergence

/-! # Specification vocabulary for the conditioning of discrete systems and for inexact solvers (C100) -/

namespace Mito.DiscreteSystem

/-- the square of the Euclidean norm of the first `n` entries -/
def square (n : Nat) (v : Nat → ℝ) : ℝ := ∑ i : Fin n, v i ^ 2

/-- what is left of the right-hand side -/
def residual (n : Nat) (A : Nat → Nat → ℝ) (f x : Nat → ℝ) (i : Nat) : ℝ := f i - ∑ j : Fin n, A i j * x j

/-- the solver stops when the norm of the residual is at most `ρ` times the norm of the right-hand side -/
def Relative (ρ : ℝ) (solver : Nat → (Nat → Nat → ℝ) → (Nat → ℝ) → Nat → ℝ) : Prop :=
  ∀ (n : Nat) (A : Nat → Nat → ℝ) (f : Nat → ℝ), IsUnit (asMatrix n A).det →
    square n (residual n A f (solver n A f)) ≤ ρ ^ 2 * square n f

/-- `ev` is an eigenvalue of the matrix -/
def Eigenvalue (n : Nat) (A : Nat → Nat → ℝ) (ev : ℝ) : Prop :=
  ∃ v : Nat → ℝ, square n v ≠ 0 ∧ ∀ i < n, ∑ j : Fin n, A i j * v j = ev * v i

end Mito.DiscreteSystem

namespace Mito.Fem

open Mito.Functions Mito.Geometry Mito.Meshes Mito.Topology Mito.Discretizer Mito.DiscreteSystem Mito.Quadrature

/-- the discretizer succeeds, and however often the system with the source `f` is solved, by any solver with the relative tolerance `ρ`, the
square of the H1 norm of the difference between the field and `u` is `η` at most -/
def NearlySolvesWithin {n : Nat} (rule : Rule 2) (f u : (Fin 2 → ℝ) → ℝ) (ρ η : ℝ) (o : Outcome (Space Nat 2 n × List Nat)) : Prop :=
  ∃ space l, o = .ok (space, l) ∧ ∀ solver, Relative ρ solver → ∀ k, ∃ S U,
    solveTimes solver (poisson rule f space) (k + 1) (create (functionSpace space l)) = some S ∧
    (∀ ec ∈ space, ∀ a, Assoc.get S.field (ec.2 a) = some (U (ec.2 a))) ∧ errorSquare space U u ≤ η

/-- The same for the L2 norm that the code computes with the rule. -/
def NearlySolvesWithinL2 {n : Nat} (rule : Rule 2) (f : (Fin 2 → ℝ) → ℝ) (u : Expr (.vec 2) .scalar) (ρ η : ℝ)
    (o : Outcome (Space Nat 2 n × List Nat)) : Prop :=
  ∃ space l, o = .ok (space, l) ∧ ∀ solver, Relative ρ solver → ∀ k, ∃ S U,
    solveTimes solver (poisson rule f space) (k + 1) (create (functionSpace space l)) = some S ∧
    (∀ ec ∈ space, ∀ a, Assoc.get S.field (ec.2 a) = some (U (ec.2 a))) ∧ l2Norm rule space (.fem U) (.field u) ^ 2 ≤ η

/-- the eigenvalues of the matrix of the Poisson problem are between `m` and `M` -/
def Conditioned {n : Nat} (rule : Rule 2) (m M : ℝ) (o : Outcome (Space Nat 2 n × List Nat)) : Prop :=
  ∃ space l, o = .ok (space, l) ∧ ∀ (f : (Fin 2 → ℝ) → ℝ) (ev : ℝ),
    Eigenvalue (buildEquationMap (functionSpace space l)).2 (K (functionSpace space l) (poisson rule f space)) ev → m ≤ ev ∧ ev ≤ M

/-- no node belongs to more than `D` triangles -/
def Valence (cells : List GCell) (D : Nat) : Prop := ∀ n, (cells.flatMap ids).count n ≤ D

end Mito.Fem
