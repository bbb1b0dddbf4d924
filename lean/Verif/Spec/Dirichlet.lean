import Verif.Fem.Poisson
import Verif.Fem.Discretizer
import Verif.Spec.Poisson
import Verif.Spec.DiscreteSystem

/-! # Specification vocabulary for Poisson problems on meshes with constrained boundary (C80) -/

namespace Mito.Fem

open Mito.Functions Mito.Discretizer Mito.DiscreteSystem

/-- the discretizer succeeds; for every source the system has an invertible matrix, and solving it once or several
times gives the only solution of the discrete weak form -/
def Solvable {d n : Nat} (rule : Rule d) (o : Outcome (Space Nat d n × List Nat)) : Prop :=
  ∃ space l, o = .ok (space, l) ∧ ∀ f : Val (.vec d) → ℝ,
    IsUnit (asMatrix (buildEquationMap (functionSpace space l)).2 (K (functionSpace space l) (poisson rule f space))).det ∧
    ∀ solver, Exact solver → ∀ k, ∃ S u, solveTimes solver (poisson rule f space) (k + 1) (create (functionSpace space l)) = some S ∧
      (∀ ec ∈ space, ∀ a, Assoc.get S.field (ec.2 a) = some (u (ec.2 a))) ∧
      Galerkin (functionSpace space l) (poisson rule f space) u ∧
      ∀ u', Galerkin (functionSpace space l) (poisson rule f space) u' → ∀ ec ∈ space, ∀ a, u' (ec.2 a) = u (ec.2 a)

end Mito.Fem
