import Verif.Spec.PoissonConvergence

/-! # Convergence of the solutions of the Poisson problem on quadratic triangles (C97) -/

namespace Mito.Fem

open Mito.Functions Mito.Meshes Mito.Topology

/-- `u` vanishes at the nodes on the boundary and in the middle of the segments of the boundary -/
def Vanishes2 (B : List GCell) (p : Id → Val (.vec 2)) (u : (Fin 2 → ℝ) → ℝ) : Prop :=
  ∀ b ∈ B, ∀ x ∈ b.nodes, ∀ y ∈ b.nodes, u ((1 / 2 : ℝ) • (p x.vertex + p y.vertex)) = 0

end Mito.Fem
