import Verif.Fem.Blocks
import Verif.Fem.DiscreteSystem

/-!
# Model of the Poisson problem of benchmarks/mito.lib/pdes/poisson.cc

The weak form has one block of products of gradients and one source term.  Elements are given with the ids of their discretization nodes.
-/

namespace Mito.Fem

open Mito.Functions Mito.DiscreteSystem

variable {d n : Nat}

/-- an elementary matrix (with indices in range) of the `i`-th element, as the blocks of `DiscreteSystem` -/
noncomputable def matrixBlock (block : Element d n → Fin n → Fin n → ℝ) (space : Space Nat d n) (e i j : Nat) : ℝ :=
  match space[e]? with
  | none => 0
  | some ec => if h : i < n ∧ j < n then block ec.1 ⟨i, h.1⟩ ⟨j, h.2⟩ else 0

/-- an elementary vector -/
noncomputable def vectorBlock (block : Element d n → Fin n → ℝ) (space : Space Nat d n) (e i : Nat) : ℝ :=
  match space[e]? with
  | none => 0
  | some ec => if h : i < n then block ec.1 ⟨i, h⟩ else 0

/-- the function space with homogeneous constraints, benchmarks/mito.lib/pdes/poisson.cc:65-72 -/
def functionSpace (space : Space Nat d n) (constrained : List Nat) : FunctionSpace ℝ :=
  ⟨space.map fun ec => List.ofFn ec.2, constrained, fun _ => 0⟩

/-- the weak form, benchmarks/mito.lib/pdes/poisson.cc:74-89, evaluated by `compute_blocks` -/
noncomputable def poisson (rule : Rule d) (f : Val (.vec d) → ℝ) (space : Space Nat d n) : Nat → Blocks ℝ :=
  computeBlocks [matrixBlock (gradGrad rule) space] [vectorBlock (sourceTerm f rule) space]

end Mito.Fem
