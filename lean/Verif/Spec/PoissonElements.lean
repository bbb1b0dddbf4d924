import Verif.Fem.Poisson

/-! # Specification vocabulary for the Poisson problem (C78, C79) -/

namespace Mito.Fem

open Mito.Functions

variable {d n : Nat}

/-- the stiffness matrix has nonnegative energy, which is zero exactly for constants -/
structure Stiff (rule : Rule d) (e : Element d n) : Prop where
  nonneg : ∀ u : Fin n → ℝ, 0 ≤ ∑ a, ∑ b, u a * gradGrad rule e a b * u b
  definite : ∀ u : Fin n → ℝ, ∑ a, ∑ b, u a * gradGrad rule e a b * u b = 0 → ∀ a b, u a = u b
  constants : ∀ a, ∑ b, gradGrad rule e a b = 0

/-- the quadrature points of positive weight are on one line (or there are none) -/
def Collinear (rule : Rule 2) : Prop := ∃ a b c : ℝ, (a ≠ 0 ∨ b ≠ 0) ∧ ∀ p ∈ rule, 0 < p.2 → a * p.1 0 + b * p.1 1 = c

/-- the `i`-th segment of a mesh of a line with nodes `x 0`, `x 1`, … -/
noncomputable def segment (x : Nat → ℝ) (i : Nat) : Element 1 2 := segP1 ![![x i], ![x (i + 1)]]

/-- `N` consecutive segments -/
noncomputable def line (x : Nat → ℝ) (N : Nat) : Space Nat 1 2 := (List.range N).map fun i => (segment x i, ![i, i + 1])

/-- a rule with nonnegative weights that sum up to one -/
structure Averages (rule : Rule 1) : Prop where
  nonneg : ∀ p ∈ rule, 0 ≤ p.2
  total : (rule.map fun p => p.2).sum = 1

/-- the difference quotients -/
noncomputable def slope (x U : Nat → ℝ) (i : Nat) : ℝ := (U (i + 1) - U i) / (x (i + 1) - x i)

end Mito.Fem
