import Verif.Fem.Poisson

/-!
# Model of weak forms with any of the blocks of mito, lib/mito/fem/Weakform.h

A weak form holds pointers to its blocks; here it holds the blocks (they are taken to outlive it).
-/

namespace Mito.Fem

open Mito.Functions Mito.DiscreteSystem

variable {d n : Nat}

/-- the blocks of the left-hand side, with their quadrature rules, lib/mito/fem/blocks/factories.h -/
inductive LhsBlock (d : Nat) where
  /-- `grad_grad_block`, lib/mito/fem/blocks/GradGradBlock.h -/
  | gradGrad (rule : Rule d)
  /-- `mass_block`, lib/mito/fem/blocks/MassBlock.h -/
  | mass (rule : Rule d)

def LhsBlock.rule : LhsBlock d → Rule d
  | .gradGrad rule => rule
  | .mass rule => rule

/-- `compute` -/
noncomputable def LhsBlock.compute : LhsBlock d → Element d n → Fin n → Fin n → ℝ
  | .gradGrad rule => Fem.gradGrad rule
  | .mass rule => Fem.mass rule

/-- `source_term_block`, lib/mito/fem/blocks/SourceTermBlock.h: a field and a quadrature rule -/
structure RhsBlock (d : Nat) where
  f : Expr (.vec d) .scalar
  rule : Rule d

/-- `compute` -/
noncomputable def RhsBlock.compute (b : RhsBlock d) : Element d n → Fin n → ℝ := sourceTerm (fun x => b.f.eval x ()) b.rule

/-- the blocks added by `add_block`, evaluated by `compute_blocks`, lib/mito/fem/Weakform.h:55-102 -/
noncomputable def weakform (lhs : List (LhsBlock d)) (rhs : List (RhsBlock d)) (space : Space Nat d n) : Nat → Blocks ℝ :=
  computeBlocks (lhs.map fun b => matrixBlock b.compute space) (rhs.map fun b => vectorBlock b.compute space)

end Mito.Fem
