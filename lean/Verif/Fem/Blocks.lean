import Verif.Fem.Elements

/-!
# Model of the assembly blocks and of the norms, lib/mito/fem/blocks and lib/mito/fem/norms.h

A quadrature rule is a list of points and weights (`Verif/Quadrature/Tables.lean` has the ones of mito).  `elementary_matrix` is taken
to start as zero (pyre tensors are zero when default constructed).
-/

namespace Mito.Fem

open Mito.Functions Mito.Geometry

/-- a quadrature rule: points and weights, lib/mito/quadrature/QuadratureRule.h:40-44 -/
abbrev Rule (d : Nat) := List (Val (.vec d) × ℝ)

variable {d n : Nat}

/-- `factor`, lib/mito/fem/blocks/GradGradBlock.h:40-48 (and the other blocks) -/
noncomputable def factor (e : Element d n) (p : Val (.vec d) × ℝ) : ℝ := area d * p.2 * e.detJ p.1

/-- `GradGradBlock::compute`, lib/mito/fem/blocks/GradGradBlock.h:26-67 -/
noncomputable def gradGrad (rule : Rule d) (e : Element d n) (a b : Fin n) : ℝ :=
  rule.foldl (fun m p => m + mul (.dot d) (factor e p • e.gradient a p.1) (e.gradient b p.1) ()) 0

/-- `MassBlock::compute`, lib/mito/fem/blocks/MassBlock.h:26-67 -/
noncomputable def mass (rule : Rule d) (e : Element d n) (a b : Fin n) : ℝ :=
  rule.foldl (fun m p => m + factor e p * (e.shape a).eval p.1 () * (e.shape b).eval p.1 ()) 0

/-- `SourceTermBlock::compute`, lib/mito/fem/blocks/SourceTermBlock.h:35-73 -/
noncomputable def sourceTerm (f : Val (.vec d) → ℝ) (rule : Rule d) (e : Element d n) (a : Fin n) : ℝ :=
  rule.foldl (fun m p => m + factor e p * f (e.parametrization.eval p.1) * (e.shape a).eval p.1 ()) 0

/-- `L2NormBlock::compute` for a function with scalar values, lib/mito/fem/blocks/L2NormBlock.h:36-63 -/
noncomputable def l2Block (rule : Rule d) (f : Expr (.vec d) .scalar) (e : Element d n) : ℝ :=
  rule.foldl (fun m p => m + factor e p * f.eval p.1 () * f.eval p.1 ()) 0

/-- `L2NormBlock::compute` for a function with vector values -/
noncomputable def l2BlockV (rule : Rule d) {k : Nat} (f : Expr (.vec d) (.vec k)) (e : Element d n) : ℝ :=
  rule.foldl (fun m p => m + mul (.dot k) (factor e p • f.eval p.1) (f.eval p.1) ()) 0

/-- fields that can be localized, lib/mito/fem/localize.h -/
inductive Localizable (κ : Type) (d : Nat) where
  /-- a finite element field, by its nodal values -/
  | fem (u : κ → ℝ)
  /-- a field -/
  | field (f : Expr (.vec d) .scalar)

/-- `localize`, lib/mito/fem/localize.h:12-24 and lib/mito/fem/FemField.h:65-80 -/
noncomputable def localize {κ : Type} (e : Element d n) (connectivity : Fin n → κ) :
    Localizable κ d → Expr (.vec d) .scalar
  | .fem u => sumList ((List.finRange n).map fun a => .timesConst (.scale _) (e.shape a) (sc (u (connectivity a))))
  | .field f => .compT f e.parametrization

/-- the elements of a function space with their nodes -/
abbrev Space (κ : Type) (d n : Nat) := List (Element d n × (Fin n → κ))

/-- `compute_l2_norm`, lib/mito/fem/norms.h:12-39 -/
noncomputable def l2Norm {κ : Type} (rule : Rule d) (space : Space κ d n) (u v : Localizable κ d) : ℝ :=
  Real.sqrt (space.foldl (fun s ec => s + l2Block rule ((localize ec.1 ec.2 u).sub (localize ec.1 ec.2 v)) ec.1) 0)

/-- `compute_h1_norm`, lib/mito/fem/norms.h:41-75 -/
noncomputable def h1Norm {κ : Type} (rule : Rule d) (space : Space κ d n) (u v : Localizable κ d) : ℝ :=
  Real.sqrt (space.foldl (fun s ec => s + (l2Block rule ((localize ec.1 ec.2 u).sub (localize ec.1 ec.2 v)) ec.1 +
    l2BlockV rule ((Functions.gradient (localize ec.1 ec.2 u)).sub (Functions.gradient (localize ec.1 ec.2 v))) ec.1)) 0)

end Mito.Fem
