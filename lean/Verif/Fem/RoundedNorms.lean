import Mathlib.Analysis.SpecialFunctions.Sqrt

/-!
# Norms in double arithmetic

`fl` is the rounding after each operation.  Simplifications: the factors and the values of the difference of the two fields (or of their gradients)
at the quadrature points are given as they are stored; the product of vectors (and of scalars) is a sum that starts from zero; no fused operations, no over- and underflow.
-/

namespace Mito.RoundedNorms

/-- what `L2NormBlock` has at a quadrature point: `factor`, lib/mito/fem/blocks/L2NormBlock.h:47-55, and the components of `_function(xi)` -/
structure Point where
  factor : ℝ
  values : List ℝ

/-- `factor * _function(xi) * _function(xi)`, lib/mito/fem/blocks/L2NormBlock.h:58: from left to right -/
def term (fl : ℝ → ℝ) (q : Point) : ℝ := q.values.foldl (fun s x => fl (s + fl (fl (q.factor * x) * x))) 0

/-- `compute`, lib/mito/fem/blocks/L2NormBlock.h:36-63 -/
def block (fl : ℝ → ℝ) (points : List Point) : ℝ := points.foldl (fun s q => fl (s + term fl q)) 0

/-- the loop of `compute_l2_norm` over the elements, lib/mito/fem/norms.h:23-35 -/
def l2Sum (fl : ℝ → ℝ) (elements : List (List Point)) : ℝ := elements.foldl (fun s e => fl (s + block fl e)) 0

/-- `std::sqrt`, with `none` for the NaN of a negative number -/
noncomputable def root (fl : ℝ → ℝ) (x : ℝ) : Option ℝ := if 0 ≤ x then some (fl (Real.sqrt x)) else none

/-- `compute_l2_norm`, lib/mito/fem/norms.h:13-39 -/
noncomputable def l2 (fl : ℝ → ℝ) (elements : List (List Point)) : Option ℝ := root fl (l2Sum fl elements)

/-- the loop of `compute_h1_norm` over the elements, each with the points for the values and for the gradients, lib/mito/fem/norms.h:52-71 -/
def h1Sum (fl : ℝ → ℝ) (elements : List (List Point × List Point)) : ℝ :=
  elements.foldl (fun s e => fl (s + fl (block fl e.1 + block fl e.2))) 0

/-- `compute_h1_norm`, lib/mito/fem/norms.h:42-75 -/
noncomputable def h1 (fl : ℝ → ℝ) (elements : List (List Point × List Point)) : Option ℝ := root fl (h1Sum fl elements)

end Mito.RoundedNorms
