import Verif.Quadrature.Integrator
import Verif.Quadrature.Tables
import Verif.Spec.RefineIntegral

/-! # The test of integrals over a segment, tests/mito.lib/quadrature/quadrature_segment_1D.cc

The arithmetic is that of the real numbers. -/

namespace Mito.SegmentTest

open Mito.Functions Mito.Geometry Mito.Refine Mito.Quadrature

/-- the nodes, tests/mito.lib/quadrature/quadrature_segment_1D.cc:31-33 -/
def ends (i : Nat) : PNode ℝ := ⟨i, fun _ => i⟩

/-- `mito::functions::exp(-x_0)`, tests/mito.lib/quadrature/quadrature_segment_1D.cc:41 -/
noncomputable def decay : Expr (.vec 1) .scalar := .compS (.prim .exp) (Expr.component (a := .vec 1) 0).neg

/-- the `integral` of tests/mito.lib/quadrature/quadrature_segment_1D.cc:34-44 for any number of subdivisions -/
noncomputable def integral (debug : Bool) (subdivisions : Nat) : Outcome :=
  integrate debug segment2 (fun c => (cartesian 1).volume c.nodes) (meshCells 0 1 (tetra subdivisions 2 [[ends 0, ends 1]]).2)
    fun x => decay.eval x ()

end Mito.SegmentTest
