import Verif.Spec.DivergenceTheorem

/-!
# The integrals of the divergence theorem

The program of tests/mito.lib/integration/divergence_theorem.cc:73-117 and tutorial/4_divergence_theorem_2D/main.cc, for cells and positions
of vertices as in `Verif/Fem/Dirichlet.lean`.  Fields are functions of positions, floating point numbers are reals.
-/

namespace Mito.Quadrature

open Mito.Functions Mito.Geometry Mito.Meshes Mito.Topology Mito.Tensor

/-- the integral of the divergence of `f` over the manifold of the cells, tests/mito.lib/integration/divergence_theorem.cc:73-81 -/
noncomputable def integrateDivergence2 (debug : Bool) (t : Table 2) (p : Id → Val (.vec 2)) (f : Expr (.vec 2) (.vec 2))
    (cells : List GCell) : Outcome :=
  integrate debug t (fun c => (cartesian 2).volume c.nodes) (cells.map (cellOf (n := 1) p)) fun x => (divergence f).eval x ()

/-- the integral of the component of `f` along `normal` over the submanifold of the cells `B`,
tests/mito.lib/integration/divergence_theorem.cc:99-114 -/
noncomputable def integrateFlux2 (debug : Bool) (t : Table 1) (normal : Vec 2 → Vec 2) (p : Id → Val (.vec 2)) (f : Expr (.vec 2) (.vec 2))
    (B : List GCell) : Outcome :=
  integrate debug t (fun c => System.subVolume (k := 1) (n := 1) (cartesian 2) (fun _ => normal) c.nodes) (B.map (cellOf (n := 0) p))
    fun x => ∑ k, f.eval x k * normal x k

/-- the same program with tetrahedra -/
noncomputable def integrateDivergence3 (debug : Bool) (t : Table 3) (p : Id → Val (.vec 3)) (f : Expr (.vec 3) (.vec 3))
    (cells : List GCell) : Outcome :=
  integrate debug t (fun c => (cartesian 3).volume c.nodes) (cells.map (cellOf (n := 2) p)) fun x => (divergence f).eval x ()

/-- the same program with tetrahedra -/
noncomputable def integrateFlux3 (debug : Bool) (t : Table 2) (normal : Vec 3 → Vec 3) (p : Id → Val (.vec 3)) (f : Expr (.vec 3) (.vec 3))
    (B : List GCell) : Outcome :=
  integrate debug t (fun c => System.subVolume (k := 1) (n := 2) (cartesian 3) (fun _ => normal) c.nodes) (B.map (cellOf (n := 1) p))
    fun x => ∑ k, f.eval x k * normal x k

end Mito.Quadrature
