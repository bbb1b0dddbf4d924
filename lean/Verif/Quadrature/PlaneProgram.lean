import Verif.Quadrature.DivergenceProgram

/-!
# The integrals of the divergence theorem for meshes in a plane in space

The program of tutorial/5_divergence_theorem_2D_in_3D/main.cc:33-112, for cells and positions of vertices as in
`Verif/Quadrature/DivergenceProgram.lean`.  Fields are functions of positions, floating point numbers are reals.
-/

namespace Mito.Quadrature

open Mito.Functions Mito.Geometry Mito.Meshes Mito.Topology Mito.Tensor

/-- the normal of the plane, tutorial/5_divergence_theorem_2D_in_3D/main.cc:26-27 -/
def planeNormal (_ : Vec 3) : Vec 3 := ![0, 0, 1]

/-- the integral of the divergence of `f` over the submanifold of the cells, tutorial/5_divergence_theorem_2D_in_3D/main.cc:81-87 -/
noncomputable def integrateDivergencePlane (debug : Bool) (t : Table 2) (p : Id → Val (.vec 3)) (f : Expr (.vec 3) (.vec 3))
    (cells : List GCell) : Outcome :=
  integrate debug t (fun c => System.subVolume (k := 1) (n := 2) (cartesian 3) (fun _ => planeNormal) c.nodes) (cells.map (cellOf (n := 1) p))
    fun x => (divergence f).eval x ()

/-- the integral of the component of `f` along `normal` over the submanifold of the cells `B`,
tutorial/5_divergence_theorem_2D_in_3D/main.cc:102-109 -/
noncomputable def integrateFluxPlane (debug : Bool) (t : Table 1) (normal : Vec 3 → Vec 3) (p : Id → Val (.vec 3)) (f : Expr (.vec 3) (.vec 3))
    (B : List GCell) : Outcome :=
  integrate debug t (fun c => System.subVolume (k := 2) (n := 1) (cartesian 3) ![planeNormal, normal] c.nodes) (B.map (cellOf (n := 0) p))
    fun x => ∑ k, f.eval x k * normal x k

/-- a point of the plane at the height `z` -/
def atHeight (z : ℝ) (x : Vec 2) : Vec 3 := ![x 0, x 1, z]

end Mito.Quadrature
