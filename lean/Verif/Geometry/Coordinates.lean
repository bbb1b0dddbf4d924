import Verif.Tensor.Forms
import Mathlib.Analysis.SpecialFunctions.Complex.Arg
import Mathlib.LinearAlgebra.Matrix.NonsingularInverse
import Mathlib.Data.Matrix.Basis

/-! # Model of coordinates and metric spaces, lib/mito/geometry

Coordinates are real numbers. `pyre` provides matrix inverses and determinants, and `norm` as the root of the sum of squares. Division
by zero gives zero here and infinities or NaN in the code: what is proved excludes it. -/

namespace Mito.Geometry

open Mito.Tensor

/-- `std::atan2` (the sign of a zero is not modelled) -/
noncomputable def atan2 (y x : ℝ) : ℝ := Complex.arg ⟨x, y⟩

/-- `tensor::norm` -/
noncomputable def norm {d : Nat} (v : Vec d) : ℝ := Real.sqrt (v ⬝ᵥ v)

/-- a type of coordinates: the operators of lib/mito/geometry/algebra_coordinates.h:12-18, the basis and the metric -/
structure System (d : Nat) where
  /-- coordinates plus a vector stemming from there -/
  add : Vec d → Vec d → Vec d
  /-- the vector stemming from the second coordinates to the first -/
  sub : Vec d → Vec d → Vec d
  /-- the basis of vector fields -/
  e : Fin d → Vec d → Vec d
  /-- the metric field -/
  g : Vec d → Mat d

/-! ## Cartesian coordinates -/

/-- lib/mito/geometry/cartesian/algebra.h:13-66, lib/mito/geometry/cartesian/basis.h:14-24, lib/mito/geometry/cartesian/metric.h:14-20
(the code has the operators for one, two and three dimensions) -/
def cartesian (d : Nat) : System d where
  add A v := fun i => A i + v i
  sub A B := fun i => A i - B i
  e I _ := Pi.single I 1
  g _ := 1

/-- the coordinate functions `x_0`, `x_1`, `x_2`, lib/mito/geometry/cartesian/api.h:28-40 -/
def coordinateFunction (i : Fin 3) (x : Vec 3) : ℝ :=
  match i with
  | 0 => x 0
  | 1 => x 1
  | 2 => x 1

/-! ## Polar coordinates -/

/-- lib/mito/geometry/polar/basis.h:14-36 -/
def polarBasis : Fin 2 → Vec 2 → Vec 2
  | 0, _ => ![1, 0]
  | 1, A => A 0 • ![0, 1]

/-- lib/mito/geometry/polar/metric.h:14-28 -/
def polarMetric (A : Vec 2) : Mat 2 := Matrix.single 0 0 1 + (A 0) ^ 2 • Matrix.single 1 1 1

/-- lib/mito/geometry/polar/algebra.h:14-35 -/
noncomputable def polarAdd (A v : Vec 2) : Vec 2 :=
  let r_A := A 0
  let theta_A := A 1
  let e_r := polarBasis 0 A
  let e_theta := polarBasis 1 A
  let v_r := v ⬝ᵥ e_r
  let v_theta := v ⬝ᵥ e_theta / (e_theta ⬝ᵥ e_theta)
  ![Real.sqrt ((r_A + v_r) * (r_A + v_r) + v_theta * r_A * v_theta * r_A), theta_A + atan2 (v_theta * r_A) (r_A + v_r)]

/-- lib/mito/geometry/polar/algebra.h:39-50 -/
noncomputable def polarSub (B A : Vec 2) : Vec 2 :=
  let r_A := A 0
  let r_B := B 0
  let theta_A := A 1
  let theta_B := B 1
  (r_B * Real.cos (theta_B - theta_A) - r_A) • polarBasis 0 A
    + r_A⁻¹ • (r_B * Real.sin (theta_B - theta_A)) • polarBasis 1 A

noncomputable def polar : System 2 := ⟨polarAdd, polarSub, polarBasis, polarMetric⟩

/-! ## Spherical coordinates -/

/-- lib/mito/geometry/spherical/basis.h:14-45 -/
noncomputable def sphericalBasis : Fin 3 → Vec 3 → Vec 3
  | 0, _ => ![1, 0, 0]
  | 1, A => A 0 • ![0, 1, 0]
  | 2, A => (A 0 * Real.sin (A 1)) • ![0, 0, 1]

/-- lib/mito/geometry/spherical/metric.h:14-34 -/
noncomputable def sphericalMetric (A : Vec 3) : Mat 3 :=
  Matrix.single 0 0 1 + (A 0) ^ 2 • Matrix.single 1 1 1 + (A 0 * Real.sin (A 1)) ^ 2 • Matrix.single 2 2 1

/-- lib/mito/geometry/spherical/algebra.h:14-64 -/
noncomputable def sphericalAdd (A v : Vec 3) : Vec 3 :=
  let r_A := A 0
  let theta_A := A 1
  let phi_A := A 2
  let sin_theta_A := Real.sin theta_A
  let cos_theta_A := Real.cos theta_A
  let e_r := sphericalBasis 0 A
  let e_theta := sphericalBasis 1 A
  let e_phi := sphericalBasis 2 A
  let v_r := v ⬝ᵥ e_r
  let v_theta := v ⬝ᵥ e_theta / (e_theta ⬝ᵥ e_theta)
  let v_phi := v ⬝ᵥ e_phi / (e_phi ⬝ᵥ e_phi)
  let phi_B := phi_A + atan2 (v_phi * r_A * sin_theta_A) ((r_A + v_r) * sin_theta_A + v_theta * r_A * cos_theta_A)
  let sin_phi_A_B := Real.sin (phi_B - phi_A)
  let cos_phi_A_B := Real.cos (phi_B - phi_A)
  let theta_B := atan2
    (v_phi * r_A * sin_theta_A * sin_phi_A_B + (v_theta * r_A * cos_theta_A + (r_A + v_r) * sin_theta_A) * cos_phi_A_B)
    (-v_theta * r_A * sin_theta_A + (r_A + v_r) * cos_theta_A)
  let sin_theta_B := Real.sin theta_B
  let cos_theta_B := Real.cos theta_B
  let r_B := (v_r + r_A) * (sin_theta_A * sin_theta_B * cos_phi_A_B + cos_theta_A * cos_theta_B)
    + v_theta * r_A * (cos_theta_A * sin_theta_B * cos_phi_A_B - sin_theta_A * cos_theta_B)
    + v_phi * r_A * sin_theta_A * sin_theta_B * sin_phi_A_B
  ![r_B, theta_B, phi_B]

/-- lib/mito/geometry/spherical/algebra.h:68-91 -/
noncomputable def sphericalSub (B A : Vec 3) : Vec 3 :=
  let r_A := A 0
  let r_B := B 0
  let theta_A := A 1
  let theta_B := B 1
  let phi_A := A 2
  let phi_B := B 2
  let sin_theta_A := Real.sin theta_A
  let sin_theta_B := Real.sin theta_B
  let cos_theta_A := Real.cos theta_A
  let cos_theta_B := Real.cos theta_B
  let cos_phi_A_B := Real.cos (phi_B - phi_A)
  let sin_phi_A_B := Real.sin (phi_B - phi_A)
  (r_B * (sin_theta_A * sin_theta_B * cos_phi_A_B + cos_theta_A * cos_theta_B) - r_A) • sphericalBasis 0 A
    + r_A⁻¹ • (r_B * (sin_theta_B * cos_theta_A * cos_phi_A_B - sin_theta_A * cos_theta_B)) • sphericalBasis 1 A
    + (r_A * sin_theta_A)⁻¹ • (r_B * sin_theta_B * sin_phi_A_B) • sphericalBasis 2 A

noncomputable def spherical : System 3 := ⟨sphericalAdd, sphericalSub, sphericalBasis, sphericalMetric⟩

/-! ## Transformations, lib/mito/geometry/coordinate_transformation.h -/

/-- lib/mito/geometry/coordinate_transformation.h:15-24 -/
noncomputable def polarOfCartesian (p : Vec 2) : Vec 2 := ![Real.sqrt (p 0 * p 0 + p 1 * p 1), atan2 (p 1) (p 0)]

/-- lib/mito/geometry/coordinate_transformation.h:26-35 -/
noncomputable def cartesianOfPolar (p : Vec 2) : Vec 2 := ![p 0 * Real.cos (p 1), p 0 * Real.sin (p 1)]

/-- lib/mito/geometry/coordinate_transformation.h:37-50 -/
noncomputable def sphericalOfCartesian (p : Vec 3) : Vec 3 :=
  ![Real.sqrt (p 0 * p 0 + p 1 * p 1 + p 2 * p 2), atan2 (Real.sqrt (p 1 ^ 2 + p 0 ^ 2)) (p 2), atan2 (p 1) (p 0)]

/-- lib/mito/geometry/coordinate_transformation.h:52-63 -/
noncomputable def cartesianOfSpherical (p : Vec 3) : Vec 3 :=
  ![p 0 * Real.sin (p 1) * Real.cos (p 2), p 0 * Real.sin (p 1) * Real.sin (p 2), p 0 * Real.cos (p 1)]

namespace System

variable {d : Nat} (S : System d)

/-! ## Points -/

/-- `CoordinateSystem::midpoint`, lib/mito/geometry/CoordinateSystem.h:95-100 -/
noncomputable def midpoint (a b : Vec d) : Vec d := S.add a ((0.5 : ℝ) • S.sub b a)

/-- `distance`, lib/mito/geometry/algebra_coordinates.h:28-33 -/
noncomputable def distance (a b : Vec d) : ℝ := norm (S.sub a b)

/-- `barycenter` of a cell with `n + 1` nodes, lib/mito/geometry/utilities.h:13-31 -/
noncomputable def barycenter {n : Nat} (nodes : Fin (n + 1) → Vec d) : Vec d :=
  let coord_0 := nodes 0
  let result := (List.finRange (n + 1)).foldl (fun result a => result + S.sub (nodes a) coord_0) (S.sub coord_0 coord_0)
  S.add coord_0 ((n + 1 : ℝ)⁻¹ • result)

/-- `directors` of a cell with `n + 1` nodes, lib/mito/geometry/utilities.h:47-75 -/
def directors {n : Nat} (nodes : Fin (n + 1) → Vec d) : Fin n → Vec d := fun j => S.sub (nodes j.succ) (nodes 0)

/-! ## The metric space, lib/mito/geometry/metric_space.h -/

/-- `g_inv`, lib/mito/geometry/metric_space.h:39 -/
noncomputable def gInv (x : Vec d) : Mat d := (S.g x)⁻¹

/-- `dx<I>`, lib/mito/geometry/metric_space.h:41-44 and 94-105 -/
noncomputable def dx (I : Fin d) (x : Vec d) : Form1 d := oneForm (S.e I x) (S.gInv x)

/-- `wedge` of one, two or three one-form fields, lib/mito/fields/fields_algebra.h:35-60 (no more are implemented: the value for other
dimensions stands for nothing) -/
noncomputable def wedge : (d : Nat) → (Fin d → Form1 d) → (Fin d → Vec d) → ℝ
  | 1, f, v => f 0 (v 0)
  | 2, f, v => wedge2 (f 0) (f 1) (v 0) (v 1)
  | 3, f, v => wedge3 (f 0) (f 1) (f 2) (v 0) (v 1) (v 2)
  | _, _, _ => 0

/-- the metric volume form, lib/mito/geometry/metric_space.h:46-59 -/
noncomputable def w (x : Vec d) (v : Fin d → Vec d) : ℝ := Real.sqrt (S.g x).det * wedge d (fun I => S.dx I x) v

/-- the metric equivalent vector of a one-form, lib/mito/geometry/metric_space.h:69-84 -/
noncomputable def sharp (α : Form1 d) (x : Vec d) : Vec d := ∑ K, (α (S.e K x) • S.gInv x).mulVec (S.e K x)

/-- the metric equivalent one-form of a vector, lib/mito/geometry/metric_space.h:86-92 -/
noncomputable def flat (v : Vec d) (x : Vec d) : Form1 d := oneForm v (S.gInv x)

/-! ## Volumes, lib/mito/manifolds -/

/-- `volume` of a cell of a manifold, lib/mito/manifolds/Manifold.h:118-139 with the volume form of
lib/mito/manifolds/factories.h:22-42 -/
noncomputable def volume (nodes : Fin (d + 1) → Vec d) : ℝ :=
  1.0 / (d.factorial : ℝ) * S.w (nodes 0) (S.directors nodes)

/-- `volume` of a cell of order `n` of a submanifold with `k` normal fields, lib/mito/manifolds/Manifold.h:118-139 with the volume
form of lib/mito/manifolds/factories.h:44-91 -/
noncomputable def subVolume {k n : Nat} (S : System (k + n)) (normals : Fin k → Vec (k + n) → Vec (k + n))
    (nodes : Fin (n + 1) → Vec (k + n)) : ℝ :=
  1.0 / (n.factorial : ℝ) * S.w (nodes 0) (Fin.append (fun a => normals a (nodes 0)) (S.directors nodes))

end System

end Mito.Geometry
