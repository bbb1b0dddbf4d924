import Verif.IO.DiskFile
import Verif.IO.HalfBallFile
import Verif.IO.HalfSphereFile
import Verif.Spec.LoadSimplices

/-! # Deciding the conditions for the meshes of a disk, half a ball and half a sphere -/

namespace Mito.Load

open Mito.Summit

/-- the mesh in tests/input/disk_cartesian.summit -/
def diskMesh : List (List ℚ) × List (List Nat) :=
  (diskNodes.map diskCoordinates, diskCells.map fun c => [c.1 - 1, c.2.1 - 1, c.2.2 - 1])

/-- the mesh in tests/input/bottom_half_ball.summit -/
def halfBallMesh : List (List ℚ) × List (List Nat) :=
  (halfBallNodes.map halfBallCoordinates, halfBallCells.map fun c => [c.1 - 1, c.2.1 - 1, c.2.2.1 - 1, c.2.2.2 - 1])

/-- the mesh in tests/input/bottom_half_sphere.summit -/
def halfSphereMesh : List (List ℚ) × List (List Nat) :=
  (halfSphereNodes.map halfSphereCoordinates, halfSphereCells.map fun c => [c.1 - 1, c.2.1 - 1, c.2.2 - 1])

theorem disk_read : reader 2 3 3 diskFile = .ok diskMesh := by decide +kernel

theorem halfBall_read : reader 3 4 4 halfBallFile = .ok halfBallMesh := by decide +kernel

theorem halfSphere_read : reader 3 3 3 halfSphereFile = .ok halfSphereMesh := by decide +kernel

theorem disk_lengths : ∀ c ∈ diskMesh.2, c.length = 3 := by decide +kernel

theorem halfBall_lengths : ∀ c ∈ halfBallMesh.2, c.length = 4 := by decide +kernel

theorem halfSphere_lengths : ∀ c ∈ halfSphereMesh.2, c.length = 3 := by decide +kernel

theorem disk_positive : ∀ c ∈ diskMesh.2, 0 < doubleArea diskMesh.1 c := by decide +kernel

theorem halfBall_positive : ∀ c ∈ halfBallMesh.2, 0 < sixVolume halfBallMesh.1 c := by decide +kernel

/-- no cell starts at the origin -/
theorem disk_start : ∀ c ∈ diskMesh.2, coordinate diskMesh.1 (c.getD 0 0) 0 ≠ 0 ∨ coordinate diskMesh.1 (c.getD 0 0) 1 ≠ 0 := by
  decide +kernel

theorem disk_sum : 6270 / 1000 < (diskMesh.2.map (doubleArea diskMesh.1)).sum ∧ (diskMesh.2.map (doubleArea diskMesh.1)).sum < 6275 / 1000 := by
  decide +kernel

/-- the first node of the cell is on the axis -/
def onAxis (coords : List (List ℚ)) (c : List Nat) : Bool :=
  coordinate coords (c.getD 0 0) 0 = 0 && coordinate coords (c.getD 0 0) 1 = 0

/-- the determinant of the position of the first node and the two directors of a triangle -/
def radialArea (coords : List (List ℚ)) : List Nat → ℚ
  | [i, j, k] =>
    let x (a b : Nat) := coordinate coords a b - coordinate coords i b
    coordinate coords i 0 * (x j 1 * x k 2 - x j 2 * x k 1) - coordinate coords i 1 * (x j 0 * x k 2 - x j 2 * x k 0) +
      coordinate coords i 2 * (x j 0 * x k 1 - x j 1 * x k 0)
  | _ => 0

/-- the square of the distance of a node from the origin -/
def squareRadius (coords : List (List ℚ)) (i : Nat) : ℚ := coordinate coords i 0 ^ 2 + coordinate coords i 1 ^ 2 + coordinate coords i 2 ^ 2

theorem halfBall_sum : 1192 / 100 < (halfBallMesh.2.map (sixVolume halfBallMesh.1)).sum ∧
    (halfBallMesh.2.map (sixVolume halfBallMesh.1)).sum < 1193 / 100 := by decide +kernel

theorem halfBall_start : halfBallMesh.2.filter (onAxis halfBallMesh.1) = [[4, 34, 19, 91], [4, 26, 34, 91], [4, 62, 26, 91]] := by
  decide +kernel

theorem halfBall_pole : halfBallMesh.1.getD 4 [] = [0, 0, -1] := by decide +kernel

theorem halfSphere_sum : 1234 / 100 < (halfSphereMesh.2.map (radialArea halfSphereMesh.1)).sum ∧
    (halfSphereMesh.2.map (radialArea halfSphereMesh.1)).sum < 1235 / 100 := by decide +kernel

theorem halfSphere_positive : ∀ c ∈ halfSphereMesh.2, 0 < radialArea halfSphereMesh.1 c := by decide +kernel

theorem halfSphere_radius : ∀ c ∈ halfSphereMesh.2, 998 / 1000 ≤ squareRadius halfSphereMesh.1 (c.getD 0 0) ∧
    squareRadius halfSphereMesh.1 (c.getD 0 0) ≤ 1002 / 1000 := by decide +kernel

theorem halfSphere_start : halfSphereMesh.2.filter (onAxis halfSphereMesh.1) = [[6, 81, 49], [6, 112, 36], [6, 142, 48], [6, 171, 37]] := by
  decide +kernel

theorem halfSphere_pole : halfSphereMesh.1.getD 6 [] = [0, 0, -1] := by decide +kernel

end Mito.Load
