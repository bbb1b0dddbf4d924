import Verif.IO.CubeFile
import Verif.IO.SphereFile
import Verif.Mesh.FacesLemmas

/-! # Deciding the conditions for the meshes of tests/input/cube.summit and tests/input/sphere.summit -/

namespace Mito.Load

open Mito.Summit

/-- the mesh in tests/input/cube.summit -/
def cubeMesh : List (List ℚ) × List (List Nat) :=
  (cubeNodes.map cubeCoordinates, cubeCells.map fun c => [c.1 - 1, c.2.1 - 1, c.2.2.1 - 1, c.2.2.2 - 1])

theorem cube_read : reader 3 4 4 cubeFile = .ok cubeMesh := by decide +kernel

theorem cube_lengths : cubeMesh.1.length = 139 ∧ cubeMesh.2.length = 368 := by decide +kernel

theorem cube_cells : ∀ c ∈ cubeMesh.2, c.length = 4 ∧ (∀ i ∈ c, i < 139) ∧ c.Nodup := by decide +kernel

theorem cube_distinct : cubeMesh.2.Pairwise fun c c' => c.toFinset ≠ c'.toFinset :=
  distinct_of_codes 10189 1 (fun c hc => (cube_cells c hc).2.2) (by decide +kernel)

theorem cube_keys : noRepeatKeys ((cubeMesh.2.flatMap faces).map (key 139)) (List.replicate 139 0) = true := by decide +kernel

theorem cube_faces : NoCommonFaces cubeMesh.2 := NoCommonFaces.of (.inr rfl) cube_cells cube_keys

theorem cube_positive : ∀ c ∈ cubeMesh.2, 0 < sixVolume cubeMesh.1 c := by decide +kernel

theorem cube_volume : (cubeMesh.2.map (sixVolume cubeMesh.1)).sum = 6 := by decide +kernel

theorem cube_outer : (outerFaces cubeMesh.2).length = 256 := by
  rw [outerFaces_eq (.inr rfl) cube_cells cube_keys]
  decide +kernel

theorem cube_sides : OnCube cubeMesh.1 cubeMesh.2 := by
  unfold OnCube
  rw [outerFaces_eq (.inr rfl) cube_cells cube_keys]
  decide +kernel

/-- the mesh in tests/input/sphere.summit -/
def sphereMesh : List (List ℚ) × List (List Nat) :=
  (sphereNodes.map sphereCoordinates, sphereCells.map fun c => [c.1 - 1, c.2.1 - 1, c.2.2 - 1])

theorem sphere_read : reader 3 3 3 sphereFile = .ok sphereMesh := by decide +kernel

theorem sphere_lengths : sphereMesh.1.length = 319 ∧ sphereMesh.2.length = 632 := by decide +kernel

theorem sphere_cells : ∀ c ∈ sphereMesh.2, c.length = 3 ∧ (∀ i ∈ c, i < 319) ∧ c.Nodup := by decide +kernel

theorem sphere_distinct : sphereMesh.2.Pairwise fun c c' => c.toFinset ≠ c'.toFinset :=
  distinct_of_codes 26377 7 (fun c hc => (sphere_cells c hc).2.2) (by decide +kernel)

theorem sphere_keys : noRepeatKeys ((sphereMesh.2.flatMap faces).map (key 319)) (List.replicate 319 0) = true := by decide +kernel

theorem sphere_faces : NoCommonFaces sphereMesh.2 := NoCommonFaces.of (.inl rfl) sphere_cells sphere_keys

theorem sphere_outer : outerFaces sphereMesh.2 = [] := by
  rw [outerFaces_eq (.inl rfl) sphere_cells sphere_keys]
  decide +kernel

end Mito.Load
