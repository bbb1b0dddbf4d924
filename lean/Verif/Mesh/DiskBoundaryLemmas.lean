import Verif.Mesh.DiskLemmas
import Verif.Mesh.FacesLemmas

/-! # Deciding the conditions for the boundary of the disk -/

namespace Mito.Load

open Mito.Summit Mito.Topology

theorem disk_sizes : diskMesh.1.length = 423 ∧ diskMesh.2.length = 780 := by decide +kernel

theorem disk_cells : ∀ c ∈ diskMesh.2, c.length = 3 ∧ (∀ i ∈ c, i < 423) ∧ c.Nodup := by decide +kernel

theorem disk_distinct : diskMesh.2.Pairwise fun c c' => c.toFinset ≠ c'.toFinset :=
  distinct_of_codes 30935 2 (fun c hc => (disk_cells c hc).2.2) (by decide +kernel)

theorem disk_keys : noRepeatKeys ((diskMesh.2.flatMap faces).map (key 423)) (List.replicate 423 0) = true := by decide +kernel

theorem disk_faces : NoCommonFaces diskMesh.2 := NoCommonFaces.of (.inl rfl) disk_cells disk_keys

/-- the segments on the boundary of the disk -/
def diskOuter : List (List Nat) := (diskMesh.2.flatMap faces).filter fun f =>
  !hasKey (keys ((diskMesh.2.flatMap faces).map (key 423)) (List.replicate 423 0)) (key 423 (swap01 f))

theorem disk_outer : outerFaces diskMesh.2 = diskOuter := outerFaces_eq (.inl rfl) disk_cells disk_keys

theorem diskOuter_length : diskOuter.length = 64 := by decide +kernel

theorem diskOuter_lt : ∀ f ∈ diskOuter, ∀ i ∈ f, i < 423 := by decide +kernel

/-- the square of the distance of a node from the center -/
def squareRadius2 (coords : List (List ℚ)) (i : Nat) : ℚ := coordinate coords i 0 ^ 2 + coordinate coords i 1 ^ 2

theorem diskOuter_radius : ∀ f ∈ diskOuter, ∀ i ∈ f, 1 - 1 / 10 ^ 12 < squareRadius2 diskMesh.1 i ∧ squareRadius2 diskMesh.1 i < 1 + 1 / 10 ^ 12 := by
  decide +kernel

theorem disk_inner : ∀ i ∈ List.range 423, i ∈ diskOuter.flatten ∨ squareRadius2 diskMesh.1 i < 99 / 100 := by decide +kernel

end Mito.Load
