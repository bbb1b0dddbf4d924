import Verif.IO.BallFile
import Verif.Mesh.FacesLemmas

/-! # Deciding the conditions for the mesh of tests/input/ball.summit -/

namespace Mito.Load

open Mito.Summit

/-- the mesh in tests/input/ball.summit -/
def ballMesh : List (List ℚ) × List (List Nat) :=
  (ballNodes.map ballCoordinates, ballCells.map fun c => [c.1 - 1, c.2.1 - 1, c.2.2.1 - 1, c.2.2.2 - 1])

theorem ball_read : reader 3 4 4 ballFile = .ok ballMesh := by decide +kernel

theorem ball_lengths : ballMesh.1.length = 133 ∧ ballMesh.2.length = 372 := by decide +kernel

theorem ball_cells : ∀ c ∈ ballMesh.2, c.length = 4 ∧ (∀ i ∈ c, i < 133) ∧ c.Nodup := by decide +kernel

theorem ball_distinct : ballMesh.2.Pairwise fun c c' => c.toFinset ≠ c'.toFinset :=
  distinct_of_codes 7823 2 (fun c hc => (ball_cells c hc).2.2) (by decide +kernel)

theorem ball_keys : noRepeatKeys ((ballMesh.2.flatMap faces).map (key 133)) (List.replicate 133 0) = true := by decide +kernel

theorem ball_faces : NoCommonFaces ballMesh.2 := NoCommonFaces.of (.inr rfl) ball_cells ball_keys

theorem ball_outer : (outerFaces ballMesh.2).length = 228 := by
  rw [outerFaces_eq (.inr rfl) ball_cells ball_keys]
  decide +kernel

end Mito.Load
