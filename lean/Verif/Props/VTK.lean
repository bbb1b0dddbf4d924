import Verif.IO.VTKLemmas
import Verif.Spec.VTK

/-! # C47: VTK grids -/

namespace Mito.VTK

open Mito.Numbering

variable {ν κ C : Type} [DecidableEq κ]

/-- The grid of a mesh or function space describes its cells, if nodes with the same key have the same
point.  For a mesh, whose nodes are their own keys, there is nothing to assume: `vtk_mesh_grid`. -/
theorem vtk_grid (key : ν → κ) (coords : ν → C) (cells : List (List ν))
    (hk : ∀ n ∈ cells.flatten, ∀ n' ∈ cells.flatten, key n = key n' → coords n = coords n') :
    ∃ m g, createGrid key coords cells = some (m, g) ∧ Describes key coords cells m g := by
  obtain ⟨pts, h1, h2, h3⟩ := createGrid_eq key coords cells
  refine ⟨_, _, h1, ?_⟩
  constructor
  · simp [h2, List.zipIdx_map_snd, List.range_eq_range']
  · rw [List.zipIdx_map_fst]
    exact firsts_nodup _
  · simp
  · intro j c hc
    simp [hc]
  · intro j k c n hc hn
    have hm : n ∈ cells.flatten :=
      List.mem_flatten.mpr ⟨c, List.mem_of_getElem? hc, List.mem_of_getElem? hn⟩
    have hkm : key n ∈ cells.flatten.map key := List.mem_map.mpr ⟨n, hm, rfl⟩
    refine ⟨c.map fun n => (firsts (cells.flatten.map key)).idxOf (key n),
      (firsts (cells.flatten.map key)).idxOf (key n), by simp [hc], by simp [hn], ?_, ?_⟩
    · rw [List.mk_mem_zipIdx_iff_getElem?]
      exact getElem?_idxOf_firsts hkm
    · obtain ⟨n', hn', e1, e2⟩ := h3 _ _ (getElem?_idxOf_firsts hkm)
      rw [e2, hk n' hn' n hm e1]

/-- The mesh writer. -/
theorem vtk_mesh_grid [DecidableEq ν] (coords : ν → C) (cells : List (List ν)) :
    ∃ m g, createGrid id coords cells = some (m, g) ∧ Describes id coords cells m g :=
  vtk_grid id coords cells fun _ _ _ _ h => congrArg coords h

/-- Each value of a field is attached to the point of its node, in whatever order the map is visited. -/
theorem vtk_field {Y : Type} (key : ν → κ) (coords : ν → C) (cells : List (List ν)) (field : κ → Y)
    (m : List (κ × Nat)) (g : Grid C) (h : createGrid key coords cells = some (m, g))
    (order : List (κ × Nat)) (ho : order.Perm m) :
    (attachField order g.points.length field).length = g.points.length ∧
      ∀ k i, (k, i) ∈ m → (attachField order g.points.length field)[i]? = some (some (field k)) := by
  obtain ⟨pts, h1, h2, h3⟩ := createGrid_eq key coords cells
  rw [h] at h1
  obtain ⟨rfl, rfl⟩ := Prod.ext_iff.mp (Option.some.inj h1)
  have hf := foldl_set_zipIdx (fun k => some (field k)) (firsts (cells.flatten.map key)) none ho
  simp only [Nat.sub_zero] at hf
  rw [attachField, show (Grid.mk pts _).points.length = _ from h2, hf]
  refine ⟨by simp, fun k i hki => ?_⟩
  rw [List.mk_mem_zipIdx_iff_getElem?] at hki
  rw [List.getElem?_map, hki]
  rfl

/-- The point cloud writers visit the set of points twice in the same order: value `i` is that of point
`i`. -/
theorem vtk_cloud {Y : Type} (coords : κ → C) (order : List κ) (field : κ → Y) (i : Nat) (p : κ)
    (h : order[i]? = some p) :
    (cloudGrid coords order).points[i]? = some (coords p) ∧
      (attachCloudField order field)[i]? = some (field p) := by
  simp [cloudGrid, attachCloudField, h]

/-! ### Examples -/

example : createGrid id (fun n : Nat => 10 * n) [[4, 7, 2], [2, 7, 9]] =
    some ([(4, 0), (7, 1), (2, 2), (9, 3)], ⟨[40, 70, 20, 90], [[0, 1, 2], [2, 1, 3]]⟩) := by
  decide

/-- nodes with the same key and different points: the premise of `vtk_grid` is needed -/
example : createGrid (fun n : Nat => n % 2) (fun n => 10 * n) [[0, 1], [2, 3]] =
    some ([(0, 0), (1, 1)], ⟨[0, 10], [[0, 1], [0, 1]]⟩) := by decide

example : attachField [(2, 2), (4, 0), (9, 3), (7, 1)] 4 (fun n : Nat => n + 1) =
    [some 5, some 8, some 3, some 10] := by decide

end Mito.VTK
