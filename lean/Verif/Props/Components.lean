import Verif.Props.Stokes
import Verif.Spec.Components

/-!
# C80: every component of a mesh of positive cells has a boundary

Vocabulary in `Verif/Spec/Components.lean`.
-/

set_option linter.unusedVariables false

namespace Mito.Meshes

open Mito.Topology Mito.Combinatorics Mito.Geometry Mito.Tensor

variable {t : Topo} {m : Mesh GCell} {s : SegVec.Abs GCell} {known : Finset Nat} {cells : List GCell}

/-- weights at the vertices do not spoil alternation -/
theorem Alternating.weighted {w : List Id → ℝ} (hw : Alternating w) (χ : Id → ℝ) :
    Alternating fun l => (l.map χ).prod * w l := by
  intro p x m y s
  simp only
  rw [hw p x m y s]
  simp only [List.map_append, List.map_cons, List.prod_append, List.prod_cons]
  ring

theorem zero_of_sum {α : Type} {l : List α} {F : α → ℝ} (h0 : (l.map F).sum = 0) (hn : ∀ x ∈ l, 0 ≤ F x) : ∀ x ∈ l, F x = 0 := by
  intro x hx
  have hn' : ∀ y ∈ l.map F, 0 ≤ y := by
    intro y hy
    obtain ⟨z, hz, rfl⟩ := List.mem_map.mp hy
    exact hn z hz
  have := List.single_le_sum hn' (F x) (List.mem_map.mpr ⟨x, hx, rfl⟩)
  exact le_antisymm (by rw [h0] at this; exact this) (hn x hx)

/-- **C80.**  Segments. -/
theorem components_segments (ht : VReachable t) (hm : Reachable (facets t 0) m s known) (hcl : m.cellList = some cells)
    (hcell : ∀ c ∈ cells, CellOk t 1 c) (hnd : (cells.flatMap (facets t 0)).Nodup) (t' : Topo) (B : List GCell)
    (h : boundary t 0 m = some (t', B)) (p : Id → ℝ) (hp : ∀ c ∈ cells, 0 < (t.sg 1 c.simplex : ℝ) * extent p c.vertices)
    {χ : Id → ℝ} (hc : ConstantOn cells χ) (hB : ZeroOn B χ) : ZeroOn cells χ := by
  have hst := stokes_segments ht hm hcl hcell hnd t' B h fun v => χ v ^ 2 * p v
  have h0 : (B.map fun d => (t.sg 0 d.simplex : ℝ) * atVertex (fun v => χ v ^ 2 * p v) d.vertices).sum = 0 := by
    refine List.sum_eq_zero fun y hy => ?_
    obtain ⟨d, hd, rfl⟩ := List.mem_map.mp hy
    match hv : d.vertices with
    | [] | _ :: _ :: _ => simp [atVertex]
    | [v] => simp [atVertex, hB d hd v (by rw [hv]; simp)]
  rw [h0] at hst
  have hterm : ∀ c ∈ cells, ∀ v ∈ c.vertices, (t.sg 1 c.simplex : ℝ) * overEnds (fun v => χ v ^ 2 * p v) c.vertices =
      χ v ^ 2 * ((t.sg 1 c.simplex : ℝ) * extent p c.vertices) := by
    intro c hc' v hv
    match hl : c.vertices with
    | [] | [_] | _ :: _ :: _ :: _ => simp [overEnds, extent]
    | [a, b] =>
      rw [overEnds, extent, hc c hc' v hv a (by rw [hl]; simp), hc c hc' b (by rw [hl]; simp) a (by rw [hl]; simp)]
      ring
  have hnn : ∀ c ∈ cells, 0 ≤ (t.sg 1 c.simplex : ℝ) * overEnds (fun v => χ v ^ 2 * p v) c.vertices := by
    intro c hc'
    rcases hl : c.vertices with _ | ⟨v, l⟩
    · simp [overEnds]
    · have := hterm c hc' v (by rw [hl]; simp)
      rw [hl] at this
      rw [this, ← hl]
      exact mul_nonneg (sq_nonneg _) (hp c hc').le
  intro c hc' v hv
  have h1 := zero_of_sum hst.symm hnn c hc'
  rw [hterm c hc' v hv, mul_eq_zero] at h1
  rcases h1 with h1 | h1
  · exact pow_eq_zero_iff two_ne_zero |>.mp h1
  · exact absurd h1 (hp c hc').ne'

/-- **C80.**  Triangles: a function that is constant on each triangle and zero on the boundary is zero. -/
theorem components_triangles (ht : VReachable t) (hm : Reachable (facets t 1) m s known) (hcl : m.cellList = some cells)
    (hcell : ∀ c ∈ cells, CellOk t 2 c) (hnd : (cells.flatMap (facets t 1)).Nodup) (t' : Topo) (B : List GCell)
    (h : boundary t 1 m = some (t', B)) (p : Id → Vec 2) (hp : ∀ c ∈ cells, 0 < (t.sg 2 c.simplex : ℝ) * area p c.vertices)
    {χ : Id → ℝ} (hc : ConstantOn cells χ) (hB : ZeroOn B χ) : ZeroOn cells χ := by
  have haff : ∀ l, overEdges (flux2 id p) l = 2 * area p l := by
    intro l
    have := flux2_affine 1 0 p l
    simp only [Matrix.one_mulVec, add_zero, Matrix.trace_one, Fintype.card_fin, Nat.cast_ofNat] at this
    exact this
  have hst := stokes_triangles ht hm hcl hcell hnd t' B h _ ((flux2_alternating id p).weighted fun v => χ v ^ 2)
  have h0 : (B.map fun d => (d.vertices.map fun v => χ v ^ 2).prod * flux2 id p d.vertices).sum = 0 := by
    refine List.sum_eq_zero fun y hy => ?_
    obtain ⟨d, hd, rfl⟩ := List.mem_map.mp hy
    match hv : d.vertices with
    | [] | [_] | _ :: _ :: _ :: _ => simp [flux2]
    | [v, w] => simp [hB d hd v (by rw [hv]; simp)]
  rw [h0] at hst
  have hterm : ∀ c ∈ cells, ∀ v ∈ c.vertices,
      (t.sg 2 c.simplex : ℝ) * overEdges (fun l => (l.map fun v => χ v ^ 2).prod * flux2 id p l) c.vertices =
      χ v ^ 4 * (2 * ((t.sg 2 c.simplex : ℝ) * area p c.vertices)) := by
    intro c hc' v hv
    have ha := haff c.vertices
    match hl : c.vertices with
    | [] | [_] | [_, _] | _ :: _ :: _ :: _ :: _ => simp [overEdges, area]
    | [x, y, z] =>
      rw [hl, overEdges] at ha
      rw [overEdges, hc c hc' v hv x (by rw [hl]; simp)]
      simp only [List.map_cons, List.map_nil, List.prod_cons, List.prod_nil, hc c hc' y (by rw [hl]; simp) x (by rw [hl]; simp),
        hc c hc' z (by rw [hl]; simp) x (by rw [hl]; simp)]
      linear_combination (t.sg 2 c.simplex : ℝ) * χ x ^ 4 * ha
  have hnn : ∀ c ∈ cells, 0 ≤ (t.sg 2 c.simplex : ℝ) * overEdges (fun l => (l.map fun v => χ v ^ 2).prod * flux2 id p l) c.vertices := by
    intro c hc'
    rcases hl : c.vertices with _ | ⟨v, l⟩
    · simp [overEdges]
    · have := hterm c hc' v (by rw [hl]; simp)
      rw [hl] at this
      rw [this, ← hl]
      exact mul_nonneg (by positivity) (mul_nonneg zero_le_two (hp c hc').le)
  intro c hc' v hv
  have h1 := zero_of_sum hst.symm hnn c hc'
  rw [hterm c hc' v hv, mul_eq_zero] at h1
  rcases h1 with h1 | h1
  · exact pow_eq_zero_iff four_ne_zero |>.mp h1
  · have := hp c hc'
    exact absurd h1 (by linarith)

/-- **C80.**  Tetrahedra. -/
theorem components_tetrahedra (ht : VReachable t) (hm : Reachable (facets t 2) m s known) (hcl : m.cellList = some cells)
    (hcell : ∀ c ∈ cells, CellOk t 3 c) (hnd : (cells.flatMap (facets t 2)).Nodup) (t' : Topo) (B : List GCell)
    (h : boundary t 2 m = some (t', B)) (p : Id → Vec 3) (hp : ∀ c ∈ cells, 0 < (t.sg 3 c.simplex : ℝ) * volume p c.vertices)
    {χ : Id → ℝ} (hc : ConstantOn cells χ) (hB : ZeroOn B χ) : ZeroOn cells χ := by
  have haff : ∀ l, overFaces (flux3 id p) l = 3 * volume p l := by
    intro l
    have := flux3_affine 1 0 p l
    simp only [Matrix.one_mulVec, add_zero, Matrix.trace_one, Fintype.card_fin, Nat.cast_ofNat] at this
    exact this
  have hst := stokes_tetrahedra ht hm hcl hcell hnd t' B h _ ((flux3_alternating id p).weighted fun v => χ v ^ 2)
  have h0 : (B.map fun d => (d.vertices.map fun v => χ v ^ 2).prod * flux3 id p d.vertices).sum = 0 := by
    refine List.sum_eq_zero fun y hy => ?_
    obtain ⟨d, hd, rfl⟩ := List.mem_map.mp hy
    match hv : d.vertices with
    | [] | [_] | [_, _] | _ :: _ :: _ :: _ :: _ => simp [flux3]
    | [v, w, z] => simp [hB d hd v (by rw [hv]; simp)]
  rw [h0, eq_comm, neg_eq_zero] at hst
  have hterm : ∀ c ∈ cells, ∀ v ∈ c.vertices,
      (t.sg 3 c.simplex : ℝ) * overFaces (fun l => (l.map fun v => χ v ^ 2).prod * flux3 id p l) c.vertices =
      χ v ^ 6 * (3 * ((t.sg 3 c.simplex : ℝ) * volume p c.vertices)) := by
    intro c hc' v hv
    have ha := haff c.vertices
    match hl : c.vertices with
    | [] | [_] | [_, _] | [_, _, _] | _ :: _ :: _ :: _ :: _ :: _ => simp [overFaces, volume]
    | [x, y, z, u] =>
      rw [hl, overFaces] at ha
      rw [overFaces, hc c hc' v hv x (by rw [hl]; simp)]
      simp only [List.map_cons, List.map_nil, List.prod_cons, List.prod_nil, hc c hc' y (by rw [hl]; simp) x (by rw [hl]; simp),
        hc c hc' z (by rw [hl]; simp) x (by rw [hl]; simp), hc c hc' u (by rw [hl]; simp) x (by rw [hl]; simp)]
      linear_combination (t.sg 3 c.simplex : ℝ) * χ x ^ 6 * ha
  have hnn : ∀ c ∈ cells, 0 ≤ (t.sg 3 c.simplex : ℝ) * overFaces (fun l => (l.map fun v => χ v ^ 2).prod * flux3 id p l) c.vertices := by
    intro c hc'
    rcases hl : c.vertices with _ | ⟨v, l⟩
    · simp [overFaces]
    · have := hterm c hc' v (by rw [hl]; simp)
      rw [hl] at this
      rw [this, ← hl]
      exact mul_nonneg (by positivity) (mul_nonneg zero_le_three (hp c hc').le)
  intro c hc' v hv
  have h1 := zero_of_sum hst hnn c hc'
  rw [hterm c hc' v hv, mul_eq_zero] at h1
  rcases h1 with h1 | h1
  · exact pow_eq_zero_iff (by norm_num) |>.mp h1
  · have := hp c hc'
    exact absurd h1 (by linarith)

end Mito.Meshes
