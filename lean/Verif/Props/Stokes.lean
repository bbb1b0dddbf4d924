import Verif.Mesh.StokesLemmas
import Verif.Props.Boundary
import Mathlib.LinearAlgebra.Matrix.Trace
import Mathlib.Tactic.FinCases

/-!
# C77: sums over the boundary of a mesh

Vocabulary in `Verif/Spec/Stokes.lean`.  `w` is any function of oriented simplices (changing sign under exchanges of vertices), e.g. the
integral of a form over the simplex.  `B` are the cells that `boundary` inserts; the sum of `w` over them is the sum over the cells of
the sum over the facets of the cell.  Hypothesis `hnd` (no oriented facet twice) is the one of C26.
-/

set_option linter.unusedVariables false
set_option linter.unusedSimpArgs false

namespace Mito.Meshes

open Mito.Topology Mito.Combinatorics Mito.Geometry Mito.Tensor

variable {t : Topo} {m : Mesh GCell} {s : SegVec.Abs GCell} {known : Finset Nat} {cells : List GCell}

/-- **C77.**  Segments: the signed sum over the boundary nodes is the sum of the differences between the ends of the segments. -/
theorem stokes_segments (ht : VReachable t) (hm : Reachable (facets t 0) m s known) (hcl : m.cellList = some cells)
    (hcell : ∀ c ∈ cells, CellOk t 1 c) (hnd : (cells.flatMap (facets t 0)).Nodup) (t' : Topo) (B : List GCell)
    (h : boundary t 0 m = some (t', B)) (g : Id → ℝ) :
    (B.map fun d => (t.sg 0 d.simplex : ℝ) * atVertex g d.vertices).sum =
      (cells.map fun c => (t.sg 1 c.simplex : ℝ) * overEnds g c.vertices).sum := by
  obtain ⟨ok, st⟩ := ht.ok
  have hB := (boundary_collects ht (by omega) hm hcl hcell t' B h).1
  have hsg : ∀ f ∈ cells.flatMap (facets t 0), f.2 = 1 ∨ f.2 = -1 := by
    intro f hf
    obtain ⟨c', hc', hf⟩ := List.mem_flatMap.mp hf
    exact facets_sign ok.inv (hcell c' hc').1 f hf
  have h1 : (B.map fun d => (t.sg 0 d.simplex : ℝ) * atVertex g d.vertices) =
      (boundaryFacets t 0 cells).map fun x => (t.sg 0 x.1 : ℝ) * g (t.fp 0 x.1) := by
    clear hnd hsg h
    generalize boundaryFacets t 0 cells = L at hB
    induction hB with
    | nil => rfl
    | cons hp _ ih =>
      rw [List.map_cons, List.map_cons, ih]
      congr 1
      obtain ⟨e1, _, e2⟩ := hp
      simp only [Topo.verticesOf, Option.some.injEq] at e2
      rw [e1, GCell.vertices, ← e2, atVertex]
  rw [h1, sum_boundaryFacets hnd hsg]
  congr 1
  apply List.map_congr_left
  intro c hc
  obtain ⟨ho, hs⟩ := hcell c hc
  obtain ⟨a, b, hF⟩ := st.seg _ (ok.inv.fp_live 1 _ ho)
  obtain ⟨hne, x, y, e, h2, h3, h4, h5⟩ := hF
  rw [GCell.sanityCheck, Topo.verticesOf] at hs
  unfold Topo.composition
  rcases ok.inv.sg 1 _ ho with hσ | hσ
  · simp only [e, hσ, h2, h4, show ¬ ((1 : Int) = -1) by decide, if_false, beq_iff_eq] at hs
    have hv : c.vertices = [a, b] := (even_two hne hs)
    simp [hσ, e, hv, overEnds, h2, h3, h4, h5]
    ring
  · simp only [e, hσ, h2, h4, if_true, beq_iff_eq, swap01] at hs
    have hv : c.vertices = [b, a] := (even_two (Ne.symm hne) hs)
    simp [hσ, e, hv, overEnds, h2, h3, h4, h5, swap01]
    ring

/-- **C77.**  Triangles: the sum over the boundary edges is the sum over the triangles of the sum over their edges `ab`, `bc`, `ca`. -/
theorem stokes_triangles (ht : VReachable t) (hm : Reachable (facets t 1) m s known) (hcl : m.cellList = some cells)
    (hcell : ∀ c ∈ cells, CellOk t 2 c) (hnd : (cells.flatMap (facets t 1)).Nodup) (t' : Topo) (B : List GCell)
    (h : boundary t 1 m = some (t', B)) (w : List Id → ℝ) (hw : Alternating w) :
    (B.map fun d => w d.vertices).sum = (cells.map fun c => (t.sg 2 c.simplex : ℝ) * overEdges w c.vertices).sum := by
  obtain ⟨ok, st⟩ := ht.ok
  have hB := (boundary_collects ht (by omega) hm hcl hcell t' B h).1
  rw [sum_boundary ok.inv st (by omega) (fun c hc => (hcell c hc).1) hnd hw hB]
  congr 1
  apply List.map_congr_left
  intro c hc
  obtain ⟨ho, hs⟩ := hcell c hc
  obtain ⟨l, hl, _⟩ := verticesOf_spec ok.inv st (by omega) ho
  rw [edges_sum ok st hw ho hl]
  simp only [GCell.sanityCheck, hl, beq_iff_eq] at hs
  rw [hw.overEdges.even hs]; rfl

/-- **C77 (finding).**  Tetrahedra: the sum over the boundary faces is the opposite of the sum over the tetrahedra of the sum over
their faces with the induced orientation. -/
theorem stokes_tetrahedra (ht : VReachable t) (hm : Reachable (facets t 2) m s known) (hcl : m.cellList = some cells)
    (hcell : ∀ c ∈ cells, CellOk t 3 c) (hnd : (cells.flatMap (facets t 2)).Nodup) (t' : Topo) (B : List GCell)
    (h : boundary t 2 m = some (t', B)) (w : List Id → ℝ) (hw : Alternating w) :
    (B.map fun d => w d.vertices).sum = - (cells.map fun c => (t.sg 3 c.simplex : ℝ) * overFaces w c.vertices).sum := by
  obtain ⟨ok, st⟩ := ht.ok
  have hB := (boundary_collects ht (by omega) hm hcl hcell t' B h).1
  rw [sum_boundary ok.inv st (by omega) (fun c hc => (hcell c hc).1) hnd hw hB]
  rw [show ∀ l : List ℝ, - l.sum = (l.map fun x => -x).sum from fun l => by induction l <;> simp_all [add_comm], List.map_map]
  congr 1
  apply List.map_congr_left
  intro c hc
  obtain ⟨ho, hs⟩ := hcell c hc
  obtain ⟨l, hl, _⟩ := verticesOf_spec ok.inv st (by omega) ho
  rw [faces_sum ok st hw ho hl]
  simp only [GCell.sanityCheck, hl, beq_iff_eq] at hs
  rw [hw.overFaces.even hs]; rfl

/-- **C77.**  Divergence theorem for affine fields on meshes of triangles: the flux through the boundary edges, with the midpoint rule,
is the (constant) divergence times the area of the mesh. -/
theorem divergence_triangles (ht : VReachable t) (hm : Reachable (facets t 1) m s known) (hcl : m.cellList = some cells)
    (hcell : ∀ c ∈ cells, CellOk t 2 c) (hnd : (cells.flatMap (facets t 1)).Nodup) (t' : Topo) (B : List GCell)
    (h : boundary t 1 m = some (t', B)) (p : Id → Vec 2) (A : Mat 2) (b : Vec 2) :
    (B.map fun d => flux2 (fun x => A.mulVec x + b) p d.vertices).sum =
      A.trace * (cells.map fun c => (t.sg 2 c.simplex : ℝ) * area p c.vertices).sum := by
  rw [stokes_triangles ht hm hcl hcell hnd t' B h _ (flux2_alternating _ p), ← List.sum_map_mul_left]
  congr 1
  apply List.map_congr_left
  intro c hc
  rw [flux2_affine]; ring

/-- **C77.**  The area of the mesh (with the orientations of its triangles) is half the flux of the position through the boundary. -/
theorem area_by_boundary (ht : VReachable t) (hm : Reachable (facets t 1) m s known) (hcl : m.cellList = some cells)
    (hcell : ∀ c ∈ cells, CellOk t 2 c) (hnd : (cells.flatMap (facets t 1)).Nodup) (t' : Topo) (B : List GCell)
    (h : boundary t 1 m = some (t', B)) (p : Id → Vec 2) :
    (cells.map fun c => (t.sg 2 c.simplex : ℝ) * area p c.vertices).sum = 1 / 2 * (B.map fun d => flux2 id p d.vertices).sum := by
  have := divergence_triangles ht hm hcl hcell hnd t' B h p 1 0
  simp only [Matrix.one_mulVec, add_zero, Matrix.trace_one, Fintype.card_fin, Nat.cast_ofNat] at this
  have e : (B.map fun d => flux2 id p d.vertices).sum = (B.map fun d => flux2 (fun x => x) p d.vertices).sum := rfl
  rw [e, this]; ring

/-- **C77 (finding).**  Divergence theorem for affine fields on meshes of tetrahedra, with the rule of the barycenter: the faces of the
boundary of positively oriented tetrahedra point inwards. -/
theorem divergence_tetrahedra (ht : VReachable t) (hm : Reachable (facets t 2) m s known) (hcl : m.cellList = some cells)
    (hcell : ∀ c ∈ cells, CellOk t 3 c) (hnd : (cells.flatMap (facets t 2)).Nodup) (t' : Topo) (B : List GCell)
    (h : boundary t 2 m = some (t', B)) (p : Id → Vec 3) (A : Mat 3) (b : Vec 3) :
    (B.map fun d => flux3 (fun x => A.mulVec x + b) p d.vertices).sum =
      - (A.trace * (cells.map fun c => (t.sg 3 c.simplex : ℝ) * volume p c.vertices).sum) := by
  rw [stokes_tetrahedra ht hm hcl hcell hnd t' B h _ (flux3_alternating _ p), ← List.sum_map_mul_left]
  congr 2
  apply List.map_congr_left
  intro c hc
  rw [flux3_affine]; ring

/-- **C77.**  The volume of the mesh is minus a third of the flux of the position through the boundary. -/
theorem volume_by_boundary (ht : VReachable t) (hm : Reachable (facets t 2) m s known) (hcl : m.cellList = some cells)
    (hcell : ∀ c ∈ cells, CellOk t 3 c) (hnd : (cells.flatMap (facets t 2)).Nodup) (t' : Topo) (B : List GCell)
    (h : boundary t 2 m = some (t', B)) (p : Id → Vec 3) :
    (cells.map fun c => (t.sg 3 c.simplex : ℝ) * volume p c.vertices).sum =
      - (1 / 3) * (B.map fun d => flux3 id p d.vertices).sum := by
  have := divergence_tetrahedra ht hm hcl hcell hnd t' B h p 1 0
  simp only [Matrix.one_mulVec, add_zero, Matrix.trace_one, Fintype.card_fin, Nat.cast_ofNat] at this
  have e : (B.map fun d => flux3 id p d.vertices).sum = (B.map fun d => flux3 (fun x => x) p d.vertices).sum := rfl
  rw [e, this]; ring

/-! ### Examples -/

/-- two triangles to which the theorems apply -/
example : ∃ m s known t' B, VReachable exB ∧ Reachable (facets exB 1) m s known ∧ m.cellList = some exCellsB ∧
    (∀ c ∈ exCellsB, CellOk exB 2 c) ∧ (exCellsB.flatMap (facets exB 1)).Nodup ∧ boundary exB 1 m = some (t', B) ∧
    (∀ c ∈ exCellsB, exB.sg 2 c.simplex = 1) ∧ (exCellsB.map (·.vertices)) = [[0, 1, 2], [2, 1, 3]] := by
  obtain ⟨m, s, known, h1, h2, h3⟩ := exists_mesh exB 1 exCellsB
  have hb : (boundary exB 1 m).isSome = true := by
    rw [boundary_congr (m' := exMeshOf exB 1 exCellsB) (by rw [h2]; decide +kernel) (by rw [h3]; rfl)]
    decide +kernel
  obtain ⟨⟨t', B⟩, hB⟩ := Option.isSome_iff_exists.mp hb
  exact ⟨m, s, known, t', B, exB_reachable, h1, h2, by decide +kernel, by decide +kernel, hB, by decide +kernel, by decide +kernel⟩

/-- two segments in a row -/
@[irreducible] def exF : Topo := exTopo [.segment 0 1, .segment 1 2]
def exCellsF : List GCell := [⟨7, [exNode 0, exNode 1]⟩, ⟨11, [exNode 1, exNode 2]⟩]
theorem exF_reachable : VReachable exF := by
  unfold exF; exact exTopo_reachable _ (by decide) (by decide +kernel)

example : ∃ m s known t' B, VReachable exF ∧ Reachable (facets exF 0) m s known ∧ m.cellList = some exCellsF ∧
    (∀ c ∈ exCellsF, CellOk exF 1 c) ∧ (exCellsF.flatMap (facets exF 0)).Nodup ∧ boundary exF 0 m = some (t', B) ∧ B.length = 2 := by
  obtain ⟨m, s, known, h1, h2, h3⟩ := exists_mesh exF 0 exCellsF
  have hb : (boundary exF 0 m).map (fun r => r.2.length) = some 2 := by
    rw [boundary_congr (m' := exMeshOf exF 0 exCellsF) (by rw [h2]; decide +kernel) (by rw [h3]; rfl)]
    decide +kernel
  obtain ⟨⟨t', B⟩, hB, hl⟩ := Option.map_eq_some_iff.mp hb
  exact ⟨m, s, known, t', B, exF_reachable, h1, h2, by decide +kernel, by decide +kernel, hB, hl⟩

example : Alternating (flux2 id fun _ => 0) := flux2_alternating _ _

/-- the corner of the unit cube: vertices `0`, `1`, `2`, `3` at the origin and on the axes -/
noncomputable def exCorner : Id → Vec 3
  | 0 => ![0, 0, 0]
  | 1 => ![1, 0, 0]
  | 2 => ![0, 1, 0]
  | _ => ![0, 0, 1]

/-- **C77 (finding).**  The boundary of a tetrahedron of orientation `+1` and positive volume points inwards: the flux of the position
through it is negative. -/
theorem boundary_points_inwards :
    ∃ (m : Mesh GCell) (s : SegVec.Abs GCell) (known : Finset Nat) (c : GCell) (t' : Topo) (B : List GCell), VReachable exE ∧
      Reachable (facets exE 2) m s known ∧ m.cellList = some [c] ∧ CellOk exE 3 c ∧ exE.sg 3 c.simplex = 1 ∧
      0 < volume exCorner c.vertices ∧ boundary exE 2 m = some (t', B) ∧ (B.map fun d => flux3 id exCorner d.vertices).sum < 0 := by
  obtain ⟨m, s, known, h1, h2, h3⟩ := exists_mesh exE 2 [⟨39, [exNode 0, exNode 1, exNode 2, exNode 3]⟩]
  have hb : (boundary exE 2 m).isSome = true := by
    rw [boundary_congr (m' := exMeshOf exE 2 [⟨39, [exNode 0, exNode 1, exNode 2, exNode 3]⟩]) (by rw [h2]; decide +kernel)
      (by rw [h3]; rfl)]
    decide +kernel
  obtain ⟨⟨t', B⟩, hB⟩ := Option.isSome_iff_exists.mp hb
  have hc : ∀ c ∈ [(⟨39, [exNode 0, exNode 1, exNode 2, exNode 3]⟩ : GCell)], CellOk exE 3 c := by decide +kernel
  have hs : exE.sg 3 39 = 1 := by decide +kernel
  have hv : volume exCorner [0, 1, 2, 3] = 1 / 6 := by
    simp [volume, simplexVolume, exCorner, Matrix.det_fin_three, Nat.factorial]
  have hvol := volume_by_boundary exE_reachable h1 h2 hc (by decide +kernel) t' B hB exCorner
  have e : GCell.vertices ⟨39, [exNode 0, exNode 1, exNode 2, exNode 3]⟩ = [0, 1, 2, 3] := rfl
  simp only [List.map_cons, List.map_nil, List.sum_cons, List.sum_nil, hs, e, hv] at hvol
  refine ⟨m, s, known, _, t', B, exE_reachable, h1, h2, hc _ (List.mem_singleton.mpr rfl), hs, ?_, hB, ?_⟩
  · rw [e, hv]; norm_num
  · push_cast at hvol
    linarith

end Mito.Meshes
