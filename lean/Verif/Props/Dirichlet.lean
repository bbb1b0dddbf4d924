import Verif.Fem.DirichletLemmas
import Verif.Spec.Dirichlet
import Verif.Props.Components
import Verif.Props.PoissonElements

/-!
# C80: the Poisson problem with the boundary of the mesh constrained is always solvable

For every mesh of segments or triangles of positive length or area (and orientation `+1`) with one node at each vertex.
-/

set_option linter.unusedVariables false

namespace Mito.Fem

open Mito.Functions Mito.Discretizer Mito.Meshes Mito.DiscreteSystem Mito.Topology

variable {t : Topo} {m : Mesh GCell} {s : SegVec.Abs GCell} {known : Finset Nat} {cells : List GCell}
  {alloc : List Nat → Nat} {other : List Nat}

theorem solvable_of {d n : Nat} {rule : Rule d} {space : Space Nat d n} {l : List Nat} (hs : ∀ ec ∈ space, Stiff rule ec.1)
    (hA : Anchored (functionSpace space l)) : Solvable rule (.ok (space, l)) :=
  ⟨space, l, rfl, fun f => ⟨(poisson_wellposed hs).mpr hA, fun solver hx k => poisson_solved hx hs hA k⟩⟩

/-- **C80.**  Segments. -/
theorem dirichlet_seg1 (ht : VReachable t) (hm : Reachable (facets t 0) m s known) (hcl : m.cellList = some cells)
    (hcell : ∀ c ∈ cells, CellOk t 1 c) (hnd : (cells.flatMap (facets t 0)).Nodup) {t' : Topo} {B : List GCell}
    (h : boundary t 0 m = some (t', B)) (p : Id → Val (.vec 1))
    (hp : ∀ c ∈ cells, t.sg 1 c.simplex = 1 ∧ 0 < extent (fun v => p v 0) c.vertices) (hone : OneNode cells)
    (ha : ∀ l, alloc l ∉ l) (ho : other.Nodup) {rule : Rule 1} (hw : ∀ q ∈ rule, 0 ≤ q.2) (hr : ∃ q ∈ rule, 0 < q.2) :
    Solvable rule (discretizeSeg1 alloc other p cells B) := by
  obtain ⟨ok, st⟩ := ht.ok
  have hB : ∀ b ∈ B, ∃ c ∈ cells, ∀ n ∈ b.nodes, n ∈ c.nodes := fun b hb => (boundary_nodes ht (by omega) hm hcl hcell h b hb).2.2
  obtain ⟨φ, h1, h2⟩ := discretize_p1 ha ho hB
  unfold discretizeSeg1
  simp only [h1, h2, collect]
  refine solvable_of ?_ (anchored_p1 hone (fun χ h1 h2 => ?_) hB _ (by omega)
    (fun c hc => (hcell c hc).length ok.inv st (by omega)) φ)
  · intro ec hec
    obtain ⟨c, hc, he⟩ := mem_spaceOf hec
    rw [he]
    refine stiff_seg1 hw hr ?_
    have := (hp c hc).2
    match hv : c.vertices with
    | [] | [_] | _ :: _ :: _ :: _ => rw [hv] at this; simp [extent] at this
    | [a, b] =>
      rw [hv, extent] at this
      rw [GCell.vertices] at hv
      simpa [length, positions, hv] using this
  · exact components_segments ht hm hcl hcell hnd t' B h (fun v => p v 0)
      (fun c hc => by rw [(hp c hc).1]; simpa using (hp c hc).2) h1 h2

theorem positive_triangle {p : Id → Val (.vec 2)} {c : GCell} (h : 0 < Meshes.area p c.vertices) :
    0 < triangleArea (positions 3 p c) := by
  match hv : c.vertices with
  | [] | [_] | [_, _] | _ :: _ :: _ :: _ :: _ => rw [hv] at h; simp [Meshes.area] at h
  | [x, y, z] =>
    rw [hv, Meshes.area] at h
    rw [GCell.vertices] at hv
    have e : triangleArea (positions 3 p c) = Geometry.simplexVolume ![p x, p y, p z] := by
      simp [triangleArea, positions, hv, Geometry.simplexVolume, Matrix.det_fin_two, Nat.factorial]
      ring
    rw [e]
    exact h

/-- **C80.**  Linear triangles. -/
theorem dirichlet_tri1 (ht : VReachable t) (hm : Reachable (facets t 1) m s known) (hcl : m.cellList = some cells)
    (hcell : ∀ c ∈ cells, CellOk t 2 c) (hnd : (cells.flatMap (facets t 1)).Nodup) {t' : Topo} {B : List GCell}
    (h : boundary t 1 m = some (t', B)) (p : Id → Val (.vec 2))
    (hp : ∀ c ∈ cells, t.sg 2 c.simplex = 1 ∧ 0 < Meshes.area p c.vertices) (hone : OneNode cells)
    (ha : ∀ l, alloc l ∉ l) (ho : other.Nodup) {rule : Rule 2} (hw : ∀ q ∈ rule, 0 ≤ q.2) (hr : ∃ q ∈ rule, 0 < q.2) :
    Solvable rule (discretizeTri1 alloc other p cells B) := by
  obtain ⟨ok, st⟩ := ht.ok
  have hB : ∀ b ∈ B, ∃ c ∈ cells, ∀ n ∈ b.nodes, n ∈ c.nodes := fun b hb => (boundary_nodes ht (by omega) hm hcl hcell h b hb).2.2
  obtain ⟨φ, h1, h2⟩ := discretize_p1 ha ho hB
  unfold discretizeTri1
  simp only [h1, h2, collect]
  refine solvable_of ?_ (anchored_p1 hone (fun χ h1 h2 => ?_) hB _ (by omega)
    (fun c hc => (hcell c hc).length ok.inv st (by omega)) φ)
  · intro ec hec
    obtain ⟨c, hc, he⟩ := mem_spaceOf hec
    rw [he]
    exact stiff_tri1 hw hr (positive_triangle (hp c hc).2)
  · exact components_triangles ht hm hcl hcell hnd t' B h p
      (fun c hc => by rw [(hp c hc).1]; simpa using (hp c hc).2) h1 h2

/-- **C80.**  Quadratic triangles, if the quadrature points are not on one line. -/
theorem dirichlet_tri2 (ht : VReachable t) (hm : Reachable (facets t 1) m s known) (hcl : m.cellList = some cells)
    (hcell : ∀ c ∈ cells, CellOk t 2 c) (hnd : (cells.flatMap (facets t 1)).Nodup) {t' : Topo} {B : List GCell}
    (h : boundary t 1 m = some (t', B)) (p : Id → Val (.vec 2))
    (hp : ∀ c ∈ cells, t.sg 2 c.simplex = 1 ∧ 0 < Meshes.area p c.vertices) (hone : OneNode cells)
    (ha : ∀ l, alloc l ∉ l) (ho : other.Nodup) {rule : Rule 2} (hw : ∀ q ∈ rule, 0 ≤ q.2) (hr : ¬ Collinear rule) :
    Solvable rule (discretizeTri2 alloc other p cells B) := by
  obtain ⟨ok, st⟩ := ht.ok
  obtain ⟨l, h1, h2⟩ := anchored_p2 ha ho hone (fun χ h1 h2 => components_triangles ht hm hcl hcell hnd t' B h p
      (fun c hc => by rw [(hp c hc).1]; simpa using (hp c hc).2) h1 h2) (boundary_nodes ht (by omega) hm hcl hcell h)
    (fun c hc => (hcell c hc).length ok.inv st (by omega)) (fun c => triP2 (positions 3 p c))
  unfold discretizeTri2
  simp only [h1, collect]
  refine solvable_of (fun ec hec => ?_) h2
  obtain ⟨c, hc, he⟩ := mem_spaceOf hec
  rw [he]
  exact stiff_tri2 hw hr (positive_triangle (hp c hc).2)

/-- the corners of the unit square -/
noncomputable def exSquare : Id → Val (.vec 2)
  | 0 => ![0, 0]
  | 1 => ![1, 0]
  | 2 => ![0, 1]
  | _ => ![1, 1]

theorem exSquare_positive : ∀ c ∈ exCellsB, exB.sg 2 c.simplex = 1 ∧ 0 < Meshes.area exSquare c.vertices := by
  have h : ∀ c ∈ exCellsB, exB.sg 2 c.simplex = 1 := by decide +kernel
  refine fun c hc => ⟨h c hc, ?_⟩
  have e : c.vertices = [0, 1, 2] ∨ c.vertices = [2, 1, 3] := by
    revert c
    decide +kernel
  rcases e with e | e <;> rw [e, Meshes.area] <;>
  norm_num [Geometry.simplexVolume, exSquare, Matrix.det_fin_two, Nat.factorial]

/-- the theorems apply: two triangles, with any allocator of nodes, and the rules of mito -/
example : ∃ m s known t' B, VReachable exB ∧ Reachable (facets exB 1) m s known ∧ m.cellList = some exCellsB ∧
    (∀ c ∈ exCellsB, CellOk exB 2 c) ∧ (exCellsB.flatMap (facets exB 1)).Nodup ∧ boundary exB 1 m = some (t', B) ∧
    Solvable [((fun _ => 1 / 3), 1)] (discretizeTri1 exAlloc [] exSquare exCellsB B) := by
  obtain ⟨m, s, known, h1, h2, h3⟩ := exists_mesh exB 1 exCellsB
  have hb : (boundary exB 1 m).isSome = true := by
    rw [boundary_congr (m' := exMeshOf exB 1 exCellsB) (by rw [h2]; decide +kernel) (by rw [h3]; rfl)]
    decide +kernel
  obtain ⟨⟨t', B⟩, hB⟩ := Option.isSome_iff_exists.mp hb
  have hc : ∀ c ∈ exCellsB, CellOk exB 2 c := by decide +kernel
  have hn : (exCellsB.flatMap (facets exB 1)).Nodup := by decide +kernel
  exact ⟨m, s, known, t', B, exB_reachable, h1, h2, hc, hn, hB,
    dirichlet_tri1 exB_reachable h1 h2 hc hn hB exSquare exSquare_positive (by unfold OneNode; decide +kernel) exAlloc_fresh
      List.nodup_nil (by simp) ⟨_, List.mem_singleton.mpr rfl, one_pos⟩⟩

end Mito.Fem
