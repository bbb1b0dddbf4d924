import Verif.Mesh.DiskBoundaryLemmas
import Verif.Props.ClosedBoundary
import Mathlib.Analysis.SpecialFunctions.Sqrt

/-!
# The constrained nodes of the disk (C134)

`dirichlet_bc` takes the mesh of the boundary and a function, and the solver constrains each node of each cell of that mesh
(lib/mito/constraints/Dirichlet.h:14-42).  Here the nodes of the boundary of a mesh read from a file are found, for each file
and each topology, and the test of the constraints on the disk follows.
-/

namespace Mito.Load

open Mito.Topology Mito.Meshes Mito.Combinatorics
open Mito.Summit (reader diskFile)

/-- **C134.**  The vertices of the boundary of a mesh of triangles or tetrahedra read from a file are the vertices of the nodes on
the faces without an opposite face. -/
theorem boundary_nodes {n : Nat} (hn : n = 1 ∨ n = 2) {t : Topo} (h : VReachable t) {as : List Nat} {cells : List (List Nat)}
    (hc : ∀ c ∈ cells, c.length = n + 2 ∧ (∀ i ∈ c, i < as.length) ∧ c.Nodup)
    (hd : cells.Pairwise fun c c' => c.toFinset ≠ c'.toFinset) (hf : Fresh t (as.length + 290 * cells.length)) :
    ∃ t' nodes cs m s known t'' B, load t as cells = some (t', nodes, cs) ∧ (nodes.map (·.vertex)).Nodup ∧ nodes.length = as.length ∧
      Reachable (facets t' n) m s known ∧ m.cellList = some cs ∧ boundary t' n m = some (t'', B) ∧
      B.length = (outerFaces cells).length ∧
      ∀ v, (∃ b ∈ B, v ∈ GCell.vertices b) ↔ ∃ i ∈ (outerFaces cells).flatten, v = vertexAt nodes i := by
  obtain ⟨t', nodes, cs, m, s, known, t'', B, L, a1, a2, a3, a4, a5, a6, a7, a8, a9, a10, a11, a12⟩ := load_boundary hn h hc hd hf
  have hlen : nodes.length = as.length := by
    have := congrArg List.length a4
    simpa only [List.length_map] using this
  refine ⟨t', nodes, cs, m, s, known, t'', B, a1, a3, hlen, a6, a7, a9, by rw [← a11.length_eq, a10.length_eq], fun v => ?_⟩
  have key : (∃ b ∈ B, v ∈ GCell.vertices b) ↔ ∃ f ∈ L, ∃ i ∈ f, v = vertexAt nodes i := by
    clear a9 a10
    induction a11 with
    | nil => simp
    | @cons f b L B hfb _ ih =>
      have hp := perm_of_permutationSign hfb
      simp only [List.mem_cons, exists_eq_or_imp, ih, hp.mem_iff, List.mem_map]
      simp only [eq_comm]
  rw [key]
  constructor
  · rintro ⟨f, hf, i, hi, rfl⟩
    exact ⟨i, List.mem_flatten.mpr ⟨f, a10.subset hf, hi⟩, rfl⟩
  · rintro ⟨i, hi, rfl⟩
    obtain ⟨f, hf, hi⟩ := List.mem_flatten.mp hi
    exact ⟨f, a10.symm.subset hf, i, hi, rfl⟩

/-- a number whose square is close to one is close to one -/
theorem sqrt_near {x : ℝ} (h1 : 1 - 1 / 10 ^ 12 < x) (h2 : x < 1 + 1 / 10 ^ 12) : |Real.sqrt x - 1| ≤ 1 / 10 ^ 12 := by
  have h0 : 0 ≤ x := by linarith
  have hs := Real.sqrt_nonneg x
  have he := Real.mul_self_sqrt h0
  rw [abs_le]
  constructor <;> nlinarith

/-- the value of the condition at a vertex: the square root of `x * x + y * y` (tests/mito.lib/constraints/dirichlet.cc:37) -/
noncomputable def radiusAt (coords : List (List ℚ)) (nodes : List Node) (v : Id) : ℝ :=
  Real.sqrt (place3 coords nodes v 0 * place3 coords nodes v 0 + place3 coords nodes v 1 * place3 coords nodes v 1)

/-- **C134.**  tests/mito.lib/constraints/dirichlet.cc:24-59: the file of the disk is accepted and loaded in any topology.  Its
boundary has 64 segments and no boundary; at each of their nodes the radius is one up to 1e-12, and at each other node of the mesh
the square of the radius is less than 99/100. -/
theorem dirichlet_test : reader 2 3 3 diskFile = .ok diskMesh ∧
    ∀ {t : Topo} {as : List Nat}, VReachable t → as.length = 423 → Fresh t 226623 →
      ∃ t' nodes cs m s known t'' B, load t as diskMesh.2 = some (t', nodes, cs) ∧ Reachable (facets t' 1) m s known ∧
        m.cellList = some cs ∧ boundary t' 1 m = some (t'', B) ∧ B.length = 64 ∧
        (∀ b ∈ B, ∀ v ∈ GCell.vertices b, |radiusAt diskMesh.1 nodes v - 1| ≤ 1 / 10 ^ 12) ∧
        ∀ node ∈ nodes, (∀ b ∈ B, node.vertex ∉ GCell.vertices b) → radiusAt diskMesh.1 nodes node.vertex ^ 2 < 99 / 100 := by
  refine ⟨disk_read, fun {t as} h ha hf => ?_⟩
  obtain ⟨t', nodes, cs, m, s, known, t'', B, a1, a2, a3, a4, a5, a6, a7, a8⟩ := boundary_nodes (.inl rfl) h (as := as)
    (cells := diskMesh.2) (by rw [ha]; exact disk_cells) disk_distinct (by rw [ha, disk_sizes.2]; exact hf)
  rw [disk_outer] at a7 a8
  rw [ha] at a3
  have hat : ∀ i < 423, radiusAt diskMesh.1 nodes (vertexAt nodes i) = Real.sqrt (squareRadius2 diskMesh.1 i : ℝ) := by
    intro i hi
    have : (nodes.map (·.vertex)).idxOf (vertexAt nodes i) = i := by
      rw [vertexAt_node (List.getElem?_eq_getElem (by omega))]
      have := a2.idxOf_getElem i (by simp; omega)
      simpa using this
    simp only [radiusAt, place3, this, squareRadius2]
    push_cast
    rw [sq, sq]
    rfl
  refine ⟨t', nodes, cs, m, s, known, t'', B, a1, a4, a5, a6, by rw [a7, diskOuter_length], fun b hb v hv => ?_, fun node hm hno => ?_⟩
  · obtain ⟨i, hi, rfl⟩ := (a8 v).mp ⟨b, hb, hv⟩
    obtain ⟨f, hf, hi⟩ := List.mem_flatten.mp hi
    rw [hat i (diskOuter_lt f hf i hi)]
    obtain ⟨h1, h2⟩ := diskOuter_radius f hf i hi
    refine sqrt_near ?_ ?_
    · simpa using (Rat.cast_lt (K := ℝ)).mpr h1
    · simpa using (Rat.cast_lt (K := ℝ)).mpr h2
  · obtain ⟨i, hi, rfl⟩ := List.mem_iff_getElem.mp hm
    have e : vertexAt nodes i = nodes[i].vertex := vertexAt_node (List.getElem?_eq_getElem hi)
    rw [← e, hat i (by omega)]
    rcases disk_inner i (List.mem_range.mpr (by omega)) with hin | hlt
    · obtain ⟨b, hb, hv⟩ := (a8 (vertexAt nodes i)).mpr ⟨i, hin, rfl⟩
      rw [e] at hv
      exact absurd hv (hno b hb)
    · rw [Real.sq_sqrt (by
        rw [squareRadius2]
        positivity)]
      simpa using (Rat.cast_lt (K := ℝ)).mpr hlt

/-- **C134.**  The boundary of the disk is closed: a mesh with its cells has no boundary. -/
theorem disk_closed {t : Topo} {as : List Nat} (h : VReachable t) (ha : as.length = 423) (hf : Fresh t 226623) :
    ∃ t' nodes cs m s known t'' B, load t as diskMesh.2 = some (t', nodes, cs) ∧ Reachable (facets t' 1) m s known ∧
      m.cellList = some cs ∧ boundary t' 1 m = some (t'', B) ∧ B.length = 64 ∧
      ∀ m' s' known', Reachable (facets t'' 0) m' s' known' → m'.cellList = some B → boundarySize t'' 0 m' = some 0 := by
  obtain ⟨t', nodes, cs, m, s, known, t'', B, a1, a2, a3, a4, a5, a6⟩ := load_boundary_closed (M := 0) (by decide) h (as := as)
    (cells := diskMesh.2) (by rw [ha]; exact disk_cells) disk_distinct disk_faces (by rw [ha, disk_sizes.2]; exact hf)
  exact ⟨t', nodes, cs, m, s, known, t'', B, a1, a2, a3, a4, by rw [a5, disk_outer, diskOuter_length],
    fun m' s' known' hm' hc' => (a6 m' s' known' hm' hc').1⟩

/-- the start of a program is a topology in which the disk is loaded -/
example : VReachable (Topo.init (List.range 226623)) ∧ Fresh (Topo.init (List.range 226623)) 226623 :=
  ⟨⟨_, [], by simp, rfl⟩, by simp [Topo.init], (List.nodup_range).sublist (List.take_sublist _ _),
    fun i _ N => by simp [Topo.init, Level.empty]⟩

end Mito.Load
