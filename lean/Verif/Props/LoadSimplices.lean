import Verif.Mesh.LoadFacesLemmas
import Verif.Props.SummitDamaged
import Verif.Props.Stokes
import Verif.Mesh.CubeLemmas

/-!
# C113: meshes of segments, surfaces and tetrahedra read from files
-/

namespace Mito.Load

open Mito.Topology Mito.Meshes Mito.Combinatorics
open Mito.Summit (reader cubeFile sphereFile Token)

/-- **C113.**  Loading succeeds for every list of segments, triangles or tetrahedra on different sets of nodes, whatever is in the topology
before, and keeps what is there.  The cells are in the order of the file, with positive orientation on the vertices of their nodes in order. -/
theorem load_simplices {n : Nat} (hn : n = 1 ∨ n = 2 ∨ n = 3) {t : Topo} (h : VReachable t) {as : List Nat} {cells : List (List Nat)}
    (hc : ∀ c ∈ cells, c.length = n + 1 ∧ (∀ i ∈ c, i < as.length) ∧ c.Nodup)
    (hd : cells.Pairwise fun c c' => c.toFinset ≠ c'.toFinset) {k : Nat} (hf : Fresh t (k + (as.length + 58 * cells.length))) :
    ∃ t' nodes cs, load t as cells = some (t', nodes, cs) ∧ VReachable t' ∧ Grows t t' ∧ Fresh t' k ∧ nodes.map (·.id) = as ∧
      (nodes.map (·.vertex)).Nodup ∧ List.Forall₂ (Built n t' nodes) cells cs := by
  obtain ⟨t1, nodes, a1, a2, a3, a4, a5, a6, a7, a8⟩ := makeNodes_spec h (k := k + 58 * cells.length) as (hf.mono (by omega))
  have hlen : nodes.length = as.length := by
    have := congrArg List.length a5
    simpa only [List.length_map] using this
  rw [← hlen] at hc
  obtain ⟨t2, cs, b1, b2, b3, b4, b5⟩ := makeCells_built hn a2 (k := k) cells a3 (fun n hn => (a7 n hn).1) a6 hc
    (distinct_sets a6 (fun c hm => (hc c hm).2.1) hd) (by
      intro f hf c hm e
      have hf' : f ∈ (t.lvl n).fps := by
        rcases hn with rfl | rfl | rfl
        · rw [← a8 0]; exact hf
        · rw [← a8 1]; exact hf
        · rw [← a8 2]; exact hf
      obtain ⟨h3, hi, -⟩ := hc c hm
      match c, h3 with
      | i :: c, _ =>
        have hv : vertexAt nodes i ∈ VS t1 n f := by
          rw [e]
          simp [vertexSetOf, vertexAt]
        have e2 : VS t1 n f = VS t n f := by
          simp only [VS]
          rw [← vertexSet_le h.ok.1.inv a4 hf']
          rcases hn with rfl | rfl | rfl <;> rfl
        rw [e2] at hv
        have hi' := hi i (by simp)
        have := (a7 nodes[i] (List.getElem_mem hi')).2
        rw [← vertexAt_node (List.getElem?_eq_getElem hi')] at this
        exact this (vertexSet_live h.ok.1.inv hf' (by simpa [VS] using hv)))
  exact ⟨t2, nodes, cs, by simp only [load, a1, b1], b2, a4.trans b4, b3, a5, a6, b5⟩

/-- **C113.**  The boundary of a mesh of triangles or tetrahedra read from a file can be taken.  It consists of the faces without an opposite
face in the file, in some order, each on the vertices of its nodes up to an even permutation: so a closed surface has no boundary. -/
theorem load_boundary {n : Nat} (hn : n = 1 ∨ n = 2) {t : Topo} (h : VReachable t) {as : List Nat} {cells : List (List Nat)}
    (hc : ∀ c ∈ cells, c.length = n + 2 ∧ (∀ i ∈ c, i < as.length) ∧ c.Nodup)
    (hd : cells.Pairwise fun c c' => c.toFinset ≠ c'.toFinset) (hf : Fresh t (as.length + 290 * cells.length)) :
    ∃ t' nodes cs m s known t'' B L, load t as cells = some (t', nodes, cs) ∧ VReachable t' ∧ (nodes.map (·.vertex)).Nodup ∧
      nodes.map (·.id) = as ∧ List.Forall₂ (Built (n + 1) t' nodes) cells cs ∧
      Reachable (facets t' n) m s known ∧ m.cellList = some cs ∧ (∀ c ∈ cs, CellOk t' (n + 1) c) ∧ boundary t' n m = some (t'', B) ∧
      L.Perm (outerFaces cells) ∧
      List.Forall₂ (fun f b => permutationSign (GCell.vertices b) (f.map (vertexAt nodes)) = some 1) L B ∧
      (NoCommonFaces cells → (cs.flatMap (facets t' n)).Nodup) := by
  obtain ⟨t', nodes, cs, a1, a2, a3, a4, a5, a6, a7⟩ := load_simplices (n := n + 1) (by omega) h hc hd (k := 232 * cells.length)
    (hf.mono (by omega))
  have hlen : nodes.length = as.length := by
    have := congrArg List.length a5
    simpa only [List.length_map] using this
  have hl : ∀ c ∈ cells, (∀ i ∈ c, i < nodes.length) ∧ c.Nodup := fun c hm => by rw [hlen]; exact (hc c hm).2
  have hcell : ∀ c ∈ cs, CellOk t' (n + 1) c := by
    intro c hm
    obtain ⟨index, -, hL⟩ := forall₂_mem a7 hm
    exact hL.cellOk
  have hlc : cs.length = cells.length := a7.length_eq.symm
  obtain ⟨m, s, known, m1, m2, -⟩ := exists_mesh t' n cs
  obtain ⟨s1, s2⟩ := boundary_spec' a2.ok.1 a2.ok.2 (by omega) m1 m2 hcell
  obtain ⟨t'', B, hB, -⟩ := s2 0 (a4.mono (by rw [hlc]; rcases hn with rfl | rfl <;> omega))
  obtain ⟨L, l1, l2⟩ := boundary_faces a2.ok.1.inv a2.ok.2 hn a6 hl a7 (s1 t'' B hB).2
  exact ⟨t', nodes, cs, m, s, known, t'', B, L, a1, a2, a6, a5, a7, m1, m2, hcell, hB, l1, l2,
    facets_nodup_of_faces a2.ok.1.inv a2.ok.2 hn a6 hl a7⟩

/-- **C113.**  The volume of a mesh of tetrahedra is the sum of their signed volumes from the coordinates in the file.  If no two tetrahedra
have the same face with the same orientation, it is minus a third of the flux of the position through the boundary. -/
theorem load_tetrahedra {t : Topo} (h : VReachable t) {as : List Nat} {cells : List (List Nat)} (coords : List (List ℚ))
    (hc : ∀ c ∈ cells, c.length = 4 ∧ (∀ i ∈ c, i < as.length) ∧ c.Nodup)
    (hd : cells.Pairwise fun c c' => c.toFinset ≠ c'.toFinset) (hf : Fresh t (as.length + 290 * cells.length)) :
    ∃ t' nodes cs m t'' B L, load t as cells = some (t', nodes, cs) ∧ m.cellList = some cs ∧ boundary t' 2 m = some (t'', B) ∧
      (cs.map fun c => volume (place3 coords nodes) c.vertices).sum = ((cells.map (sixVolume coords)).sum : ℚ) / 6 ∧
      L.Perm (outerFaces cells) ∧
      List.Forall₂ (fun f b => permutationSign (GCell.vertices b) (f.map (vertexAt nodes)) = some 1 ∧
        ∀ i ∈ f, ∀ k, place3 coords nodes (vertexAt nodes i) k = (coordinate coords i k : ℝ)) L B ∧
      (NoCommonFaces cells → (B.map fun d => flux3 id (place3 coords nodes) d.vertices).sum = -((cells.map (sixVolume coords)).sum : ℚ) / 2) := by
  obtain ⟨t', nodes, cs, m, s, known, t'', B, L, a1, a2, a3, a4, a5, a6, a7, a8, a9, a10, a11, a12⟩ := load_boundary (.inr rfl) h hc hd hf
  have hlen : nodes.length = as.length := by
    have := congrArg List.length a4
    simpa only [List.length_map] using this
  have hl : ∀ c ∈ cells, c.length = 4 ∧ ∀ i ∈ c, i < nodes.length := fun c hm => by
    rw [hlen]; exact ⟨(hc c hm).1, (hc c hm).2.1⟩
  have hvol : (cs.map fun c => volume (place3 coords nodes) c.vertices).sum = ((cells.map (sixVolume coords)).sum : ℚ) / 6 := by
    clear a1 a6 a7 a8 a9 a10 a11 a12 hd hf hc
    induction a5 with
    | nil => simp
    | @cons c g cells cs hL _ ih =>
      simp only [List.map_cons, List.sum_cons]
      rw [ih fun c hm => hl c (by simp [hm]), hL.vertices, volume_index a3 (hl c (by simp)).1 (hl c (by simp)).2]
      push_cast
      ring
  refine ⟨t', nodes, cs, m, t'', B, L, a1, a7, a9, hvol, a10, ?_, fun hn => ?_⟩
  · have hL : ∀ f ∈ L, ∀ i ∈ f, i < nodes.length := by
      intro f hf i hi
      obtain ⟨c, hm, hfc⟩ := List.mem_flatMap.mp (List.mem_of_mem_filter (a10.subset hf))
      exact (hl c hm).2 i (faces_mem hfc i hi)
    clear a9 a10 a12
    induction a11 with
    | nil => exact .nil
    | @cons f b L B hfb _ ih =>
      exact .cons ⟨hfb, fun i hi k => place3_at a3 (hL f (by simp) i hi) k⟩ (ih fun f hf => hL f (by simp [hf]))
  · have := volume_by_boundary a2 a6 a7 a8 (a12 hn) t'' B a9 (place3 coords nodes)
    have e : (cs.map fun c => (t'.sg 3 c.simplex : ℝ) * volume (place3 coords nodes) c.vertices) =
        cs.map fun c => volume (place3 coords nodes) c.vertices := by
      refine List.map_congr_left fun c hm => ?_
      obtain ⟨index, -, hL⟩ := forall₂_mem a5 hm
      rw [show t'.sg 3 c.simplex = 1 from hL.sign]
      simp
    rw [e, hvol] at this
    linarith

/-! ## The meshes of the tests -/

/-- **C113.**  The file of the unit cube is accepted.  Its tetrahedra are on different sets of nodes, have positive volumes and no common
faces with the same orientation; the volumes add up to one, and the 256 faces without an opposite are on the sides of the cube. -/
theorem cube_file : ∃ coords cells, reader 3 4 4 cubeFile = .ok (coords, cells) ∧ coords.length = 139 ∧ cells.length = 368 ∧
    (cells.Pairwise fun c c' => c.toFinset ≠ c'.toFinset) ∧ NoCommonFaces cells ∧ (∀ c ∈ cells, 0 < sixVolume coords c) ∧
    (cells.map (sixVolume coords)).sum = 6 ∧ (outerFaces cells).length = 256 ∧ OnCube coords cells :=
  ⟨cubeMesh.1, cubeMesh.2, cube_read, cube_lengths.1, cube_lengths.2, cube_distinct, cube_faces, cube_positive, cube_volume, cube_outer,
    cube_sides⟩

/-- **C113.**  The cube is loaded in any topology.  Each tetrahedron of the mesh has a positive volume, and the volume of the mesh is one.
The boundary has 256 triangles; all nodes of a triangle are on one side of the cube, and the flux of the position is minus three. -/
theorem cube_loaded {t : Topo} (h : VReachable t) {as : List Nat} (ha : as.length = 139) (hf : Fresh t 106859) :
    ∃ t' nodes cs m t'' B, load t as cubeMesh.2 = some (t', nodes, cs) ∧ m.cellList = some cs ∧ boundary t' 2 m = some (t'', B) ∧
      cs.length = 368 ∧ (∀ c ∈ cs, 0 < volume (place3 cubeMesh.1 nodes) c.vertices) ∧
      (cs.map fun c => volume (place3 cubeMesh.1 nodes) c.vertices).sum = 1 ∧ B.length = 256 ∧
      (∀ b ∈ B, ∃ k : Fin 3, ∃ s ∈ ({0, 1} : Set ℝ), ∀ v ∈ GCell.vertices b, place3 cubeMesh.1 nodes v k = s) ∧
      (B.map fun d => flux3 id (place3 cubeMesh.1 nodes) d.vertices).sum = -3 := by
  have hc : ∀ c ∈ cubeMesh.2, c.length = 4 ∧ (∀ i ∈ c, i < as.length) ∧ c.Nodup := by rw [ha]; exact cube_cells
  have hf' : Fresh t (as.length + 290 * cubeMesh.2.length) := by rw [ha, cube_lengths.2]; exact hf
  obtain ⟨t', nodes, cs, m, t'', B, L, a1, a2, a3, a4, a5, a6, a7⟩ := load_tetrahedra h cubeMesh.1 hc cube_distinct hf'
  obtain ⟨t2, nodes2, cs2, b1, -, -, -, b2, b3, b4⟩ := load_simplices (n := 3) (by omega) h hc cube_distinct (k := 0) (hf'.mono (by omega))
  rw [a1, Option.some.injEq, Prod.mk.injEq, Prod.mk.injEq] at b1
  obtain ⟨rfl, rfl, rfl⟩ := b1
  have hlen : nodes.length = as.length := by
    have := congrArg List.length b2
    simpa only [List.length_map] using this
  refine ⟨t', nodes, cs, m, t'', B, a1, a2, a3, by rw [← b4.length_eq, cube_lengths.2], fun c hm => ?_, ?_, ?_, fun b hb => ?_, ?_⟩
  · obtain ⟨index, hi, hL⟩ := forall₂_mem b4 hm
    obtain ⟨c1, c2, -⟩ := hc index hi
    rw [hL.vertices, volume_index b3 c1 (by rw [hlen]; exact c2)]
    have : (0 : ℝ) < (sixVolume cubeMesh.1 index : ℝ) := by exact_mod_cast cube_positive index hi
    linarith
  · rw [a4, cube_volume]; norm_num
  · rw [← a6.length_eq, a5.length_eq, cube_outer]
  · obtain ⟨f, hfL, hs, hp⟩ := forall₂_mem a6 hb
    obtain ⟨k, hk, s, hs', hall⟩ := cube_sides f (a5.subset hfL)
    have hk3 : k < 3 := by
      simp only [List.mem_cons, List.not_mem_nil, or_false] at hk
      omega
    refine ⟨⟨k, hk3⟩, (s : ℝ), ?_, fun v hv => ?_⟩
    · simp only [List.mem_cons, List.not_mem_nil, or_false] at hs'
      rcases hs' with rfl | rfl <;> simp
    · obtain ⟨i, hi, rfl⟩ := List.mem_map.mp ((perm_of_permutationSign hs).mem_iff.mp hv)
      rw [hp i hi]
      exact_mod_cast hall i hi
  · rw [a7 cube_faces, cube_volume]; norm_num

/-- **C113.**  The file of the sphere is accepted, loaded in any topology, and the mesh has no boundary. -/
theorem sphere_closed : reader 3 3 3 sphereFile = .ok sphereMesh ∧
    ∀ {t : Topo} {as : List Nat}, VReachable t → as.length = 319 → Fresh t 183599 →
      ∃ t' nodes cs m t'', load t as sphereMesh.2 = some (t', nodes, cs) ∧ m.cellList = some cs ∧ cs.length = 632 ∧
        (cs.flatMap (facets t' 1)).Nodup ∧ boundary t' 1 m = some (t'', []) := by
  refine ⟨sphere_read, fun {t as} h ha hf => ?_⟩
  obtain ⟨t', nodes, cs, m, s, known, t'', B, L, a1, a2, a3, a4, a5, a6, a7, a8, a9, a10, a11, a12⟩ :=
    load_boundary (n := 1) (.inl rfl) h (as := as) (cells := sphereMesh.2) (by rw [ha]; exact sphere_cells) sphere_distinct
      (by rw [ha, sphere_lengths.2]; exact hf)
  rw [sphere_outer, List.perm_nil] at a10
  subst a10
  cases a11
  exact ⟨t', nodes, cs, m, t'', a1, a7, by rw [← a5.length_eq, sphere_lengths.2], a12 sphere_faces, a9⟩

/-- **C113.**  The orientations of the triangles of a surface are not checked: if two triangles have an edge in the same direction, the edge
is in the boundary, twice. -/
theorem disagreeing_triangles : ∃ (file : List Token) (coords : List (List ℚ)) (cells : List (List Nat)),
    reader 3 3 3 file = .ok (coords, cells) ∧ ∀ t as, VReachable t → as.length = coords.length → Fresh t 584 →
      ∃ t' nodes cs m t'' B, load t as cells = some (t', nodes, cs) ∧ m.cellList = some cs ∧ boundary t' 1 m = some (t'', B) ∧
        cs.length = 2 ∧ B.length = 6 ∧ 2 ≤ (B.map GCell.vertices).count [vertexAt nodes 0, vertexAt nodes 1] := by
  refine ⟨[.num 3, .num 4, .num 2, .num 1, .num 0, .num 0, .num 0, .num 1, .num 0, .num 0, .num 0, .num 1, .num 0, .num 0, .num 0, .num 1,
    .num 3, .num 1, .num 2, .num 3, .num 1, .num 3, .num 1, .num 2, .num 4, .num 1],
    [[0, 0, 0], [1, 0, 0], [0, 1, 0], [0, 0, 1]], [[0, 1, 2], [0, 1, 3]], by decide +kernel, fun t as ht ha hf => ?_⟩
  obtain ⟨t', nodes, cs, m, s, known, t'', B, L, a1, a2, a3, a4, a5, a6, a7, a8, a9, a10, a11, a12⟩ :=
    load_boundary (n := 1) (.inl rfl) ht (as := as) (cells := [[0, 1, 2], [0, 1, 3]]) (by rw [ha]; decide) (by decide)
      (by simpa [ha] using hf)
  have ho : outerFaces [[0, 1, 2], [0, 1, 3]] = [[0, 1], [1, 2], [2, 0], [0, 1], [1, 3], [3, 0]] := by decide +kernel
  rw [ho] at a10
  have hlen : nodes.length = 4 := by
    have := congrArg List.length a4
    simpa [ha] using this
  refine ⟨t', nodes, cs, m, t'', B, a1, a7, a9, by rw [← a5.length_eq]; rfl, by rw [← a11.length_eq, a10.length_eq]; rfl, ?_⟩
  have hcount : L.count [0, 1] = 2 := by rw [a10.count_eq]; decide
  rw [← hcount]
  clear a10 a9 hcount
  induction a11 with
  | nil => simp
  | @cons f b L B hfb _ ih =>
    rw [List.map_cons, List.count_cons, List.count_cons]
    refine Nat.add_le_add ih ?_
    by_cases e : f = [0, 1]
    · subst e
      have hne : vertexAt nodes 0 ≠ vertexAt nodes 1 := fun e => by
        have := vertexAt_inj a3 (by omega) (by omega) e
        omega
      have : GCell.vertices b = [vertexAt nodes 0, vertexAt nodes 1] := by
        have hk := perm_of_permutationSign hfb
        generalize GCell.vertices b = l at hfb hk
        simp only [List.map_cons, List.map_nil] at hfb hk
        match l, hk.length_eq with
        | [x, y], _ =>
          have hx := hk.mem_iff (a := x)
          have hy := hk.mem_iff (a := y)
          have hxy : x ≠ y := by simpa using hk.nodup_iff.mpr (by simpa using hne)
          simp only [List.mem_cons, List.not_mem_nil, or_false, true_or, or_true, true_iff] at hx hy
          rcases hx with rfl | rfl
          · rcases hy with rfl | rfl
            · exact absurd rfl hxy
            · rfl
          · rcases hy with rfl | rfl
            · rw [permutationSign_swap01 _ _ [] (by simpa using hne)] at hfb
              simp at hfb
            · exact absurd rfl hxy
      simp [this]
    · simp [e]

/-- the start of a program is a topology in which the meshes are loaded -/
example : VReachable (Topo.init (List.range 183599)) ∧ Fresh (Topo.init (List.range 183599)) 183599 ∧
    Fresh (Topo.init (List.range 183599)) 106859 := by
  have h : Fresh (Topo.init (List.range 183599)) 183599 :=
    ⟨by simp [Topo.init], (List.nodup_range).sublist (List.take_sublist _ _), fun i _ N => by simp [Topo.init, Level.empty]⟩
  exact ⟨⟨_, [], by simp, rfl⟩, h, h.mono (by norm_num)⟩

end Mito.Load
