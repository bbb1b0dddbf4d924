import Verif.Mesh.BallLemmas
import Verif.Mesh.LoadSignsLemmas
import Verif.Props.LoadSimplices

/-!
# C132: the boundary of the boundary of a mesh read from a file is empty

C26 shows that the boundary of a boundary is empty if the cells on the boundary have positive orientation, and that it may
not be otherwise.  Here this is shown for meshes read from files, whatever is in the topology before.
-/

namespace Mito.Load

open Mito.Topology Mito.Meshes Mito.Combinatorics
open Mito.Summit (reader ballFile Token)

/-- **C132.**  The facets on the boundary of a mesh read from a file have positive orientation, whatever is in the topology
before: they are on new vertices, so they are created for their cell. -/
theorem boundary_positive {n : Nat} (hn : n = 1 ∨ n = 2) {t : Topo} (h : VReachable t) {as : List Nat} {cells : List (List Nat)}
    (hc : ∀ c ∈ cells, c.length = n + 2 ∧ (∀ i ∈ c, i < as.length) ∧ c.Nodup)
    (hd : cells.Pairwise fun c c' => c.toFinset ≠ c'.toFinset) (hf : Fresh t (as.length + 58 * cells.length))
    {t' : Topo} {nodes : List Node} {cs : List GCell} (hl : load t as cells = some (t', nodes, cs)) :
    ∀ x ∈ boundaryFacets t' n cs, t'.sg n x.1 = 1 := by
  obtain ⟨t0, nodes0, cs0, l1, l2, l3, -, l5, l6, l7⟩ := load_simplices (n := n + 1) (by omega) h hc hd (k := 0) (hf.mono (by omega))
  rw [hl, Option.some.injEq, Prod.mk.injEq, Prod.mk.injEq] at l1
  obtain ⟨rfl, rfl, rfl⟩ := l1
  obtain ⟨t1, nodes1, a1, a2, a3, a4, a5, a6, a7, a8⟩ := makeNodes_spec h (k := 0 + 58 * cells.length) as (hf.mono (by omega))
  simp only [load, a1] at hl
  split at hl
  · simp at hl
  · rename_i t2 cs2 hm
    rw [Option.some.injEq, Prod.mk.injEq, Prod.mk.injEq] at hl
    obtain ⟨rfl, rfl, rfl⟩ := hl
    have hlen : nodes1.length = as.length := by
      have := congrArg List.length a5
      simpa only [List.length_map] using this
    rw [← hlen] at hc
    have hnew : ∀ i < nodes1.length, vertexAt nodes1 i ∉ (t.lvl 0).fps := by
      intro i hi
      rw [vertexAt_node (List.getElem?_eq_getElem hi)]
      exact (a7 _ (List.getElem_mem hi)).2
    have hs := makeCells_signs hn a2 (k := 0) cells a3 (fun n hn => (a7 n hn).1) a6 hc
      (distinct_sets a6 (fun c hm => (hc c hm).2.1) hd) (by
        intro f hf c hm e
        rw [a8 n] at hf
        obtain ⟨h3, hi, -⟩ := hc c hm
        match c, h3 with
        | i :: c, _ =>
          refine hnew i (hi i (by simp)) (old_vertices (n := n + 1) (by omega) h.ok.1.inv a4 hf ?_)
          rw [e]
          simp [vertexSetOf, vertexAt]) hm
    intro x hx
    obtain ⟨hx, hun⟩ := List.mem_filter.mp hx
    obtain ⟨c, hcm, hx⟩ := List.mem_flatMap.mp hx
    obtain ⟨y, hy, rfl⟩ := List.mem_map.mp hx
    obtain ⟨index, hin, hL⟩ := forall₂_mem l7 hcm
    have hyl := composition_live l2.ok.1.inv hL.live y hy
    have hfy := l2.ok.1.inv.fp_live n y hyl
    rcases hs _ hfy with hold | ⟨c', hc', hpos⟩
    · exfalso
      obtain ⟨l, -, -, hset, hlen'⟩ := verticesOf_spec l2.ok.1.inv l2.ok.2 (n := n) (by omega) hyl
      match l, hlen' with
      | v :: l, _ =>
        have hv : v ∈ VS t2 n (t2.fp n y) := by rw [← hset]; simp
        have hv' := VS_facet hy hv
        rw [OfVertices_VS hL.of, List.mem_toFinset] at hv'
        obtain ⟨i, hi, rfl⟩ := List.mem_map.mp hv'
        have hold' : t2.fp n y ∈ (t.lvl n).fps := by
          rcases hn with rfl | rfl
          · rw [← a8 0]; exact hold
          · rw [← a8 1]; exact hold
        exact hnew i ((hc index hin).2.1 i hi) (old_vertices (by omega) h.ok.1.inv l3 hold' hv)
    · simp only [decide_eq_true_eq] at hun
      rcases l2.ok.1.inv.sg n y hyl with e | e
      · exact e
      · refine absurd ?_ (hun c' hc')
        rw [e]
        exact hpos

/-- **C132.**  The boundary of the boundary of a mesh of triangles or tetrahedra read from a file is empty, whatever is in the
topology before: `boundary` succeeds, and a mesh with its cells has no boundary. -/
theorem load_boundary_closed {M : Nat} (hM : M ≤ 1) {t : Topo} (h : VReachable t) {as : List Nat} {cells : List (List Nat)}
    (hc : ∀ c ∈ cells, c.length = M + 3 ∧ (∀ i ∈ c, i < as.length) ∧ c.Nodup)
    (hd : cells.Pairwise fun c c' => c.toFinset ≠ c'.toFinset) (hn : NoCommonFaces cells)
    (hf : Fresh t (as.length + 290 * cells.length)) :
    ∃ t' nodes cs m s known t'' B, load t as cells = some (t', nodes, cs) ∧ Reachable (facets t' (M + 1)) m s known ∧
      m.cellList = some cs ∧ boundary t' (M + 1) m = some (t'', B) ∧ B.length = (outerFaces cells).length ∧
      ∀ m' s' known', Reachable (facets t'' M) m' s' known' → m'.cellList = some B →
        boundarySize t'' M m' = some 0 ∧ ∀ t3 B', boundary t'' M m' = some (t3, B') → B' = [] := by
  obtain ⟨t', nodes, cs, m, s, known, t'', B, L, a1, a2, a3, a4, a5, a6, a7, a8, a9, a10, a11, a12⟩ :=
    load_boundary (n := M + 1) (by omega) h hc hd hf
  refine ⟨t', nodes, cs, m, s, known, t'', B, a1, a6, a7, a9, by rw [← a11.length_eq, a10.length_eq], fun m' s' known' hm' hcl' => ?_⟩
  exact boundary_boundary_empty a2 hM a8 (a12 hn)
    (boundary_positive (n := M + 1) (by omega) h hc hd (hf.mono (by omega)) a1) a6 a7 t'' B a9 hm' hcl'

/-- **C132.**  tests/mito.lib/mesh/ball.cc:16-38: the file of the ball is accepted and loaded in any topology.  Its boundary has
228 triangles, and the boundary of the boundary is empty. -/
theorem ball_test : reader 3 4 4 ballFile = .ok ballMesh ∧
    ∀ {t : Topo} {as : List Nat}, VReachable t → as.length = 133 → Fresh t 108013 →
      ∃ t' nodes cs m s known t'' B, load t as ballMesh.2 = some (t', nodes, cs) ∧ Reachable (facets t' 2) m s known ∧
        m.cellList = some cs ∧ boundary t' 2 m = some (t'', B) ∧ B.length = 228 ∧
        ∀ m' s' known', Reachable (facets t'' 1) m' s' known' → m'.cellList = some B →
          boundarySize t'' 1 m' = some 0 ∧ ∀ t3 B', boundary t'' 1 m' = some (t3, B') → B' = [] := by
  refine ⟨ball_read, fun {t as} h ha hf => ?_⟩
  obtain ⟨t', nodes, cs, m, s, known, t'', B, a1, a2, a3, a4, a5, a6⟩ := load_boundary_closed (M := 1) (by decide) h (as := as)
    (cells := ballMesh.2) (by rw [ha]; exact ball_cells) ball_distinct ball_faces (by rw [ha, ball_lengths.2]; exact hf)
  exact ⟨t', nodes, cs, m, s, known, t'', B, a1, a2, a3, a4, by rw [a5, ball_outer], a6⟩

/-- four triangles around a node, of which two have an edge in the same direction -/
def fanCells : List (List Nat) := [[0, 1, 2], [0, 2, 3], [0, 3, 4], [0, 4, 2]]

/-- the topology and the cells after loading the four triangles at the start of a program -/
def fanLoaded : Topo × List Node × List GCell :=
  (load (.init (List.range 400)) [0, 1, 2, 3, 4] fanCells).getD (.init [], [], [])

/-- the file of the four triangles -/
def fanFile : List Token :=
  [2, 5, 4, 1, 0, 0, 1, 0, 0, 1, -1, 0, 0, -1, 3, 1, 2, 3, 1, 3, 1, 3, 4, 1, 3, 1, 4, 5, 1, 3, 1, 5, 3, 1].map Token.num

/-- **C132 (finding).**  The condition on common faces is needed, and the reader does not check it: four triangles on different
sets of nodes, read from a file at the start of a program, have a boundary that has a boundary. -/
theorem fan_not_closed : ∃ (coords : List (List ℚ)) (t' t'' : Topo) (nodes : List Node) (cs B : List GCell)
    (m m' : Mesh GCell) (s s' : SegVec.Abs GCell) (known known' : Finset Nat), reader 2 3 3 fanFile = .ok (coords, fanCells) ∧
    (fanCells.Pairwise fun c c' => c.toFinset ≠ c'.toFinset) ∧ ¬ NoCommonFaces fanCells ∧
    load (.init (List.range 400)) [0, 1, 2, 3, 4] fanCells = some (t', nodes, cs) ∧
    Reachable (facets t' 1) m s known ∧ m.cellList = some cs ∧ boundary t' 1 m = some (t'', B) ∧
    Reachable (facets t'' 0) m' s' known' ∧ m'.cellList = some B ∧ boundarySize t'' 0 m' = some 1 := by
  have hd : fanCells.Pairwise fun c c' => c.toFinset ≠ c'.toFinset := by decide +kernel
  have hf : Fresh (Topo.init (List.range 400)) 400 :=
    ⟨by simp [Topo.init], (List.nodup_range).sublist (List.take_sublist _ _), fun i _ N => by simp [Topo.init, Level.empty]⟩
  obtain ⟨t', nodes, cs, hl, hr, -, -, -, -, -⟩ := load_simplices (n := 2) (by decide) (t := .init (List.range 400)) ⟨_, [], by simp, rfl⟩
    (as := [0, 1, 2, 3, 4]) (cells := fanCells) (by decide +kernel) hd (k := 0) (hf.mono (by decide))
  have he : fanLoaded = (t', nodes, cs) := by rw [fanLoaded, hl]; rfl
  obtain ⟨m, s, known, h1, h2, h3⟩ := exists_mesh t' 1 cs
  have hcells : (exMeshOf fanLoaded.1 1 fanLoaded.2.2).cellList = some fanLoaded.2.2 := by decide +kernel
  have hc : ∀ c ∈ fanLoaded.2.2, CellOk fanLoaded.1 2 c := by decide +kernel
  have hb : boundary t' 1 m = boundary fanLoaded.1 1 (exMeshOf fanLoaded.1 1 fanLoaded.2.2) := by
    rw [he] at hcells ⊢
    exact boundary_congr (by rw [h2, hcells]) (by rw [h3]; rfl)
  have hsome : (boundary fanLoaded.1 1 (exMeshOf fanLoaded.1 1 fanLoaded.2.2)).isSome = true := by decide +kernel
  have hsz : ((boundary fanLoaded.1 1 (exMeshOf fanLoaded.1 1 fanLoaded.2.2)).map fun r =>
      (r.2.all fun c => decide (c.simplex ∈ (r.1.lvl 1).ors), (boundaryFacets r.1 0 r.2).length)) =
      some (true, 1) := by decide +kernel
  obtain ⟨⟨t'', B⟩, hB⟩ := Option.isSome_iff_exists.mp hsome
  rw [hB] at hsz
  simp only [Option.map_some, Option.some.injEq, Prod.mk.injEq, List.all_eq_true, decide_eq_true_eq] at hsz
  obtain ⟨m', s', known', h1', h2', h3'⟩ := exists_mesh t'' 0 B
  rw [he] at hc
  have hg := ((boundary_spec' hr.ok.1 hr.ok.2 (by omega) h1 h2 hc).1 t'' B (hb.trans hB)).1
  refine ⟨[[0, 0], [1, 0], [0, 1], [-1, 0], [0, -1]], t', t'', nodes, cs, B, m, m', s, s', known, known', by decide +kernel, hd,
    by unfold NoCommonFaces; decide +kernel, hl, h1, h2, hb.trans hB, h1', h2', ?_⟩
  rw [boundarySize_spec hg.ok hg.std h1' h2' hsz.1, hsz.2]

/-- the start of a program is a topology in which the ball is loaded -/
example : VReachable (Topo.init (List.range 108013)) ∧ Fresh (Topo.init (List.range 108013)) 108013 :=
  ⟨⟨_, [], by simp, rfl⟩, by simp [Topo.init], (List.nodup_range).sublist (List.take_sublist _ _),
    fun i _ N => by simp [Topo.init, Level.empty]⟩

end Mito.Load
