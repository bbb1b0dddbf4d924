import Verif.Mesh.LoadLemmas
import Verif.Props.SummitDamaged
import Verif.Props.QuadraticConvergence
import Verif.Mesh.SquareLemmas
import Verif.Fem.PoissonBenchmarkLemmas

/-!
# C98: meshes read from files

From the numbers in a Summit file to the error of the solution of the Poisson problem on the mesh in the file.
-/

namespace Mito.Load

open Mito.Topology Mito.Meshes Mito.Functions Mito.Fem Mito.Quadrature
open Mito.Summit (reader squareFile Token)

/-- **C98.**  Loading succeeds for every list of triangles on different sets of nodes, whatever is in the topology before, and keeps what
is there.  The triangles are in the order of the file and the area of the mesh is the sum of their signed areas: their orientations are not
checked. -/
theorem load_succeeds {t : Topo} (h : VReachable t) {as : List Nat} {cells : List (List Nat)}
    (hc : ∀ c ∈ cells, c.length = 3 ∧ (∀ i ∈ c, i < as.length) ∧ c.Nodup) (hd : cells.Pairwise fun c c' => c.toFinset ≠ c'.toFinset) {k : Nat}
    (hf : Fresh t (k + (as.length + 58 * cells.length))) :
    ∃ t' nodes cs, load t as cells = some (t', nodes, cs) ∧ VReachable t' ∧ Grows t t' ∧ Fresh t' k ∧ nodes.map (·.id) = as ∧
      (nodes.map (·.vertex)).Nodup ∧ List.Forall₂ (Loaded t' nodes) cells cs ∧
      ∀ coords, areaOf cs (place coords nodes) = ((cells.map (doubleArea coords)).sum : ℚ) / 2 := by
  obtain ⟨t1, nodes, a1, a2, a3, a4, a5, a6, a7, a8⟩ := makeNodes_spec h (k := k + 58 * cells.length) as (hf.mono (by omega))
  have hlen : nodes.length = as.length := by
    have := congrArg List.length a5
    simpa only [List.length_map] using this
  rw [← hlen] at hc
  obtain ⟨t2, cs, b1, b2, b3, b4, b5⟩ := makeCells_spec a2 (k := k) cells a3 (fun n hn => (a7 n hn).1) a6 hc
    (distinct_sets a6 (fun c hm => (hc c hm).2.1) hd) (by
      intro f hf c hm e
      have hf' : f ∈ (t.lvl 2).fps := by rw [← a8 1]; exact hf
      obtain ⟨h3, hi, -⟩ := hc c hm
      match c, h3 with
      | [i, j, k], _ =>
        have hv : vertexAt nodes i ∈ VS t1 2 f := by
          rw [e]
          simp [vertexSetOf, vertexAt]
        have e2 : VS t1 2 f = VS t 2 f := by
          simp only [VS]
          rw [← vertexSet_le h.ok.1.inv a4 hf']
          rfl
        rw [e2] at hv
        have hi' := hi i (by simp)
        have := (a7 nodes[i] (List.getElem_mem hi')).2
        rw [← vertexAt_node (List.getElem?_eq_getElem hi')] at this
        exact this (vertexSet_live h.ok.1.inv hf' (by simpa [VS] using hv)))
  refine ⟨t2, nodes, cs, by simp only [load, a1, b1], b2, a4.trans b4, b3, a5, a6, b5, fun coords => ?_⟩
  clear b1 hc hd hf a3
  induction b5 with
  | nil => simp [areaOf]
  | cons hL _ ih =>
    simp only [areaOf, List.map_cons, List.sum_cons] at ih ⊢
    rw [ih, hL.area (coords := coords) a6]
    push_cast
    ring

/-- **C98.**  If the triangles have positive areas and no common directed edges, the mesh is a triangulation with the nodes at the
coordinates read.  The segments of its boundary are the edges of one triangle only, in the direction of that triangle. -/
theorem load_triangulates {t : Topo} (h : VReachable t) {as : List Nat} (ha : as.Nodup) {coords : List (List ℚ)} {cells : List (List Nat)}
    (hl : as.length = coords.length) (hc : ∀ c ∈ cells, c.length = 3 ∧ ∀ i ∈ c, i < coords.length) (hok : Conforming coords cells)
    (hf : Fresh t (as.length + 232 * cells.length)) :
    ∃ t' nodes cs B, load t as cells = some (t', nodes, cs) ∧ Triangulates t' cs B (place coords nodes) ∧
      nodes.map (·.id) = as ∧ (nodes.map (·.vertex)).Nodup ∧ List.Forall₂ (Loaded t' nodes) cells cs ∧
      (B.map GCell.vertices).Perm ((outer cells).map fun e => [vertexAt nodes e.1, vertexAt nodes e.2]) ∧
      areaOf cs (place coords nodes) = ((cells.map (doubleArea coords)).sum : ℚ) / 2 := by
  obtain ⟨t2, nodes, cs, a1, b2, -, b3, a5, a6, b5, a7⟩ := load_succeeds h (as := as) (cells := cells) (k := 58 * 3 * cells.length)
    (fun c hm => ⟨(hc c hm).1, by rw [hl]; exact (hc c hm).2, positive_nodup (hok.1 c hm)⟩) (conforming_sets (fun c hm => (hc c hm).1) hok)
    (hf.mono (by omega))
  have hlen : nodes.length = coords.length := by
    have := congrArg List.length a5
    simp only [List.length_map] at this
    rw [this, hl]
  have hr : ∀ c ∈ cells, ∀ i ∈ c, i < nodes.length := fun c hm => by rw [hlen]; exact (hc c hm).2
  have hlc : cs.length = cells.length := b5.length_eq.symm
  have hcell : ∀ c ∈ cs, CellOk t2 2 c := by
    intro c hm
    obtain ⟨index, -, hL⟩ := forall₂_mem b5 hm
    obtain ⟨l', e1, e2⟩ := OfVertices_vertices hL.tri
    exact ⟨hL.live, by simp [GCell.sanityCheck, e1, e2]⟩
  obtain ⟨m, s, known, m1, m2, -⟩ := exists_mesh t2 1 cs
  obtain ⟨s1, s2⟩ := boundary_spec' b2.ok.1 b2.ok.2 (by norm_num : 1 ≤ 2) m1 m2 hcell
  obtain ⟨t3, B, hB, -⟩ := s2 0 (b3.mono (by rw [hlc]; omega))
  have hp := (s1 t3 B hB).2
  have hmem : ∀ c ∈ cs, ∀ x ∈ c.nodes, x ∈ nodes := by
    intro c hm x hx
    obtain ⟨index, -, hL⟩ := forall₂_mem b5 hm
    have : some x ∈ index.map fun i => nodes[i]? := by rw [hL.nodes]; exact List.mem_map_of_mem hx
    obtain ⟨i, -, e⟩ := List.mem_map.mp this
    exact List.mem_of_getElem? e
  refine ⟨t2, nodes, cs, B, a1, ⟨b2, ⟨m, s, known, t3, m1, m2, hB⟩, hcell,
    facets_nodup b2.ok.1.inv a6 b5 hr hok.2, ?_, ?_, ?_⟩, a5, a6, b5, boundary_vertices b2.ok.1.inv b2.ok.2 a6 hr b5 hp, a7 coords⟩
  · intro c hm
    obtain ⟨index, hi, hL⟩ := forall₂_mem b5 hm
    refine ⟨hL.sign, ?_⟩
    have := hL.area (coords := coords) a6
    obtain ⟨i, j, k, x, y, z, -, e, -⟩ := hL.triple
    have h0 : (0 : ℝ) < (doubleArea coords index : ℝ) := by exact_mod_cast hok.1 index hi
    have h1 : Meshes.area (place coords nodes) c.vertices = triangleArea (positions 3 (place coords nodes) c) := by
      simp only [GCell.vertices, e, List.map_cons, List.map_nil, Meshes.area]
      refine (simplexVolume_area _).trans ?_
      simp [triangleArea, positions, e]
    rw [h1, this]
    linarith
  · intro c hm c' hm' x hx y hy e
    exact List.inj_on_of_nodup_map a6 (hmem c hm x hx) (hmem c' hm' y hy) e
  · intro c hm c' hm' x hx y hy e
    exact List.inj_on_of_nodup_map (f := (·.id)) (by rw [a5]; exact ha) (hmem c hm x hx) (hmem c' hm' y hy) e

/-- **C98.**  The sizes and shapes of the triangles are those in the file. -/
theorem load_fine {t : Topo} {coords : List (List ℚ)} {cells : List (List Nat)} {nodes : List Node} {cs : List GCell}
    (hn : (nodes.map (·.vertex)).Nodup) (h : List.Forall₂ (Loaded t nodes) cells cs) {r κ R : ℚ} (hr : 0 ≤ r) (hκ : 0 ≤ κ)
    (hp : ∀ c ∈ cells, 0 < doubleArea coords c) (hf : FineCells coords cells r κ R) : Fine cs (place coords nodes) r κ R := by
  intro c hc
  obtain ⟨index, hi, hL⟩ := forall₂_mem h hc
  obtain ⟨h1, h2⟩ := hf index hi
  -- the nodes of the cell
  have key : ∀ a : Fin 3, ∃ i ∈ index, ∀ k, positions 3 (place coords nodes) c a k = (coordinate coords i k : ℝ) := by
    obtain ⟨i, j, k, x, y, z, rfl, e, e1, e2, e3, -⟩ := hL.triple
    intro a
    fin_cases a
    · exact ⟨i, by simp, fun k => by simpa [positions, e] using place_at hn e1 k⟩
    · exact ⟨j, by simp, fun k => by simpa [positions, e] using place_at hn e2 k⟩
    · exact ⟨k, by simp, fun k => by simpa [positions, e] using place_at hn e3 k⟩
  refine ⟨⟨min (r : ℝ) (Real.sqrt (κ * triangleArea (positions 3 (place coords nodes) c))), min_le_left _ _, fun a b => ?_, ?_⟩, fun a k => ?_⟩
  · obtain ⟨i, hia, ea⟩ := key a
    obtain ⟨j, hjb, eb⟩ := key b
    have hbound : ∀ k : Fin 2, dist (positions 3 (place coords nodes) c a k) (positions 3 (place coords nodes) c b k) ≤
        min (r : ℝ) (Real.sqrt (κ * triangleArea (positions 3 (place coords nodes) c))) := by
      intro k
      obtain ⟨g1, g2⟩ := h1 i hia j hjb k k.2
      rw [ea, eb, Real.dist_eq]
      refine le_min ?_ (Real.le_sqrt_of_sq_le ?_)
      · exact_mod_cast g1
      · rw [sq_abs, hL.area (coords := coords) hn]
        have g3 : (2 : ℝ) * ((coordinate coords i k : ℝ) - coordinate coords j k) ^ 2 ≤ κ * doubleArea coords index := by exact_mod_cast g2
        linarith
    refine (dist_pi_le_iff ?_).mpr hbound
    exact le_min (by exact_mod_cast hr) (Real.sqrt_nonneg _)
  · have h0 : 0 ≤ κ * triangleArea (positions 3 (place coords nodes) c) := by
      rw [hL.area (coords := coords) hn]
      have : (0 : ℝ) < (doubleArea coords index : ℝ) := by exact_mod_cast hp index hi
      have : (0 : ℝ) ≤ κ := by exact_mod_cast hκ
      positivity
    refine (pow_le_pow_left₀ (le_min (by exact_mod_cast hr) (Real.sqrt_nonneg _)) (min_le_right _ _) 2).trans ?_
    rw [Real.sq_sqrt h0]
  · obtain ⟨i, hia, ea⟩ := key a
    rw [ea]
    exact_mod_cast h2 i hia k k.2

/-- **C98.**  A function that vanishes on the sides of the unit square satisfies the boundary condition. -/
theorem load_vanishes {coords : List (List ℚ)} {cells : List (List Nat)} {nodes : List Node} {B : List GCell}
    (hn : (nodes.map (·.vertex)).Nodup) (hl : ∀ c ∈ cells, ∀ i ∈ c, i < nodes.length)
    (hB : (B.map GCell.vertices).Perm ((outer cells).map fun e => [vertexAt nodes e.1, vertexAt nodes e.2]))
    (hs : OnSquare coords cells) {u : (Fin 2 → ℝ) → ℝ} (hu : ∀ y k, y k = 0 ∨ y k = 1 → u y = 0) :
    Vanishes2 B (place coords nodes) u := by
  intro b hb x hx y hy
  obtain ⟨e, he, eq⟩ := List.mem_map.mp (hB.subset (List.mem_map_of_mem hb))
  obtain ⟨k, hk, s, hs, h1, h2⟩ := hs e he
  obtain ⟨c, hc, m⟩ := List.mem_flatMap.mp (List.mem_of_mem_filter he)
  have hat : ∀ i, i < nodes.length → ∀ k : Fin 2, place coords nodes (vertexAt nodes i) k = (coordinate coords i k : ℝ) := by
    intro i hi k
    rw [vertexAt_node (List.getElem?_eq_getElem hi)]
    exact place_at hn (List.getElem?_eq_getElem hi) k
  have hk2 : k < 2 := by
    simp only [List.mem_cons, List.not_mem_nil, or_false] at hk
    omega
  have hv : ∀ x ∈ b.nodes, place coords nodes x.vertex ⟨k, hk2⟩ = (s : ℝ) := by
    intro x hx
    have : x.vertex ∈ b.vertices := List.mem_map.mpr ⟨x, hx, rfl⟩
    rw [← eq] at this
    simp only [List.mem_cons, List.not_mem_nil, or_false] at this
    rcases this with e3 | e3 <;> rw [e3]
    · rw [hat _ (hl c hc _ (edges_mem m).1)]
      exact_mod_cast h1
    · rw [hat _ (hl c hc _ (edges_mem m).2)]
      exact_mod_cast h2
  refine hu _ ⟨k, hk2⟩ ?_
  have : ((1 / 2 : ℝ) • (place coords nodes x.vertex + place coords nodes y.vertex) : Fin 2 → ℝ) ⟨k, hk2⟩ = (s : ℝ) := by
    rw [Pi.smul_apply, Pi.add_apply, hv x hx, hv y hy, smul_eq_mul]
    ring
  rw [this]
  simp only [List.mem_cons, List.not_mem_nil, or_false] at hs
  rcases hs with rfl | rfl <;> simp

/-- **C98.**  The benchmark: a constant, depending on the shape of the triangles only, is such that for every file with a mesh of the unit
square, whatever is in the topology before, the mesh is loaded and solved and the errors of the solution are of second order in the size of
the triangles. -/
theorem poisson_file {κ : ℚ} (hκ : 0 ≤ κ) :
    ∃ C : ℝ, ∀ (t : Topo) (as : List Nat) (file : List Token) (coords : List (List ℚ)) (cells : List (List Nat)) (h : ℚ)
      (alloc : List Nat → Nat) (other : List Nat),
      VReachable t → as.Nodup → reader 2 3 3 file = .ok (coords, cells) → as.length = coords.length →
      Fresh t (as.length + 232 * cells.length) → Conforming coords cells → FineCells coords cells h κ 1 → OnSquare coords cells →
      0 ≤ h → h ≤ 1 → (∀ l, alloc l ∉ l) → other.Nodup →
      ∃ t' nodes cs B, load t as cells = some (t', nodes, cs) ∧ Triangulates t' cs B (place coords nodes) ∧
        areaOf cs (place coords nodes) = ((cells.map (doubleArea coords)).sum : ℚ) / 2 ∧ B.length = (outer cells).length ∧
        SolvesWithin triangle2.rule (fun y => forcing.eval y ()) (fun y => exactSolution.eval y ())
          (C * ((cells.map (doubleArea coords)).sum : ℚ) * h ^ 4) (discretizeTri2 alloc other (place coords nodes) cs B) ∧
        SolvesWithinL2 triangle2.rule (fun y => forcing.eval y ()) exactSolution
          (C * ((cells.map (doubleArea coords)).sum : ℚ) * h ^ 4) (discretizeTri2 alloc other (place coords nodes) cs B) := by
  have hκ' : (0 : ℝ) ≤ κ := by exact_mod_cast hκ
  obtain ⟨C1, h1⟩ := poisson_order_tri2 rule_quadratic.1 rule_quadratic.2 exactSolution_smooth hκ' one_pos
  obtain ⟨C2, h2⟩ := poisson_order_tri2_l2 rule_quadratic.1 rule_quadratic.2 exactSolution exactSolution_smooth hκ' one_pos
  refine ⟨max C1 C2 / 2, fun t as file coords cells h alloc other ht ha hr hl hF hc hf hs h0 hle hal hot => ?_⟩
  obtain ⟨-, hv, -⟩ := Summit.reader_valid hr
  obtain ⟨t', nodes, cs, B, g1, g2, g3, g4, g5, g6, g7⟩ := load_triangulates ht ha hl hv hc hF
  have hlen : nodes.length = coords.length := by
    have := congrArg List.length g3
    simp only [List.length_map] at this
    rw [this, hl]
  have hfine := load_fine g4 g5 h0 hκ hc.1 hf
  have hvan := load_vanishes g4 (fun c hm => by rw [hlen]; exact (hv c hm).2) g6 hs exactSolution_vanishes
  have h0' : (0 : ℝ) ≤ h := by exact_mod_cast h0
  have hle' : (h : ℝ) ≤ 1 := by exact_mod_cast hle
  have hA := area_nonneg g2
  have e : ∀ i, i ≤ max C1 C2 → i * areaOf cs (place coords nodes) * (h : ℝ) ^ 4 ≤
      max C1 C2 / 2 * ((cells.map (doubleArea coords)).sum : ℚ) * (h : ℝ) ^ 4 := by
    intro i hi
    rw [show max C1 C2 / 2 * (((cells.map (doubleArea coords)).sum : ℚ) : ℝ) = max C1 C2 * areaOf cs (place coords nodes) by rw [g7]; ring]
    gcongr
  rw [Rat.cast_one] at hfine
  obtain ⟨sp, l, k1, k2⟩ := h1 t' cs B _ alloc other h g2 hfine h0' hle' hvan hal hot
  obtain ⟨sp', l', m1, m2⟩ := h2 t' cs B _ alloc other h g2 hfine h0' hle' hvan hal hot
  rw [source_benchmark] at k2 m2
  refine ⟨t', nodes, cs, B, g1, g2, g7, by simpa using g6.length_eq, ⟨sp, l, k1, fun sol hsol k => ?_⟩, ⟨sp', l', m1, fun sol hsol k => ?_⟩⟩
  · obtain ⟨S, U, n1, n2, n3⟩ := k2 sol hsol k
    exact ⟨S, U, n1, n2, n3.trans (e C1 (le_max_left _ _))⟩
  · obtain ⟨S, U, n1, n2, n3⟩ := m2 sol hsol k
    exact ⟨S, U, n1, n2, n3.trans (e C2 (le_max_right _ _))⟩

/-! ## The mesh of the benchmark -/

/-- **C98.**  The file of the benchmark is accepted, its mesh satisfies all conditions and has the area of the unit square.  The size of its
triangles is 0.12 at most. -/
theorem square_file : ∃ coords cells, reader 2 3 3 squareFile = .ok (coords, cells) ∧ coords.length = 142 ∧ cells.length = 242 ∧
    Conforming coords cells ∧ FineCells coords cells (12 / 100) 6 1 ∧ OnSquare coords cells ∧
    (cells.map (doubleArea coords)).sum = 2 :=
  ⟨squareMesh.1, squareMesh.2, square_read, square_lengths.1, square_lengths.2, square_conforming, square_fine, square_sides, square_area⟩

/-- **C98.**  The benchmark on its own file, at the start of a program. -/
theorem poisson_square : ∃ C : ℝ, ∀ (supply as : List Nat) (alloc : List Nat → Nat) (other : List Nat),
    supply.Nodup → 56286 ≤ supply.length → as.Nodup → as.length = 142 → (∀ l, alloc l ∉ l) → other.Nodup →
    ∃ t nodes cs B, load (Topo.init supply) as squareMesh.2 = some (t, nodes, cs) ∧
      Triangulates t cs B (place squareMesh.1 nodes) ∧ areaOf cs (place squareMesh.1 nodes) = 1 ∧ B.length = 40 ∧
      SolvesWithinL2 triangle2.rule (fun y => forcing.eval y ()) exactSolution (C * (12 / 100) ^ 4)
        (discretizeTri2 alloc other (place squareMesh.1 nodes) cs B) := by
  obtain ⟨C, hC⟩ := poisson_file (κ := 6) (by norm_num)
  refine ⟨C * 2, fun supply as alloc other hs hlen ha hal h1 h2 => ?_⟩
  have hR : VReachable (Topo.init supply) := ⟨supply, [], by simp, rfl⟩
  have hF : Fresh (Topo.init supply) (as.length + 232 * squareMesh.2.length) := by
    rw [hal, square_lengths.2]
    exact ⟨hlen, hs.sublist (List.take_sublist _ _), fun i _ N => by simp [Topo.init, Level.empty]⟩
  obtain ⟨t, nodes, cs, B, g1, g2, g3, g4, -, g5⟩ := hC (Topo.init supply) as squareFile squareMesh.1 squareMesh.2 (12 / 100) alloc other
    hR ha square_read (by rw [hal, square_lengths.1]) hF square_conforming square_fine square_sides (by norm_num) (by norm_num) h1 h2
  rw [square_area] at g3 g5
  refine ⟨t, nodes, cs, B, g1, g2, by rw [g3]; norm_num, by rw [g4, square_outer], ?_⟩
  obtain ⟨sp, l, n1, n2⟩ := g5
  refine ⟨sp, l, n1, fun sol hsol k => ?_⟩
  obtain ⟨S, U, o1, o2, o3⟩ := n2 sol hsol k
  refine ⟨S, U, o1, o2, o3.trans (le_of_eq ?_)⟩
  norm_num

/-- **C98.**  Triangles in clockwise order are accepted, and then the area of the mesh is negative. -/
theorem clockwise_accepted : ∃ (file : List Token) (coords : List (List ℚ)) (cells : List (List Nat)),
    reader 2 3 3 file = .ok (coords, cells) ∧ ∀ t as, VReachable t → as.length = coords.length → Fresh t 61 →
      ∃ t' nodes cs, load t as cells = some (t', nodes, cs) ∧ areaOf cs (place coords nodes) = -1 / 2 := by
  refine ⟨[.num 2, .num 3, .num 1, .num 1, .num 0, .num 0, .num 0, .num 1, .num 1, .num 0, .num 3, .num 1, .num 2, .num 3, .num 1],
    [[0, 0], [0, 1], [1, 0]], [[0, 1, 2]], by decide +kernel, fun t as ht ha hf => ?_⟩
  obtain ⟨t', nodes, cs, h1, -, -, -, -, -, -, h2⟩ := load_succeeds ht (as := as) (cells := [[0, 1, 2]]) (k := 0)
    (by rw [ha]; decide) (by simp) (by simpa [ha] using hf)
  refine ⟨t', nodes, cs, h1, ?_⟩
  rw [h2]
  norm_num [doubleArea, coordinate]

end Mito.Load
