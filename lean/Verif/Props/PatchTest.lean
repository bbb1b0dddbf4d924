import Verif.Fem.PatchTestLemmas
import Verif.Props.Stokes
import Verif.Props.Dirichlet
import Verif.Spec.PatchTest

/-!
# C82: the patch test

On every mesh of segments or triangles of positive length or area, affine functions satisfy the discrete equations at all nodes off the
boundary.
-/

namespace Mito.Fem

open Mito.Functions Mito.Discretizer Mito.Meshes Mito.DiscreteSystem Mito.Topology

variable {t : Topo} {m : Mesh GCell} {s : SegVec.Abs GCell} {known : Finset Nat} {cells : List GCell}
  {alloc : List Nat → Nat} {other : List Nat}

/-- sums over triangles of weighted fluxes through the edges vanish if the weights do on the boundary -/
theorem sum_edges_zero (ht : VReachable t) (hm : Reachable (facets t 1) m s known) (hcl : m.cellList = some cells)
    (hcell : ∀ c ∈ cells, CellOk t 2 c) (hnd : (cells.flatMap (facets t 1)).Nodup) {t' : Topo} {B : List GCell}
    (h : boundary t 1 m = some (t', B)) (p : Id → Val (.vec 2)) (hp : ∀ c ∈ cells, t.sg 2 c.simplex = 1) (g : Fin 2 → ℝ)
    {q : Id → Id → ℝ} (hq : ∀ a b, q a b = q b a) (h0 : ∀ b ∈ B, ∀ x y, b.nodes = [x, y] → q x.vertex y.vertex = 0) (W : ℝ)
    {F : GCell → ℝ} (hF : ∀ c ∈ cells, ∀ x y z, c.nodes = [x, y, z] →
      F c = W * (q x.vertex y.vertex * (g 0 * (p y.vertex 1 - p x.vertex 1) - g 1 * (p y.vertex 0 - p x.vertex 0)) +
        q y.vertex z.vertex * (g 0 * (p z.vertex 1 - p y.vertex 1) - g 1 * (p z.vertex 0 - p y.vertex 0)) +
        q z.vertex x.vertex * (g 0 * (p x.vertex 1 - p z.vertex 1) - g 1 * (p x.vertex 0 - p z.vertex 0)))) :
    (cells.map F).sum = 0 := by
  obtain ⟨ok, st⟩ := ht.ok
  have hst := stokes_triangles ht hm hcl hcell hnd t' B h (weightedFlux q g p) (weightedFlux_alternating hq g p)
  have h0 : (B.map fun d => weightedFlux q g p d.vertices).sum = 0 := by
    refine List.sum_eq_zero fun y hy => ?_
    obtain ⟨b, hb, rfl⟩ := List.mem_map.mp hy
    obtain ⟨x, y, hn, -⟩ := nodes_pair (boundary_nodes ht (by omega) hm hcl hcell h b hb).1
    simp only [GCell.vertices, hn, List.map_cons, List.map_nil, weightedFlux, h0 b hb x y hn, zero_mul]
  rw [h0] at hst
  rw [← mul_zero W, hst, ← List.sum_map_mul_left]
  refine congrArg List.sum (List.map_congr_left fun c hc => ?_)
  have hlen := (hcell c hc).length ok.inv st (by omega)
  match hn : c.nodes, hlen with
  | [x, y, z], _ =>
    rw [hF c hc x y z hn, hp c hc]
    simp only [GCell.vertices, hn, List.map_cons, List.map_nil, overEdges, weightedFlux]
    push_cast
    ring

/-- **C82.**  Linear triangles, for every rule. -/
theorem patch_tri1 (ht : VReachable t) (hm : Reachable (facets t 1) m s known) (hcl : m.cellList = some cells)
    (hcell : ∀ c ∈ cells, CellOk t 2 c) (hnd : (cells.flatMap (facets t 1)).Nodup) {t' : Topo} {B : List GCell}
    (h : boundary t 1 m = some (t', B)) (p : Id → Val (.vec 2))
    (hp : ∀ c ∈ cells, t.sg 2 c.simplex = 1 ∧ 0 < Meshes.area p c.vertices) (hone : OneNode cells)
    (ha : ∀ l, alloc l ∉ l) (ho : other.Nodup) (rule : Rule 2) :
    PassesPatchTest rule nodesRef (discretizeTri1 alloc other p cells B) := by
  have hBn := boundary_nodes ht (by omega) hm hcl hcell h
  obtain ⟨φ, h1, h2⟩ := discretize_p1 ha ho fun b hb => (hBn b hb).2.2
  unfold discretizeTri1
  simp only [h1, h2, collect]
  refine ⟨_, _, rfl, fun f c g u w hu hw => ?_⟩
  rw [spaceOf_map] at hu
  rw [form_poisson, spaceOf_map, List.map_map]
  refine sum_edges_zero ht hm hcl hcell hnd h p (fun c hc => (hp c hc).1) g
    (q := fun a b => (w (φ (nodeAt cells a)) + w (φ (nodeAt cells b))) / 2) (fun a b => by rw [add_comm]) ?_
    (rule.map fun q => q.2).sum ?_
  · intro b hb x y hn
    obtain ⟨-, -, c, hc, hsub⟩ := hBn b hb
    rw [hn] at hsub
    have hz : ∀ z ∈ [x, y], w (φ z.id) = 0 := fun z hz => hw _ (List.mem_map.mpr
      ⟨z.id, List.mem_flatMap.mpr ⟨b, hb, List.mem_map.mpr ⟨z, by rw [hn]; exact hz, rfl⟩⟩, rfl⟩)
    rw [nodeAt_eq hone hc (hsub x (by simp)), nodeAt_eq hone hc (hsub y (by simp)), hz x (by simp), hz y (by simp)]
    simp
  · intro e he x y z hn
    have hm : ∀ v ∈ [x, y, z], nodeAt cells v.vertex = v.id := fun v hv => nodeAt_eq hone he (by rw [hn]; exact hv)
    have hu' := hu _ (List.mem_map.mpr ⟨e, he, rfl⟩)
    simp only [(parametrization_nodes).2.1] at hu'
    simp only [Function.comp, hu']
    rw [residual_tri1 rule (positive_triangle (hp e he).2).ne' c g]
    rw [hm x (by simp), hm y (by simp), hm z (by simp)]
    simp [ids, hn, positions]

/-- **C82.**  Quadratic triangles, for every rule with the right centroid. -/
theorem patch_tri2 (ht : VReachable t) (hm : Reachable (facets t 1) m s known) (hcl : m.cellList = some cells)
    (hcell : ∀ c ∈ cells, CellOk t 2 c) (hnd : (cells.flatMap (facets t 1)).Nodup) {t' : Topo} {B : List GCell}
    (h : boundary t 1 m = some (t', B)) (p : Id → Val (.vec 2))
    (hp : ∀ c ∈ cells, t.sg 2 c.simplex = 1 ∧ 0 < Meshes.area p c.vertices) (hone : OneNode cells)
    (ha : ∀ l, alloc l ∉ l) (ho : other.Nodup) {rule : Rule 2} (hr : Centred rule) :
    PassesPatchTest rule (nodesTri2 nodesRef) (discretizeTri2 alloc other p cells B) := by
  obtain ⟨ok, st⟩ := ht.ok
  have hBn := boundary_nodes ht (by omega) hm hcl hcell h
  have hlen : ∀ c ∈ cells, c.nodes.length = 3 := fun c hc => (hcell c hc).length ok.inv st (by omega)
  obtain ⟨φ, l, h1, h2, h3⟩ := discretize_p2 ha ho hBn hlen
  unfold discretizeTri2
  simp only [h1, h2, collect]
  refine ⟨_, _, rfl, fun f c g u w hu hw => ?_⟩
  rw [spaceOf_map] at hu
  rw [form_poisson, spaceOf_map, List.map_map]
  refine sum_edges_zero ht hm hcl hcell hnd h p (fun c hc => (hp c hc).1) g
    (q := fun a b => (w (φ (.inl (nodeAt cells a))) + 4 * w (φ (.inr s(nodeAt cells a, nodeAt cells b))) +
      w (φ (.inl (nodeAt cells b)))) / 6) (fun a b => by rw [Sym2.eq_swap]; ring) ?_ (rule.map fun q => q.2).sum ?_
  · intro b hb x y hn
    obtain ⟨-, -, c, hc, hsub⟩ := hBn b hb
    rw [hn] at hsub
    obtain ⟨z1, z2, z3⟩ := h3 b hb x y hn
    rw [nodeAt_eq hone hc (hsub x (by simp)), nodeAt_eq hone hc (hsub y (by simp)), hw _ z1, hw _ z2, hw _ z3]
    simp
  · intro e he x y z hn
    have hm : ∀ v ∈ [x, y, z], nodeAt cells v.vertex = v.id := fun v hv => nodeAt_eq hone he (by rw [hn]; exact hv)
    have hu' := hu _ (List.mem_map.mpr ⟨e, he, rfl⟩)
    simp only [(parametrization_nodes).2.2] at hu'
    simp only [Function.comp, hu']
    rw [residual_tri2 rfl hr.first hr.second (positive_triangle (hp e he).2).ne' c g]
    rw [hm x (by simp), hm y (by simp), hm z (by simp)]
    simp [triple, places, ids, hn, positions]

/-- **C82.**  Segments, for every rule. -/
theorem patch_seg1 (ht : VReachable t) (hm : Reachable (facets t 0) m s known) (hcl : m.cellList = some cells)
    (hcell : ∀ c ∈ cells, CellOk t 1 c) (hnd : (cells.flatMap (facets t 0)).Nodup) {t' : Topo} {B : List GCell}
    (h : boundary t 0 m = some (t', B)) (p : Id → Val (.vec 1))
    (hp : ∀ c ∈ cells, t.sg 1 c.simplex = 1 ∧ 0 < extent (fun v => p v 0) c.vertices) (hone : OneNode cells)
    (ha : ∀ l, alloc l ∉ l) (ho : other.Nodup) (rule : Rule 1) :
    PassesPatchTest rule nodesSeg1 (discretizeSeg1 alloc other p cells B) := by
  obtain ⟨ok, st⟩ := ht.ok
  have hBn := boundary_nodes ht (by omega) hm hcl hcell h
  obtain ⟨φ, h1, h2⟩ := discretize_p1 ha ho fun b hb => (hBn b hb).2.2
  unfold discretizeSeg1
  simp only [h1, h2, collect]
  refine ⟨_, _, rfl, fun f c g u w hu hw => ?_⟩
  rw [spaceOf_map] at hu
  rw [form_poisson, spaceOf_map, List.map_map]
  have hst := stokes_segments ht hm hcl hcell hnd t' B h fun v => w (φ (nodeAt cells v))
  have h0 : (B.map fun d => (t.sg 0 d.simplex : ℝ) * atVertex (fun v => w (φ (nodeAt cells v))) d.vertices).sum = 0 := by
    refine List.sum_eq_zero fun y hy => ?_
    obtain ⟨b, hb, rfl⟩ := List.mem_map.mp hy
    obtain ⟨h3, -, c, hc, hsub⟩ := hBn b hb
    match hn : b.nodes, h3 with
    | [x], _ =>
      have hz : w (φ x.id) = 0 := hw _ (List.mem_map.mpr
        ⟨x.id, List.mem_flatMap.mpr ⟨b, hb, List.mem_map.mpr ⟨x, by rw [hn]; simp, rfl⟩⟩, rfl⟩)
      simp only [GCell.vertices, hn, List.map_cons, List.map_nil, atVertex]
      rw [nodeAt_eq hone hc (hsub x (by rw [hn]; simp)), hz, mul_zero]
  rw [h0] at hst
  rw [← mul_zero ((rule.map fun q => q.2).sum * g 0), hst, ← List.sum_map_mul_left]
  refine congrArg List.sum (List.map_congr_left fun e he => ?_)
  have hlen := (hcell e he).length ok.inv st (by omega)
  match hn : e.nodes, hlen with
  | [x, y], _ =>
    have hm : ∀ v ∈ [x, y], nodeAt cells v.vertex = v.id := fun v hv => nodeAt_eq hone he (by rw [hn]; exact hv)
    have hu' := hu _ (List.mem_map.mpr ⟨e, he, rfl⟩)
    simp only [(parametrization_nodes).1] at hu'
    have hpos := (hp e he).2
    simp only [GCell.vertices, hn, List.map_cons, List.map_nil, extent] at hpos
    have hl : length (positions 2 p e) = p y.vertex 0 - p x.vertex 0 := by simp [length, positions, hn]
    simp only [Function.comp, hu', gradGrad_seg1 rule _ (hl ▸ hpos.ne'), (hp e he).1, hl]
    simp only [GCell.vertices, hn, List.map_cons, List.map_nil, overEnds]
    rw [hm x (by simp), hm y (by simp)]
    simp [ids, hn, positions, Fin.sum_univ_two, affine]
    field_simp
    ring

/-- the rules of mito with one and three points have the right centroid -/
theorem rules_centred : Centred Quadrature.triangle1.rule ∧ Centred Quadrature.triangle2.rule := by
  refine ⟨⟨?_, ?_⟩, ⟨?_, ?_⟩⟩ <;> simp [Quadrature.Table.rule, Quadrature.triangle1, Quadrature.triangle2] <;> norm_num

/-- three triangles around the vertex `3` -/
@[irreducible] def exFan : Topo := exTopo [.triangle 0 1 3, .triangle 1 2 3, .triangle 2 0 3]
def exCellsFan : List GCell :=
  [⟨17, [exNode 0, exNode 1, exNode 3]⟩, ⟨26, [exNode 1, exNode 2, exNode 3]⟩, ⟨32, [exNode 2, exNode 0, exNode 3]⟩]

theorem exFan_reachable : VReachable exFan := by
  unfold exFan; exact exTopo_reachable _ (by decide) (by decide +kernel)

/-- the positions of its vertices -/
noncomputable def exFanPositions : Id → Val (.vec 2)
  | 0 => ![0, 0]
  | 1 => ![3, 0]
  | 2 => ![0, 3]
  | _ => ![1, 1]

theorem exFan_positive : ∀ c ∈ exCellsFan, exFan.sg 2 c.simplex = 1 ∧ 0 < Meshes.area exFanPositions c.vertices := by
  have h : ∀ c ∈ exCellsFan, exFan.sg 2 c.simplex = 1 := by decide +kernel
  refine fun c hc => ⟨h c hc, ?_⟩
  have e : c.vertices = [0, 1, 3] ∨ c.vertices = [1, 2, 3] ∨ c.vertices = [2, 0, 3] := by
    revert c
    decide +kernel
  rcases e with e | e | e <;> rw [e, Meshes.area] <;>
  norm_num [Geometry.simplexVolume, exFanPositions, Matrix.det_fin_two, Nat.factorial]

/-- the theorems apply to a mesh with a node off the boundary -/
example : ∃ m s known t' B, VReachable exFan ∧ Reachable (facets exFan 1) m s known ∧ m.cellList = some exCellsFan ∧
    (∀ c ∈ exCellsFan, CellOk exFan 2 c) ∧ (exCellsFan.flatMap (facets exFan 1)).Nodup ∧ boundary exFan 1 m = some (t', B) ∧
    B.map (fun b => b.vertices) = [[0, 1], [1, 2], [2, 0]] ∧
    PassesPatchTest Quadrature.triangle1.rule nodesRef (discretizeTri1 exAlloc [] exFanPositions exCellsFan B) ∧
    PassesPatchTest Quadrature.triangle2.rule (nodesTri2 nodesRef) (discretizeTri2 exAlloc [] exFanPositions exCellsFan B) := by
  obtain ⟨m, s, known, h1, h2, h3⟩ := exists_mesh exFan 1 exCellsFan
  have hb : (boundary exFan 1 m).map (fun r => r.2.map fun b => b.vertices) = some [[0, 1], [1, 2], [2, 0]] := by
    rw [boundary_congr (m' := exMeshOf exFan 1 exCellsFan) (by rw [h2]; decide +kernel) (by rw [h3]; rfl)]
    decide +kernel
  obtain ⟨⟨t', B⟩, hB, hv⟩ := Option.map_eq_some_iff.mp hb
  have hc : ∀ c ∈ exCellsFan, CellOk exFan 2 c := by decide +kernel
  have hn : (exCellsFan.flatMap (facets exFan 1)).Nodup := by decide +kernel
  exact ⟨m, s, known, t', B, exFan_reachable, h1, h2, hc, hn, hB, hv,
    patch_tri1 exFan_reachable h1 h2 hc hn hB exFanPositions exFan_positive (by unfold OneNode; decide +kernel) exAlloc_fresh
      List.nodup_nil _,
    patch_tri2 exFan_reachable h1 h2 hc hn hB exFanPositions exFan_positive (by unfold OneNode; decide +kernel) exAlloc_fresh
      List.nodup_nil rules_centred.2⟩

end Mito.Fem
