import Verif.Fem.DiscontinuousLemmas
import Verif.Props.Load

/-!
# C101: discontinuous meshes

A mesh read with `reader<cellT, DG>` has the simplices of the continuous one, but every cell has nodes of its own.  With the boundary of the
mesh constrained, the Poisson problem on it is solvable exactly if every cell has a facet on the boundary.
-/

set_option linter.unusedVariables false

namespace Mito.Fem

open Mito.Functions Mito.Discretizer Mito.Meshes Mito.DiscreteSystem Mito.Topology

variable {t : Topo} {m : Mesh GCell} {s : SegVec.Abs GCell} {known : Finset Nat} {cells : List GCell}
  {alloc : List Nat → Nat} {other : List Nat}

theorem solvableIff_of {d n : Nat} {rule : Rule d} {space : Space Nat d n} {l : List Nat} {P : Prop} (hs : ∀ ec ∈ space, Stiff rule ec.1)
    (hA : Anchored (functionSpace space l) ↔ P) : SolvableIff P rule (.ok (space, l)) :=
  ⟨space, l, rfl, fun f => (poisson_wellposed hs).trans hA⟩

/-- **C101.**  Segments. -/
theorem discontinuous_seg1 (ht : VReachable t) (hm : Reachable (facets t 0) m s known) (hcl : m.cellList = some cells)
    (hcell : ∀ c ∈ cells, CellOk t 1 c) {t' : Topo} {B : List GCell} (h : boundary t 0 m = some (t', B)) (p : Id → Val (.vec 1))
    (hp : ∀ c ∈ cells, 0 < extent (fun v => p v 0) c.vertices) (hone : Private cells)
    (ha : ∀ l, alloc l ∉ l) (ho : other.Nodup) {rule : Rule 1} (hw : ∀ q ∈ rule, 0 ≤ q.2) (hr : ∃ q ∈ rule, 0 < q.2) :
    SolvableIff (∀ c ∈ cells, Touches t 0 cells c) rule (discretizeSeg1 alloc other p cells B) := by
  obtain ⟨ok, st⟩ := ht.ok
  obtain ⟨l, h1, h2⟩ := private_p1 ha ho hone (fun b hb => (boundary_nodes ht (by omega) hm hcl hcell h b hb).2.2)
    (fun c => segP1 (positions 2 p c)) (by omega) (fun c hc => (hcell c hc).length ok.inv st (by omega))
  unfold discretizeSeg1
  simp only [h1, collect]
  refine solvableIff_of ?_ (h2.trans (forall₂_congr fun c hc => (touches_iff ht (by omega) hm hcl hcell h hone hc).symm))
  intro ec hec
  obtain ⟨c, hc, he⟩ := mem_spaceOf hec
  rw [he]
  refine stiff_seg1 hw hr ?_
  have := hp c hc
  match hv : c.vertices with
  | [] | [_] | _ :: _ :: _ :: _ => rw [hv] at this; simp [extent] at this
  | [a, b] =>
    rw [hv, extent] at this
    rw [GCell.vertices] at hv
    simpa [length, positions, hv] using this

/-- **C101.**  Linear triangles. -/
theorem discontinuous_tri1 (ht : VReachable t) (hm : Reachable (facets t 1) m s known) (hcl : m.cellList = some cells)
    (hcell : ∀ c ∈ cells, CellOk t 2 c) {t' : Topo} {B : List GCell} (h : boundary t 1 m = some (t', B)) (p : Id → Val (.vec 2))
    (hp : ∀ c ∈ cells, 0 < Meshes.area p c.vertices) (hone : Private cells)
    (ha : ∀ l, alloc l ∉ l) (ho : other.Nodup) {rule : Rule 2} (hw : ∀ q ∈ rule, 0 ≤ q.2) (hr : ∃ q ∈ rule, 0 < q.2) :
    SolvableIff (∀ c ∈ cells, Touches t 1 cells c) rule (discretizeTri1 alloc other p cells B) := by
  obtain ⟨ok, st⟩ := ht.ok
  obtain ⟨l, h1, h2⟩ := private_p1 ha ho hone (fun b hb => (boundary_nodes ht (by omega) hm hcl hcell h b hb).2.2)
    (fun c => triP1 (positions 3 p c)) (by omega) (fun c hc => (hcell c hc).length ok.inv st (by omega))
  unfold discretizeTri1
  simp only [h1, collect]
  refine solvableIff_of ?_ (h2.trans (forall₂_congr fun c hc => (touches_iff ht (by omega) hm hcl hcell h hone hc).symm))
  intro ec hec
  obtain ⟨c, hc, he⟩ := mem_spaceOf hec
  rw [he]
  exact stiff_tri1 hw hr (positive_triangle (hp c hc))

/-- **C101.**  Quadratic triangles, if the quadrature points are not on one line. -/
theorem discontinuous_tri2 (ht : VReachable t) (hm : Reachable (facets t 1) m s known) (hcl : m.cellList = some cells)
    (hcell : ∀ c ∈ cells, CellOk t 2 c) {t' : Topo} {B : List GCell} (h : boundary t 1 m = some (t', B)) (p : Id → Val (.vec 2))
    (hp : ∀ c ∈ cells, 0 < Meshes.area p c.vertices) (hone : Private cells)
    (ha : ∀ l, alloc l ∉ l) (ho : other.Nodup) {rule : Rule 2} (hw : ∀ q ∈ rule, 0 ≤ q.2) (hr : ¬ Collinear rule) :
    SolvableIff (∀ c ∈ cells, Touches t 1 cells c) rule (discretizeTri2 alloc other p cells B) := by
  obtain ⟨ok, st⟩ := ht.ok
  obtain ⟨l, h1, h2⟩ := private_p2 ha ho hone (boundary_nodes ht (by omega) hm hcl hcell h)
    (fun c hc => (hcell c hc).length ok.inv st (by omega)) (fun c => triP2 (positions 3 p c))
  unfold discretizeTri2
  simp only [h1, collect]
  refine solvableIff_of ?_ (h2.trans (forall₂_congr fun c hc => (touches_iff ht (by omega) hm hcl hcell h hone hc).symm))
  intro ec hec
  obtain ⟨c, hc, he⟩ := mem_spaceOf hec
  rw [he]
  exact stiff_tri2 hw hr (positive_triangle (hp c hc))

end Mito.Fem

namespace Mito.Load

open Mito.Topology Mito.Meshes Mito.Functions Mito.Fem Mito.Quadrature
open Mito.Summit (reader squareFile Token)

/-- **C101.**  Loading a discontinuous mesh succeeds whenever loading the continuous one does.  The cells are on the simplices that they
would be on in the continuous mesh, with new nodes on the same vertices. -/
theorem discontinuous_succeeds {t : Topo} (h : VReachable t) {as : List Nat} {new cells : List (List Nat)}
    (hc : ∀ c ∈ cells, c.length = 3 ∧ (∀ i ∈ c, i < as.length) ∧ c.Nodup) (hd : cells.Pairwise fun c c' => c.toFinset ≠ c'.toFinset)
    (hal : List.Forall₂ (fun a c => a.length = c.length) new cells) {k : Nat} (hf : Fresh t (k + (as.length + 58 * cells.length))) :
    ∃ t' nodes cs, loadDG t as new cells = some (t', nodes, List.zipWith renewed new cs) ∧ VReachable t' ∧ Grows t t' ∧ Fresh t' k ∧
      nodes.map (·.id) = as ∧ (nodes.map (·.vertex)).Nodup ∧ List.Forall₂ (Loaded t' nodes) cells cs := by
  obtain ⟨t1, nodes, a1, a2, a3, a4, a5, a6, a7, a8⟩ := makeNodes_spec h (k := k + 58 * cells.length) as (hf.mono (by omega))
  have hlen : nodes.length = as.length := by
    have := congrArg List.length a5
    simpa only [List.length_map] using this
  rw [← hlen] at hc
  obtain ⟨t2, cs, b1, b2, b3, b4, b5⟩ := makeCellsDG_spec a2 (k := k) new cells hal (makeNodes_held a1).1 a3 (fun n hn => (a7 n hn).1) a6 hc
    (distinct_sets a6 (fun c hm => (hc c hm).2.1) hd) (by
      intro f hf c hm e
      have hf' : f ∈ (t.lvl 2).fps := by rw [← a8 1]; exact hf
      obtain ⟨h3, hi, -⟩ := hc c hm
      match c, h3 with
      | [i, j, k], _ =>
        have hv : vertexAt nodes i ∈ VS t1 2 f := by
          rw [e]
          simp [vertexSetOf, vertexAt]
        have e2 : VS t1 2 f = VS t 2 f := by
          simp only [VS]
          rw [← vertexSet_le h.ok.1.inv a4 hf']
          rfl
        rw [e2] at hv
        have hi' := hi i (by simp)
        have := (a7 nodes[i] (List.getElem_mem hi')).2
        rw [← vertexAt_node (List.getElem?_eq_getElem hi')] at this
        exact this (vertexSet_live h.ok.1.inv hf' (by simpa [VS] using hv)))
  exact ⟨t2, nodes, cs, by simp only [loadDG, a1, b1], b2, a4.trans b4, b3, a5, a6, b5⟩

theorem forall₂_zip {t : Topo} {nodes : List Node} {new cells : List (List Nat)} {cs : List GCell}
    (hal : List.Forall₂ (fun a c => a.length = c.length) new cells) (h : List.Forall₂ (Loaded t nodes) cells cs) :
    List.Forall₂ (fun a c => a.length = c.nodes.length) new cs := by
  induction hal generalizing cs with
  | nil => cases h; exact .nil
  | cons h1 _ ih =>
    cases h with
    | cons h2 h3 =>
      refine .cons ?_ (ih h3)
      have := congrArg List.length h2.nodes
      simp only [List.length_map] at this
      rw [h1, this]

theorem simplices_renewed {new : List (List Nat)} {cs : List GCell} (h : List.Forall₂ (fun a c => a.length = c.nodes.length) new cs) :
    (List.zipWith renewed new cs).map (·.simplex) = cs.map (·.simplex) := by
  induction h with
  | nil => rfl
  | cons _ _ ih => simpa [renewed] using ih

theorem mem_renewed {new : List (List Nat)} {cs : List GCell} (h : List.Forall₂ (fun a c => a.length = c.nodes.length) new cs) {g : GCell}
    (hg : g ∈ List.zipWith renewed new cs) : ∃ c ∈ cs, ∃ a : List Nat, a.length = c.nodes.length ∧ g = renewed a c := by
  induction h with
  | nil => simp at hg
  | cons h1 _ ih =>
    rcases List.mem_cons.mp hg with rfl | hg
    · exact ⟨_, by simp, _, h1, rfl⟩
    · obtain ⟨c, hc, r⟩ := ih hg
      exact ⟨c, by simp [hc], r⟩

theorem nodes_renewed {new : List (List Nat)} {cs : List GCell} (h : List.Forall₂ (fun a c => a.length = c.nodes.length) new cs) :
    (List.zipWith renewed new cs).flatMap ids = new.flatten := by
  induction h with
  | nil => rfl
  | cons h1 _ ih => simp only [List.zipWith_cons_cons, List.flatMap_cons, List.flatten_cons, ih, ids, ids_renewed h1]

theorem area_renewed {t : Topo} {coords : List (List ℚ)} {nodes : List Node} (hn : (nodes.map (·.vertex)).Nodup)
    {new cells : List (List Nat)} {cs : List GCell} (h : List.Forall₂ (Loaded t nodes) cells cs)
    (hz : List.Forall₂ (fun a c => a.length = c.nodes.length) new cs) :
    areaOf (List.zipWith renewed new cs) (place coords nodes) = ((cells.map (doubleArea coords)).sum : ℚ) / 2 := by
  induction hz generalizing cells with
  | nil => cases h; simp [areaOf]
  | cons h1 _ ih =>
    cases h with
    | cons hL h =>
      have := ih h
      simp only [areaOf, List.zipWith_cons_cons, List.map_cons, List.sum_cons] at this ⊢
      rw [this]
      have e := hL.area (coords := coords) hn
      unfold Fem.positions at e ⊢
      rw [vertices_renewed h1, e]
      push_cast
      ring

theorem private_renewed {new : List (List Nat)} {cs : List GCell} (h : List.Forall₂ (fun a c => a.length = c.nodes.length) new cs)
    (hn : new.flatten.Nodup) : Private (List.zipWith renewed new cs) := by
  have := nodes_renewed h
  unfold ids at this
  rw [Private, this]
  exact hn

/-- the facets do not depend on the nodes -/
theorem unpaired_simplices {t : Topo} {N : Nat} {cs cs' : List GCell} (h : cs'.map (·.simplex) = cs.map (·.simplex)) (x : Topology.Id) :
    Unpaired t N cs' x ↔ Unpaired t N cs x := by
  have key : ∀ cs : List GCell, Unpaired t N cs x ↔ ∀ o ∈ cs.map (·.simplex), (t.fp N x, - t.sg N x) ∉
      (t.composition (N + 1) o).map fun x => (t.fp N x, t.sg N x) := by
    intro cs
    simp [Unpaired, facets]
  rw [key, key, h]

theorem touches_loaded {t : Topo} (hi : Inv t) (hs : Std t) {nodes : List Node} (hn : (nodes.map (·.vertex)).Nodup)
    {cells : List (List Nat)} {cs : List GCell} (hl : ∀ c ∈ cells, ∀ i ∈ c, i < nodes.length)
    (h : List.Forall₂ (Loaded t nodes) cells cs) {index : List Nat} {c : GCell} (hindex : index ∈ cells) (hc : c ∈ cs)
    (hL : Loaded t nodes index c) : Touches t 1 cs c ↔ Outermost cells index := by
  have h1 : List.Forall₂ (Loaded t nodes) [index] [c] := .cons hL .nil
  have hE : allEdges t [c] = t.composition 2 c.simplex := by simp [allEdges]
  have hF : [index].flatMap edges = edges index := by simp
  have hsub : ∀ x ∈ t.composition 2 c.simplex, x ∈ allEdges t cs := fun x hx => List.mem_flatMap.mpr ⟨c, hc, hx⟩
  have hsub' : ∀ e ∈ edges index, e ∈ cells.flatMap edges := fun e he => List.mem_flatMap.mpr ⟨index, hindex, he⟩
  constructor
  · rintro ⟨x, hx, hu⟩
    obtain ⟨e, he, -, hseg⟩ := allEdges_seg hi hs h1 (hE ▸ hx)
    rw [hF] at he
    exact ⟨e, he, (unpaired_iff hi hs hn hl h (hsub x hx) (hsub' e he) hseg).mp hu⟩
  · rintro ⟨e, he, hu⟩
    obtain ⟨x, hx, eq⟩ := List.mem_map.mp ((allEdges_ends h1).symm.subset (List.mem_map_of_mem (f := pairOf nodes) (hF ▸ he)))
    obtain ⟨e', he', eq', hseg⟩ := allEdges_seg hi hs h1 hx
    rw [hE] at hx
    rw [hF] at he'
    obtain rfl := pairOf_inj hn hl e (hsub' e he) e' (hsub' e' he') (eq.symm.trans eq')
    exact ⟨x, hx, (unpaired_iff hi hs hn hl h (hsub x hx) (hsub' e he) hseg).mpr hu⟩

/-- **C101.**  From a file with positive triangles and no common directed edges, the Poisson problem on the discontinuous mesh with its
boundary constrained is solvable exactly if every triangle has an edge that is on no other triangle.  (On the continuous mesh it always is,
by C98 and C80.) -/
theorem discontinuous_poisson {t : Topo} (h : VReachable t) {as : List Nat} {coords : List (List ℚ)} {new cells : List (List Nat)}
    (hl : as.length = coords.length) (hc : ∀ c ∈ cells, c.length = 3 ∧ ∀ i ∈ c, i < coords.length) (hok : Conforming coords cells)
    (hal : List.Forall₂ (fun a c => a.length = c.length) new cells) (hnew : new.flatten.Nodup)
    (hf : Fresh t (as.length + 232 * cells.length)) :
    ∃ t' nodes cs m s known t'' B, loadDG t as new cells = some (t', nodes, cs) ∧
      cs.flatMap ids = new.flatten ∧ Reachable (facets t' 1) m s known ∧ m.cellList = some cs ∧ boundary t' 1 m = some (t'', B) ∧
      areaOf cs (place coords nodes) = ((cells.map (doubleArea coords)).sum : ℚ) / 2 ∧
      ∀ (alloc : List Nat → Nat) (other : List Nat), (∀ l, alloc l ∉ l) → other.Nodup → ∀ rule : Rule 2, (∀ q ∈ rule, 0 ≤ q.2) →
        ((∃ q ∈ rule, 0 < q.2) →
          SolvableIff (∀ c ∈ cells, Outermost cells c) rule (discretizeTri1 alloc other (place coords nodes) cs B)) ∧
        (¬ Collinear rule →
          SolvableIff (∀ c ∈ cells, Outermost cells c) rule (discretizeTri2 alloc other (place coords nodes) cs B)) := by
  obtain ⟨t2, nodes, cs, a1, b2, -, b3, a5, a6, b5⟩ := discontinuous_succeeds h (as := as) (new := new) (cells := cells)
    (k := 58 * 3 * cells.length)
    (fun c hm => ⟨(hc c hm).1, by rw [hl]; exact (hc c hm).2, positive_nodup (hok.1 c hm)⟩) (conforming_sets (fun c hm => (hc c hm).1) hok)
    hal (hf.mono (by omega))
  have hlen : nodes.length = coords.length := by
    have := congrArg List.length a5
    simp only [List.length_map] at this
    rw [this, hl]
  have hr : ∀ c ∈ cells, ∀ i ∈ c, i < nodes.length := fun c hm => by rw [hlen]; exact (hc c hm).2
  have hz := forall₂_zip hal b5
  have hlc : (List.zipWith renewed new cs).length = cells.length := by
    rw [List.length_zipWith, ← b5.length_eq, hal.length_eq, min_self]
  have hcell : ∀ c ∈ List.zipWith renewed new cs, CellOk t2 2 c := by
    intro g hg
    obtain ⟨c, hm, a, e, rfl⟩ := mem_renewed hz hg
    obtain ⟨index, -, hL⟩ := forall₂_mem b5 hm
    obtain ⟨l', e1, e2⟩ := OfVertices_vertices hL.tri
    refine ⟨hL.live, ?_⟩
    have hv := vertices_renewed e
    unfold GCell.sanityCheck
    rw [hv]
    simp [renewed, e1, e2]
  obtain ⟨m, s, known, m1, m2, -⟩ := exists_mesh t2 1 (List.zipWith renewed new cs)
  obtain ⟨s1, s2⟩ := boundary_spec' b2.ok.1 b2.ok.2 (by norm_num : 1 ≤ 2) m1 m2 hcell
  obtain ⟨t3, B, hB, -⟩ := s2 0 (b3.mono (by rw [hlc]; omega))
  have hpriv := private_renewed hz hnew
  have hpos : ∀ g ∈ List.zipWith renewed new cs, 0 < Meshes.area (place coords nodes) g.vertices := by
    intro g hg
    obtain ⟨c, hm, a, e, rfl⟩ := mem_renewed hz hg
    obtain ⟨index, hi, hL⟩ := forall₂_mem b5 hm
    have h0 : (0 : ℝ) < (doubleArea coords index : ℝ) := by exact_mod_cast hok.1 index hi
    have h2 := hL.area (coords := coords) a6
    obtain ⟨i, j, k, x, y, z, -, e', -⟩ := hL.triple
    have h1 : Meshes.area (place coords nodes) c.vertices = triangleArea (positions 3 (place coords nodes) c) := by
      simp only [GCell.vertices, e', List.map_cons, List.map_nil, Meshes.area]
      refine (simplexVolume_area _).trans ?_
      simp [triangleArea, positions, e']
    have hv : (renewed a c).vertices = c.vertices := vertices_renewed e
    rw [hv, h1, h2]
    linarith
  have htouch : (∀ c ∈ List.zipWith renewed new cs, Touches t2 1 (List.zipWith renewed new cs) c) ↔ ∀ c ∈ cells, Outermost cells c := by
    have hsx := simplices_renewed hz
    have e1 : (∀ c ∈ List.zipWith renewed new cs, Touches t2 1 (List.zipWith renewed new cs) c) ↔ ∀ c ∈ cs, Touches t2 1 cs c := by
      have key : ∀ cs' : List GCell, (∀ c ∈ cs', Touches t2 1 cs c) ↔
          ∀ o ∈ cs'.map (·.simplex), ∃ x ∈ t2.composition 2 o, Unpaired t2 1 cs x := by
        intro cs'
        simp [Touches]
      have e2 : ∀ c, Touches t2 1 (List.zipWith renewed new cs) c ↔ Touches t2 1 cs c := fun c => by
        simp only [Touches, unpaired_simplices hsx]
      simp only [e2]
      rw [key, key, hsx]
    rw [e1]
    constructor
    · intro H index hi
      obtain ⟨c, hc, hL⟩ := forall₂_left b5 index hi
      exact (touches_loaded b2.ok.1.inv b2.ok.2 a6 hr b5 hi hc hL).mp (H c hc)
    · intro H c hc
      obtain ⟨index, hi, hL⟩ := forall₂_mem b5 hc
      exact (touches_loaded b2.ok.1.inv b2.ok.2 a6 hr b5 hi hc hL).mpr (H index hi)
  refine ⟨t2, nodes, _, m, s, known, t3, B, a1, ?_, m1, m2, hB, ?_, fun alloc other ha ho rule hw => ⟨fun hq => ?_, fun hq => ?_⟩⟩
  · exact nodes_renewed hz
  · exact area_renewed a6 b5 hz
  · rw [← htouch]
    exact discontinuous_tri1 b2 m1 m2 hcell hB _ hpos hpriv ha ho hw hq
  · rw [← htouch]
    exact discontinuous_tri2 b2 m1 m2 hcell hB _ hpos hpriv ha ho hw hq

theorem square_interior : ¬ ∀ c ∈ squareMesh.2, Outermost squareMesh.2 c := by
  intro h
  have h1 : ([71, 80, 101] : List Nat) ∈ squareMesh.2 := by decide +kernel
  have h2 : ¬ Outermost squareMesh.2 [71, 80, 101] := by decide +kernel
  exact h2 (h _ h1)

/-- **C101.**  The mesh of the Poisson benchmark read as a discontinuous one: the matrix is singular, for every source and every choice of
the elements (compare `poisson_square`, C98). -/
theorem square_discontinuous (supply as : List Nat) (new : List (List Nat)) (hs : supply.Nodup) (hlen : 56286 ≤ supply.length)
    (has : as.length = 142) (hal : List.Forall₂ (fun a c => a.length = c.length) new squareMesh.2) (hnew : new.flatten.Nodup) :
    ∃ t nodes cs m s known t' B, loadDG (Topo.init supply) as new squareMesh.2 = some (t, nodes, cs) ∧
      Reachable (facets t 1) m s known ∧ m.cellList = some cs ∧ boundary t 1 m = some (t', B) ∧
      areaOf cs (place squareMesh.1 nodes) = 1 ∧
      ∀ (alloc : List Nat → Nat) (other : List Nat), (∀ l, alloc l ∉ l) → other.Nodup →
        SolvableIff False triangle2.rule (discretizeTri1 alloc other (place squareMesh.1 nodes) cs B) ∧
        SolvableIff False triangle2.rule (discretizeTri2 alloc other (place squareMesh.1 nodes) cs B) := by
  have hR : VReachable (Topo.init supply) := ⟨supply, [], by simp, rfl⟩
  have hF : Fresh (Topo.init supply) (as.length + 232 * squareMesh.2.length) := by
    rw [has, square_lengths.2]
    exact ⟨hlen, hs.sublist (List.take_sublist _ _), fun i _ N => by simp [Topo.init, Level.empty]⟩
  obtain ⟨-, hv, -⟩ := Summit.reader_valid square_read
  obtain ⟨t, nodes, cs, m, s, known, t', B, h1, -, h2, h3, h4, h5, h6⟩ := discontinuous_poisson hR (as := as) (coords := squareMesh.1) (new := new)
    (cells := squareMesh.2)
    (by rw [has, square_lengths.1]) hv square_conforming hal hnew hF
  refine ⟨t, nodes, cs, m, s, known, t', B, h1, h2, h3, h4, by rw [h5, square_area]; norm_num, fun alloc other ha ho => ?_⟩
  have hw : ∀ q ∈ triangle2.rule, (0 : ℝ) < q.2 := rules_collinear.2.2.2.2 triangle2 (by simp)
  obtain ⟨g1, g2⟩ := h6 alloc other ha ho triangle2.rule fun q hq => (hw q hq).le
  rw [eq_false square_interior] at g1 g2
  refine ⟨g1 ?_, g2 rules_collinear.2.1⟩
  obtain ⟨q, hq⟩ := List.exists_mem_of_ne_nil triangle2.rule (by simp [Table.rule, triangle2])
  exact ⟨q, hq, hw q hq⟩

/-- **C101.**  Meshes where every triangle has an edge on the boundary: the problem on the discontinuous mesh is solvable. -/
example : Conforming [[0, 0], [1, 0], [0, 1], [1, 1]] [[0, 1, 2], [2, 1, 3]] ∧
    ∀ c ∈ [[0, 1, 2], [2, 1, 3]], Outermost [[0, 1, 2], [2, 1, 3]] c := by decide +kernel

/-- the new nodes of the two triangles, on the vertices of the nodes read -/
example : ((loadDG (Topo.init (List.range 500)) [1, 2, 3, 4] [[5, 6, 7], [8, 9, 10]] [[0, 1, 2], [2, 1, 3]]).map fun r =>
    (r.2.2.map ids, decide (r.2.2.map GCell.vertices = [[0, 1, 2], [2, 1, 3]].map fun c : List Nat => c.map fun i =>
      (r.2.1.map (·.vertex)).getD i 0))) = some ([[5, 6, 7], [8, 9, 10]], true) := by decide +kernel

end Mito.Load

namespace Mito.Summit

open Mito.Numbering

/-- **C101.**  The writer looks only at the points of the nodes: a discontinuous mesh is written as the continuous one. -/
theorem write_points {D type : Nat} {coords : Nat → List ℚ} {printed : ℚ → ℚ} {elementType : List Token} {order : List (Nat × Nat)}
    {cells cells' : List Cell} (h : cells'.map (fun c => c.map (·.point)) = cells.map fun c => c.map (·.point)) :
    write D type coords printed elementType order cells' = write D type coords printed elementType order cells := by
  have hp : meshPoints cells' = meshPoints cells := by
    simp only [meshPoints, List.flatMap_def, h]
  have hl : cells'.length = cells.length := by
    have := congrArg List.length h
    simpa using this
  have hw : ∀ m, cells'.map (writeCell type m elementType) = cells.map (writeCell type m elementType) := by
    intro m
    have e : ∀ cells : List Cell, cells.map (writeCell type m elementType) = (cells.map fun c => c.map (·.point)).map fun ps =>
        (allSome (ps.map (lookup m))).map fun ids => .num type :: ids.map (fun i => .num i) ++ [.num 1] ++ elementType := by
      intro cells
      rw [List.map_map]
      refine List.map_congr_left fun c _ => ?_
      simp only [writeCell, Function.comp, List.map_map]
      rfl
    rw [e, e, h]
  have hpt : points cells' = points cells := by rw [points, points, hp]
  simp only [write, hpt, hl, hw]

/-- two cells with a common point, with one node at it or two -/
example : (fun c : Cell => c.map (·.point)) [⟨1, 7⟩, ⟨2, 8⟩] = (fun c : Cell => c.map (·.point)) [⟨3, 7⟩, ⟨2, 8⟩] := rfl

end Mito.Summit
