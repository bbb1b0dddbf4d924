import Verif.Mesh.BoundaryLemmas
import Verif.Props.Topology

/-!
# C25, C26, C28: boundary and filters of meshes

Vocabulary in `Verif/Spec/Boundary.lean`.  A mesh of cells of order `N + 1` on the topology `t` is
`Reachable (facets t N) m s known`; `CellOk` is the assertion of the constructor of a cell.
-/

set_option linter.unusedVariables false
set_option linter.unusedSimpArgs false

namespace Mito.Meshes

open Mito.Topology Mito.Combinatorics

variable {t : Topo} {N : Nat} {m : Mesh GCell} {s : SegVec.Abs GCell} {known : Finset Nat}
  {cells : List GCell}

/-- **C25.**  `boundary` inserts, in the order of the cells, exactly one cell for every occurrence of
a facet whose opposite does not occur, on that very simplex and with the nodes of the cell.  Nothing
that was alive in the topology changes. -/
theorem boundary_collects (ht : VReachable t) (hN : N ≤ 2) (hm : Reachable (facets t N) m s known)
    (hcl : m.cellList = some cells) (hcell : ∀ c ∈ cells, CellOk t (N + 1) c) (t' : Topo)
    (B : List GCell) (h : boundary t N m = some (t', B)) :
    List.Forall₂ (Places t N) (boundaryFacets t N cells) B ∧ Le t t' := by
  obtain ⟨ok, st⟩ := ht.ok
  obtain ⟨hg, hR⟩ := (boundary_spec' ok st hN hm hcl hcell).1 t' B h
  exact ⟨hR, hg.le⟩

/-- **C25.**  `boundary_size` is the number of cells that `boundary` inserts. -/
theorem boundarySize_eq (ht : VReachable t) (hN : N ≤ 2) (hm : Reachable (facets t N) m s known)
    (hcl : m.cellList = some cells) (hcell : ∀ c ∈ cells, CellOk t (N + 1) c) (t' : Topo)
    (B : List GCell) (h : boundary t N m = some (t', B)) : boundarySize t N m = some B.length := by
  obtain ⟨ok, st⟩ := ht.ok
  rw [boundarySize_spec ok st hm hcl fun c hc => (hcell c hc).1,
    (boundary_collects ht hN hm hcl hcell t' B h).1.length_eq]

/-- **C25.**  `boundary` runs into no exception, failed assertion or missing node, if the allocator
has enough memory. -/
theorem boundary_succeeds (ht : VReachable t) (hN : N ≤ 2) (hm : Reachable (facets t N) m s known)
    (hcl : m.cellList = some cells) (hcell : ∀ c ∈ cells, CellOk t (N + 1) c)
    (hfr : Fresh t (58 * (N + 2) * cells.length)) : ∃ t' B, boundary t N m = some (t', B) := by
  obtain ⟨ok, st⟩ := ht.ok
  obtain ⟨t', B, h, _⟩ := (boundary_spec' ok st hN hm hcl hcell).2 0 (by simpa using hfr)
  exact ⟨t', B, h⟩

/-- **C25.**  If no oriented facet occurs twice, a facet is collected exactly when its footprint
belongs to one cell only. -/
theorem unpaired_iff_once (ht : VReachable t) (hlive : ∀ c ∈ cells, c.simplex ∈ (t.lvl (N + 1)).ors)
    (hnd : (cells.flatMap (facets t N)).Nodup) (c : GCell) (hc : c ∈ cells) (x : Id)
    (hx : x ∈ t.composition (N + 1) c.simplex) :
    Unpaired t N cells x ↔ (cells.flatMap (facets t N)).countP (fun f => f.1 = t.fp N x) = 1 := by
  obtain ⟨ok, st⟩ := ht.ok
  have hsx := ok.inv.sg N x (composition_live ok.inv (hlive c hc) x hx)
  have hF : ∀ f ∈ cells.flatMap (facets t N), f.2 = 1 ∨ f.2 = -1 := by
    intro f hf
    obtain ⟨c', hc', hf⟩ := List.mem_flatMap.mp hf
    exact facets_sign ok.inv (hlive c' hc') f hf
  have hmem : (t.fp N x, t.sg N x) ∈ cells.flatMap (facets t N) :=
    List.mem_flatMap.mpr ⟨c, hc, mem_facets.mpr ⟨x, hx, rfl⟩⟩
  have hU : Unpaired t N cells x ↔ (t.fp N x, -t.sg N x) ∉ cells.flatMap (facets t N) := by
    simp only [Unpaired, List.mem_flatMap, not_exists, not_and]
  rw [hU]
  generalize cells.flatMap (facets t N) = F at *
  generalize t.fp N x = k at *
  generalize t.sg N x = σ at *
  have hperm : (F.filter fun f => f.1 = k).toFinset ⊆ {(k, σ), (k, -σ)} := by
    intro f hf
    simp only [List.mem_toFinset, List.mem_filter, decide_eq_true_eq] at hf
    obtain ⟨h1, h2⟩ := hf
    obtain ⟨f1, f2⟩ := f
    simp only at h2
    subst h2
    have := hF _ h1
    simp only [Finset.mem_insert, Finset.mem_singleton, Prod.mk.injEq, true_and]
    simp only at this
    omega
  have hcard : F.countP (fun f => f.1 = k) = (F.filter fun f => f.1 = k).toFinset.card := by
    rw [List.countP_eq_length_filter, List.toFinset_card_of_nodup (hnd.filter _)]
  have hne : (k, σ) ≠ (k, -σ) := by
    intro e; have := congrArg Prod.snd e; simp only at this; omega
  rw [hcard]
  constructor
  · intro h
    have : (F.filter fun f => f.1 = k).toFinset = {(k, σ)} := by
      ext f
      constructor
      · intro hf
        rcases Finset.mem_insert.mp (hperm hf) with e | e
        · simp [e]
        · rw [Finset.mem_singleton] at e
          subst e
          simp at hf
          exact absurd hf h
      · intro hf
        rw [Finset.mem_singleton] at hf
        subst hf
        simpa using hmem
    rw [this]; simp
  · intro h1 h2
    have : ({(k, σ), (k, -σ)} : Finset (Nat × Int)) ⊆ (F.filter fun f => f.1 = k).toFinset := by
      intro f hf
      rcases Finset.mem_insert.mp hf with e | e
      · subst e; simpa using hmem
      · rw [Finset.mem_singleton] at e
        subst e; simpa using h2
    have := Finset.card_le_card this
    rw [h1, Finset.card_pair hne] at this
    omega

/-- **C25.**  The facets that the mesh sees are the induced ones for a triangle of orientation `+1`
(the directed loop through its vertices) and the opposite ones for a triangle of orientation `-1`:
`composition()` swaps two edges but does not flip them (finding). -/
theorem composition_triangle (ht : VReachable t) (o a b c : Id) (ho : o ∈ (t.lvl 2).ors)
    (hv : t.verticesOf 2 o = some [a, b, c]) :
    ((t.composition 2 o).map (t.verticesOf 1)).Perm
      (if t.sg 2 o = 1 then [some [a, b], some [b, c], some [c, a]]
       else [some [b, a], some [c, b], some [a, c]]) := by
  obtain ⟨ok, st⟩ := ht.ok
  obtain ⟨p, q, r, hF⟩ := st.tri _ (ok.inv.fp_live 2 o ho)
  rw [TriF_vertices hF] at hv
  obtain ⟨n, x, y, z, e, hx, hy, hz⟩ := hF
  unfold Topo.composition
  rcases ok.inv.sg 2 o ho with hs | hs
  · simp [hs] at hv
    obtain ⟨rfl, rfl, rfl⟩ := hv
    simp [hs, e, SegO_vertices hx, SegO_vertices hy, SegO_vertices hz]
  · simp [hs] at hv
    obtain ⟨rfl, rfl, rfl⟩ := hv
    simp only [hs, e, swap01, if_true, List.map_cons, List.map_nil, SegO_vertices hx,
      SegO_vertices hy, SegO_vertices hz, show ¬ ((-1 : Int) = 1) by decide, if_false]
    exact (List.Perm.swap _ _ _).trans ((List.Perm.swap _ _ _).cons _)

/-- **C26.**  If no oriented facet occurs twice in a mesh, the boundary chain has no boundary: every
subsubsimplex has net orientation zero in it. -/
theorem boundary_boundary_cancels (ht : VReachable t) {M : Nat}
    (hlive : ∀ c ∈ cells, c.simplex ∈ (t.lvl (M + 2)).ors)
    (hnd : (cells.flatMap (facets t (M + 1))).Nodup) (k : Id) :
    net (t.netPairs M ((boundaryFacets t (M + 1) cells).map (·.1))) k = 0 := by
  obtain ⟨ok, st⟩ := ht.ok
  have hF : cells.flatMap (facets t (M + 1)) =
      ((occurrences t (M + 1) cells).map (·.1)).map
        fun x => (t.fp (M + 1) x, t.sg (M + 1) x) := by
    unfold occurrences facets
    simp only [List.map_flatMap, List.map_map, Function.comp_def]
  have hsg : ∀ f ∈ cells.flatMap (facets t (M + 1)), f.2 = 1 ∨ f.2 = -1 := by
    intro f hf
    obtain ⟨c', hc', hf⟩ := List.mem_flatMap.mp hf
    exact facets_sign ok.inv (hlive c' hc') f hf
  -- all the facets together
  have hall : ((cells.flatMap (facets t (M + 1))).map fun f => f.2 * weight t M k f.1).sum = 0 := by
    rw [hF, ← net_netPairs]
    unfold Topo.netPairs occurrences
    simp only [List.map_flatMap, List.map_map, Function.comp_def, List.map_id']
    rw [List.flatMap_assoc, net_flatMap]
    apply List.sum_eq_zero
    intro v hv
    obtain ⟨c, hc, rfl⟩ := List.mem_map.mp hv
    exact isValid_net (composition_valid ok (hlive c hc)) k
  rw [sum_filter_split _ fun f => decide ((f.1, -f.2) ∈ cells.flatMap (facets t (M + 1))),
    paired_cancel hnd hsg, zero_add] at hall
  rw [net_netPairs, ← hall]
  congr 2
  rw [hF]
  unfold boundaryFacets
  simp only [List.map_map, List.filter_map]
  congr 1
  apply List.filter_congr
  intro x hx
  have hU : Unpaired t (M + 1) cells x.1 ↔
      (t.fp (M + 1) x.1, -t.sg (M + 1) x.1) ∉ cells.flatMap (facets t (M + 1)) := by
    simp only [Unpaired, List.mem_flatMap, not_exists, not_and]
  simp only [Function.comp_def]
  rw [hF] at hU
  simp only [List.map_map, Function.comp_def] at hU ⊢
  by_cases h : Unpaired t (M + 1) cells x.1
  · simp [h, hU.mp h]
  · have := not_not.mp (mt hU.mpr h)
    simp only [h, decide_false, this, decide_true, Bool.not_true]

/-- **C26.**  If moreover all the facets on the boundary have orientation `+1`, the boundary mesh is
closed in the sense of the code: `boundary_size` of it is zero and `boundary` of it is empty. -/
theorem boundary_boundary_empty (ht : VReachable t) {M : Nat} (hM : M ≤ 1)
    (hlive : ∀ c ∈ cells, CellOk t (M + 2) c)
    (hnd : (cells.flatMap (facets t (M + 1))).Nodup)
    (hpos : ∀ x ∈ boundaryFacets t (M + 1) cells, t.sg (M + 1) x.1 = 1)
    (hm : Reachable (facets t (M + 1)) m s known) (hcl : m.cellList = some cells)
    (t' : Topo) (B : List GCell) (hB : boundary t (M + 1) m = some (t', B))
    {m' : Mesh GCell} {s' : SegVec.Abs GCell} {known' : Finset Nat}
    (hm' : Reachable (facets t' M) m' s' known') (hcl' : m'.cellList = some B) :
    boundarySize t' M m' = some 0 ∧
      ∀ t'' B', boundary t' M m' = some (t'', B') → B' = [] := by
  obtain ⟨ok, st⟩ := ht.ok
  obtain ⟨hg, hR⟩ := (boundary_spec' ok st (by omega) hm hcl hlive).1 t' B hB
  have hocc : ∀ x ∈ boundaryFacets t (M + 1) cells, x.1 ∈ (t.lvl (M + 1)).ors := by
    intro x hx
    have := (List.mem_filter.mp hx).1
    obtain ⟨c, hc, hx⟩ := List.mem_flatMap.mp this
    obtain ⟨y, hy, rfl⟩ := List.mem_map.mp hx
    exact composition_live ok.inv (hlive c hc).1 y hy
  have hBs : B.map (·.simplex) = (boundaryFacets t (M + 1) cells).map (·.1) :=
    places_simplex hR
  have hBl : ∀ d ∈ B, d.simplex ∈ (t.lvl (M + 1)).ors ∧ t.sg (M + 1) d.simplex = 1 := by
    intro d hd
    have : d.simplex ∈ (boundaryFacets t (M + 1) cells).map (·.1) := by
      rw [← hBs]; exact List.mem_map.mpr ⟨d, hd, rfl⟩
    obtain ⟨x, hx, e⟩ := List.mem_map.mp this
    rw [← e]
    exact ⟨hocc x hx, hpos x hx⟩
  have hBok : ∀ d ∈ B, CellOk t' (M + 1) d := by
    clear hcl' hm' hB hBs hpos
    intro d hd
    have hdl := (hBl d hd).1
    refine ⟨hg.le.ors _ hdl, ?_⟩
    obtain ⟨x, _, hp⟩ := forall₂_mem hR hd
    obtain ⟨l, hl, hlnd, _, hlen⟩ := verticesOf_spec ok.inv st (by omega) hdl
    have e := hp.2.2
    rw [← hp.1, hl] at e
    simp only [GCell.sanityCheck, verticesOf_le ok.inv hg.le hdl, hl]
    rw [← Option.some.inj e]
    rw [permutationSign_refl (by intro h0; simp [h0] at hlen) hlnd]
    rfl
  have hfac : ∀ d ∈ B, facets t' M d = facets t M d := by
    intro d hd
    have hdl := (hBl d hd).1
    unfold facets
    rw [composition_le ok.inv hg.le hdl]
    apply List.map_congr_left
    intro y hy
    have := composition_live ok.inv hdl y hy
    rw [hg.le.ofp M y this, hg.le.osg M y this]
  -- the net orientation of every facet of the boundary mesh is zero
  have hnet : ∀ k, net (B.flatMap (facets t' M)) k = 0 := by
    intro k
    rw [← boundary_boundary_cancels ht (fun c hc => (hlive c hc).1) hnd k, ← hBs]
    unfold Topo.netPairs
    rw [List.flatMap_map]
    congr 1
    apply List.flatMap_congr
    intro d hd
    rw [hfac d hd, (hBl d hd).2]
    simp [facets]
  have hsg : ∀ f ∈ B.flatMap (facets t' M), f.2 = 1 ∨ f.2 = -1 := by
    intro f hf
    obtain ⟨d, hd, hf⟩ := List.mem_flatMap.mp hf
    exact facets_sign hg.ok.inv (hBok d hd).1 f hf
  have hempty : boundaryFacets t' M B = [] := by
    unfold boundaryFacets
    rw [List.filter_eq_nil_iff]
    intro x hx
    simp only [decide_eq_true_eq]
    intro hU
    obtain ⟨d, hd, hx⟩ := List.mem_flatMap.mp hx
    obtain ⟨y, hy, rfl⟩ := List.mem_map.mp hx
    have hmem : (t'.fp M y, t'.sg M y) ∈ B.flatMap (facets t' M) :=
      List.mem_flatMap.mpr ⟨d, hd, mem_facets.mpr ⟨y, hy, rfl⟩⟩
    have hnot : (t'.fp M y, -t'.sg M y) ∉ B.flatMap (facets t' M) := by
      intro h
      obtain ⟨d', hd', h⟩ := List.mem_flatMap.mp h
      exact hU d' hd' h
    have := net_ne_zero hsg hmem hnot
    exact this (hnet _)
  constructor
  · rw [boundarySize_spec hg.ok hg.std hm' hcl' fun d hd => (hBok d hd).1, hempty]
    rfl
  · intro t'' B' hB'
    have := ((boundary_spec' hg.ok hg.std (by omega) hm' hcl' hBok).1 t'' B' hB').2
    rw [hempty] at this
    simpa using this

/-- **C28.**  `filter` inserts one cell for every chain of subcells, in order, on that very subcell and
with nodes of the cell; nothing alive in the topology changes. -/
theorem filter_collects (ht : VReachable t) {I d : Nat} (hd : I + d + 1 ≤ 3)
    (hcl : m.cellList = some cells) (hcell : ∀ c ∈ cells, CellOk t (I + d + 1) c) (t' : Topo)
    (L : List GCell) (h : filter t I d m = some (t', L)) :
    List.Forall₂ (Places t I)
      (cells.flatMap fun c => (subcells t I (d + 1) c.simplex).map fun x => (x, c.nodes)) L ∧
      Le t t' := by
  obtain ⟨ok, st⟩ := ht.ok
  obtain ⟨hg, hR⟩ := (filter_spec' ok st hd hcl hcell).1 t' L h
  exact ⟨hR, hg.le⟩

/-- **C28.**  For cells of order `J = I + d + 1` there are `(J + 1)! / (I + 1)!` cells per cell. -/
theorem filter_count (ht : VReachable t) {I d : Nat} (hd : I + d + 1 ≤ 3)
    (hcl : m.cellList = some cells) (hcell : ∀ c ∈ cells, CellOk t (I + d + 1) c) (t' : Topo)
    (L : List GCell) (h : filter t I d m = some (t', L)) :
    L.length = cells.length * ((I + d + 2).factorial / (I + 1).factorial) := by
  obtain ⟨ok, st⟩ := ht.ok
  rw [← (filter_collects ht hd hcl hcell t' L h).1.length_eq, List.length_flatMap,
    List.map_congr_left (g := fun _ => (I + d + 2).factorial / (I + 1).factorial)]
  · simp
  · intro c hc
    have := subcells_length ok.inv (d := d + 1) (hcell c hc).1
    rw [List.length_map]
    rw [show I + d + 2 = I + (d + 1) + 1 by omega, ← this]
    rw [Nat.mul_div_cancel _ (Nat.factorial_pos _)]

/-- **C28.**  `filter` runs into no failed assertion or missing node, if the allocator has enough
memory. -/
theorem filter_succeeds (ht : VReachable t) {I d : Nat} (hd : I + d + 1 ≤ 3)
    (hcl : m.cellList = some cells) (hcell : ∀ c ∈ cells, CellOk t (I + d + 1) c)
    (hfr : Fresh t (58 * ((I + d + 2).factorial * cells.length))) :
    ∃ t' L, filter t I d m = some (t', L) := by
  obtain ⟨ok, st⟩ := ht.ok
  obtain ⟨t', L, h, _⟩ := (filter_spec' ok st hd hcl hcell).2 0 (by
    apply hfr.mono
    rw [Nat.zero_add]
    apply Nat.mul_le_mul_left
    have : ∀ v ∈ cells.map fun c => (subcells t I (d + 1) c.simplex).length,
        v ≤ (I + d + 2).factorial := by
      intro v hv
      obtain ⟨c, hc, rfl⟩ := List.mem_map.mp hv
      have := subcells_length ok.inv (d := d + 1) (hcell c hc).1
      rw [show I + d + 2 = I + (d + 1) + 1 by omega, ← this]
      exact Nat.le_mul_of_pos_right _ (Nat.factorial_pos _)
    have := List.sum_le_card_nsmul _ _ this
    simpa [Nat.mul_comm] using this)
  exact ⟨t', L, h⟩

/-! ### Examples and findings -/

/-- nodes on the vertices `0, 1, 2, 3` -/
def exNode (v : Id) : Node := ⟨100 + v, v⟩
/-- the topology after a history -/
@[irreducible] def exTopo (ops : List Op) : Topo :=
  (run (.init (List.range 400)) ([.vertex, .vertex, .vertex, .vertex] ++ ops)).getD (.init [])

theorem exTopo_reachable (ops : List Op) (h : ∀ op ∈ ops, op.fromVerticesOnly = true)
    (hr : (run (.init (List.range 400))
      ([.vertex, .vertex, .vertex, .vertex] ++ ops)).isSome = true) : VReachable (exTopo ops) := by
  refine ⟨List.range 400, [.vertex, .vertex, .vertex, .vertex] ++ ops, ?_, ?_⟩
  · intro op hop
    rcases List.mem_append.mp hop with h1 | h1
    · simp at h1; subst h1; rfl
    · exact h op h1
  · unfold exTopo
    exact run_eq_some _ hr

/-- two triangles sharing the edge of `1` and `2` -/
@[irreducible] def exB : Topo := exTopo [.triangle 0 1 2, .triangle 2 1 3]
/-- the same, but the first triangle was requested with the other orientation before -/
@[irreducible] def exA : Topo := exTopo [.triangle 0 2 1, .triangle 0 1 2, .triangle 2 1 3]
/-- one triangle, of which one edge was requested the other way around before -/
@[irreducible] def exC : Topo := exTopo [.segment 1 0, .triangle 0 1 2]
/-- two segments leaving from `0` -/
@[irreducible] def exD : Topo := exTopo [.segment 0 1, .segment 0 2]
/-- a tetrahedron -/
@[irreducible] def exE : Topo := exTopo [.tetrahedron 0 1 2 3]

theorem exB_reachable : VReachable exB := by
  unfold exB; exact exTopo_reachable _ (by decide) (by decide +kernel)
theorem exA_reachable : VReachable exA := by
  unfold exA; exact exTopo_reachable _ (by decide) (by decide +kernel)
theorem exC_reachable : VReachable exC := by
  unfold exC; exact exTopo_reachable _ (by decide) (by decide +kernel)
theorem exD_reachable : VReachable exD := by
  unfold exD; exact exTopo_reachable _ (by decide) (by decide +kernel)
theorem exE_reachable : VReachable exE := by
  unfold exE; exact exTopo_reachable _ (by decide) (by decide +kernel)

def exCellsB : List GCell :=
  [⟨17, [exNode 0, exNode 1, exNode 2]⟩, ⟨26, [exNode 2, exNode 1, exNode 3]⟩]
def exCellsA : List GCell :=
  [⟨21, [exNode 0, exNode 1, exNode 2]⟩, ⟨29, [exNode 2, exNode 1, exNode 3]⟩]
def exCellsC : List GCell := [⟨18, [exNode 0, exNode 1, exNode 2]⟩]
def exCellsD : List GCell := [⟨7, [exNode 0, exNode 1]⟩, ⟨10, [exNode 0, exNode 2]⟩]

instance (t : Topo) (N : Nat) (c : GCell) : Decidable (CellOk t N c) := by
  unfold CellOk; infer_instance

/-- a concrete mesh with given cells, to compute with -/
def exMeshOf (t : Topo) (N : Nat) (l : List GCell) : Mesh GCell :=
  { ((Mesh.init : Mesh GCell).insertAll (facets t N) l (List.replicate l.length 1000)).getD .init with
    orient := recount (l.flatMap (facets t N)) }

/-- a mesh to which the theorems on boundaries apply: no oriented facet twice, all triangles positive,
four facets on the boundary, all positive -/
example : ∃ m s known t' B, VReachable exB ∧ Reachable (facets exB 1) m s known ∧
    m.cellList = some exCellsB ∧ (∀ c ∈ exCellsB, CellOk exB 2 c) ∧
    (exCellsB.flatMap (facets exB 1)).Nodup ∧
    (∀ x ∈ boundaryFacets exB 1 exCellsB, exB.sg 1 x.1 = 1) ∧
    boundary exB 1 m = some (t', B) ∧ B.length = 4 ∧ boundarySize exB 1 m = some 4 := by
  obtain ⟨m, s, known, h1, h2, h3⟩ := exists_mesh exB 1 exCellsB
  have hr := exB_reachable
  have hc : ∀ c ∈ exCellsB, CellOk exB 2 c := by decide +kernel
  have hs : boundarySize exB 1 m = some 4 := by
    rw [boundarySize_spec hr.ok.1 hr.ok.2 h1 h2 fun c h => (hc c h).1]
    decide +kernel
  have hb : (boundary exB 1 m).isSome = true := by
    rw [boundary_congr (m' := exMeshOf exB 1 exCellsB) (by rw [h2]; decide +kernel) (by rw [h3]; rfl)]
    decide +kernel
  obtain ⟨⟨t', B⟩, hB⟩ := Option.isSome_iff_exists.mp hb
  refine ⟨m, s, known, t', B, hr, h1, h2, hc, by decide +kernel, by decide +kernel, hB, ?_, hs⟩
  have := boundarySize_eq hr (by omega) h1 h2 hc t' B hB
  rw [hs] at this
  simpa using this.symm

/-- **C25 (finding).**  The boundary depends on the history: two triangles on the same nodes have a
boundary of four edges if they were built directly, but of six edges (including the shared one, twice)
if the first was requested with the other orientation before. -/
theorem boundary_depends_on_history :
    ∃ (t t' : Topo) (m m' : Mesh GCell) (s s' : SegVec.Abs GCell) (known known' : Finset Nat)
      (cells cells' : List GCell), VReachable t ∧ VReachable t' ∧
      Reachable (facets t 1) m s known ∧ Reachable (facets t' 1) m' s' known' ∧
      m.cellList = some cells ∧ m'.cellList = some cells' ∧
      (∀ c ∈ cells, CellOk t 2 c) ∧ (∀ c ∈ cells', CellOk t' 2 c) ∧
      cells.map (·.nodes) = cells'.map (·.nodes) ∧
      boundarySize t 1 m = some 4 ∧ boundarySize t' 1 m' = some 6 := by
  obtain ⟨m, s, known, h1, h2, h3⟩ := exists_mesh exB 1 exCellsB
  obtain ⟨m', s', known', h1', h2', h3'⟩ := exists_mesh exA 1 exCellsA
  have hr := exB_reachable
  have hr' := exA_reachable
  have hc : ∀ c ∈ exCellsB, CellOk exB 2 c := by decide +kernel
  have hc' : ∀ c ∈ exCellsA, CellOk exA 2 c := by decide +kernel
  refine ⟨exB, exA, m, m', s, s', known, known', exCellsB, exCellsA, hr, hr', h1, h1', h2, h2', hc,
    hc', by decide, ?_, ?_⟩
  · rw [boundarySize_spec hr.ok.1 hr.ok.2 h1 h2 fun c h => (hc c h).1]
    decide +kernel
  · rw [boundarySize_spec hr'.ok.1 hr'.ok.2 h1' h2' fun c h => (hc' c h).1]
    decide +kernel

/-- **C25 (finding).**  The boundary of a mesh of segments is a set of nodes: for two segments leaving
from the same node `boundary_size` is 4 but there are 3 nodes. -/
theorem boundarySize_counts_nodes_twice :
    ∃ (t : Topo) (m : Mesh GCell) (s : SegVec.Abs GCell) (known : Finset Nat) (cells : List GCell)
      (B : List Node), VReachable t ∧ Reachable (facets t 0) m s known ∧ m.cellList = some cells ∧
      (∀ c ∈ cells, CellOk t 1 c) ∧ boundarySize t 0 m = some 4 ∧ boundaryNodes t m = some B ∧
      B.length = 3 := by
  obtain ⟨m, s, known, h1, h2, h3⟩ := exists_mesh exD 0 exCellsD
  refine ⟨exD, m, s, known, exCellsD, [exNode 1, exNode 0, exNode 2], exD_reachable, h1, h2,
    by decide +kernel, ?_, ?_, rfl⟩
  · rw [boundarySize_congr (m' := exMeshOf exD 0 exCellsD) (by rw [h2]; decide +kernel)
      (by rw [h3]; rfl)]
    decide +kernel
  · unfold boundaryNodes
    rw [boundary_congr (m' := exMeshOf exD 0 exCellsD) (by rw [h2]; decide +kernel)
      (by rw [h3]; rfl)]
    decide +kernel

/-- **C26 (finding).**  Without the assumption on the orientation of the boundary facets the code does
not find the boundary closed: for a single triangle with an edge of orientation `-1`, the boundary mesh
(three edges around the triangle) has a boundary of size 4. -/
theorem boundary_boundary_not_empty :
    ∃ (t t' : Topo) (m m' : Mesh GCell) (s s' : SegVec.Abs GCell) (known known' : Finset Nat)
      (cells B : List GCell), VReachable t ∧ Reachable (facets t 1) m s known ∧
      m.cellList = some cells ∧ (∀ c ∈ cells, CellOk t 2 c) ∧
      (cells.flatMap (facets t 1)).Nodup ∧ boundary t 1 m = some (t', B) ∧
      Reachable (facets t' 0) m' s' known' ∧ m'.cellList = some B ∧
      boundarySize t' 0 m' = some 4 := by
  obtain ⟨m, s, known, h1, h2, h3⟩ := exists_mesh exC 1 exCellsC
  have hb : boundary exC 1 m = boundary exC 1 (exMeshOf exC 1 exCellsC) :=
    boundary_congr (by rw [h2]; decide +kernel) (by rw [h3]; rfl)
  have hsome : (boundary exC 1 (exMeshOf exC 1 exCellsC)).isSome = true := by decide +kernel
  have hsz : ((boundary exC 1 (exMeshOf exC 1 exCellsC)).map fun r =>
      (r.2.all fun c => decide (c.simplex ∈ (r.1.lvl 1).ors), (boundaryFacets r.1 0 r.2).length)) =
      some (true, 4) := by decide +kernel
  obtain ⟨⟨t', B⟩, hB⟩ := Option.isSome_iff_exists.mp hsome
  rw [hB] at hsz
  simp only [Option.map_some, Option.some.injEq, Prod.mk.injEq, List.all_eq_true,
    decide_eq_true_eq] at hsz
  obtain ⟨m', s', known', h1', h2', h3'⟩ := exists_mesh t' 0 B
  have hc : ∀ c ∈ exCellsC, CellOk exC 2 c := by decide +kernel
  have hr := exC_reachable
  have hg := ((boundary_spec' hr.ok.1 hr.ok.2 (by omega) h1 h2 hc).1 t' B (hb.trans hB)).1
  refine ⟨exC, t', m, m', s, s', known, known', exCellsC, B, hr, h1, h2, hc, by decide +kernel,
    hb.trans hB, h1', h2', ?_⟩
  rw [boundarySize_spec hg.ok hg.std h1' h2' hsz.1, hsz.2]

/-- filtering the edges of a tetrahedron gives 12 cells, the faces 4 -/
example : ∃ m s known, VReachable exE ∧ Reachable (facets exE 2) m s known ∧
    m.cellList = some [⟨39, [exNode 0, exNode 1, exNode 2, exNode 3]⟩] ∧
    (∀ c ∈ [(⟨39, [exNode 0, exNode 1, exNode 2, exNode 3]⟩ : GCell)], CellOk exE 3 c) ∧
    (filter exE 1 1 m).map (·.2.length) = some 12 ∧
    (filter exE 2 0 m).map (·.2.length) = some 4 := by
  obtain ⟨m, s, known, h1, h2, h3⟩ :=
    exists_mesh exE 2 [⟨39, [exNode 0, exNode 1, exNode 2, exNode 3]⟩]
  refine ⟨m, s, known, exE_reachable, h1, h2, by decide +kernel, ?_, ?_⟩
  · rw [filter_congr (m' := exMeshOf exE 2 [⟨39, [exNode 0, exNode 1, exNode 2, exNode 3]⟩])
      (by rw [h2]; decide +kernel)]
    decide +kernel
  · rw [filter_congr (m' := exMeshOf exE 2 [⟨39, [exNode 0, exNode 1, exNode 2, exNode 3]⟩])
      (by rw [h2]; decide +kernel)]
    decide +kernel

end Mito.Meshes
