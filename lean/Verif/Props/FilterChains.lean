import Verif.Mesh.FilterLemmas
import Verif.Props.Boundary

/-!
# C131: filters compose

tests/mito.lib/mesh/filter_ball.cc:15-46 compares the number of edges filtered from a mesh of tetrahedra with the
number filtered from its faces "(they should be identical)".  Here the two meshes are the same list of cells, for every
mesh.
-/

namespace Mito.Meshes

open Mito.Topology Mito.Combinatorics

variable {t : Topo} {m : Mesh GCell} {cells : List GCell}

/-- **C131.**  The cells of order `I` filtered from the cells of order `I + d + 1` that were filtered from a mesh are the
cells filtered from the mesh: the same simplices with the same nodes, in the same order. -/
theorem filter_filter (ht : VReachable t) {I d e : Nat} (hd : I + d + 1 + e + 1 ≤ 3) (hcl : m.cellList = some cells)
    (hcell : ∀ c ∈ cells, CellOk t (I + d + 1 + e + 1) c) {t1 t2 t3 : Topo} {F L L' : List GCell}
    (hL : filter t I (d + 1 + e) m = some (t1, L)) (hF : filter t (I + d + 1) e m = some (t2, F))
    {m' : Mesh GCell} (hcl' : m'.cellList = some F) (hL' : filter t2 I d m' = some (t3, L')) : L' = L := by
  obtain ⟨ok, st⟩ := ht.ok
  have e1 : I + (d + 1 + e) + 1 = I + d + 1 + e + 1 := by omega
  obtain ⟨_, hR⟩ := (filter_spec' ok st (by omega) hcl (by rw [e1]; exact hcell)).1 t1 L hL
  obtain ⟨hg, hRF⟩ := (filter_spec' ok st hd hcl hcell).1 t2 F hF
  have hXlive : ∀ x ∈ cells.flatMap (fun c => (subcells t (I + d + 1) (e + 1) c.simplex).map fun x => (x, c.nodes)),
      x.1 ∈ (t.lvl (I + d + 1)).ors ∧ (x.2.map (·.vertex)).Nodup := by
    intro x hx
    obtain ⟨c, hc, hx⟩ := List.mem_flatMap.mp hx
    obtain ⟨y, hy, rfl⟩ := List.mem_map.mp hx
    exact ⟨subcells_live ok.inv (I := I + d + 1) (d := e + 1) (hcell c hc).1 y hy, (hcell c hc).nodup ok.inv st hd⟩
  have hFok : ∀ f ∈ F, CellOk t2 (I + d + 1) f := by
    intro f hf
    obtain ⟨x, hx, hp⟩ := forall₂_mem hRF hf
    exact places_ok ok.inv st hg.le (by omega) (hXlive x hx).1 hp
  obtain ⟨_, hR'⟩ := (filter_spec' hg.ok hg.std (by omega) hcl' hFok).1 t3 L' hL'
  have hX : (cells.flatMap fun c => (subcells t I (d + 1 + e + 1) c.simplex).map fun x => (x, c.nodes)) =
      (cells.flatMap fun c => (subcells t (I + d + 1) (e + 1) c.simplex).map fun x => (x, c.nodes)).flatMap
        fun p => (subcells t I (d + 1) p.1).map fun x => (x, p.2) := by
    rw [List.flatMap_assoc]
    refine List.flatMap_congr fun c _ => ?_
    rw [show d + 1 + e + 1 = d + 1 + (e + 1) by omega, subcells_add, List.map_flatMap, List.flatMap_map]
    rfl
  rw [hX] at hR
  have hRF' : List.Forall₂ (fun (x : Id × List Node) (f : GCell) =>
      (x.1 ∈ (t.lvl (I + d + 1)).ors ∧ (x.2.map (·.vertex)).Nodup) ∧ Places t (I + d + 1) x f)
      (cells.flatMap fun c => (subcells t (I + d + 1) (e + 1) c.simplex).map fun x => (x, c.nodes)) F := by
    clear hX hR hF hcl' hR' hFok
    generalize (cells.flatMap fun c => (subcells t (I + d + 1) (e + 1) c.simplex).map fun x => (x, c.nodes)) = X at *
    induction hRF with
    | nil => exact .nil
    | cons h _ ih => exact .cons ⟨hXlive _ (by simp), h⟩ (ih fun x hx => hXlive x (by simp [hx]))
  have hQ : List.Forall₂ (fun (y y' : Id × List Node) => y.1 = y'.1 ∧ (∀ n ∈ y'.2, n ∈ y.2) ∧ (y.2.map (·.vertex)).Nodup ∧
      y.1 ∈ (t.lvl I).ors)
      ((cells.flatMap fun c => (subcells t (I + d + 1) (e + 1) c.simplex).map fun x => (x, c.nodes)).flatMap
        fun p => (subcells t I (d + 1) p.1).map fun x => (x, p.2))
      (F.flatMap fun c => (subcells t2 I (d + 1) c.simplex).map fun x => (x, c.nodes)) := by
    refine List.rel_flatMap hRF' ?_
    intro x f hxf
    obtain ⟨⟨hx, hnd⟩, h1, h2, _⟩ := hxf
    beta_reduce
    rw [h1, subcells_le ok.inv hg.le (I := I) (d := d + 1) hx]
    rw [List.forall₂_map_left_iff, List.forall₂_map_right_iff, List.forall₂_same]
    exact fun y hy => ⟨rfl, h2, hnd, subcells_live ok.inv (d := d + 1) hx y hy⟩
  refine (forall₂_unique hQ ?_ hR hR').symm
  rintro ⟨y, ns⟩ ⟨y', ns'⟩ a b ⟨h1, h2, h3, h4⟩ ha hb
  simp only at h1 h2 h3 h4
  subst h1
  refine places_unique h3 h2 ha ⟨hb.1, hb.2.1, ?_⟩
  rw [← verticesOf_le ok.inv hg.le h4]
  exact hb.2.2

/-- **C131.**  tests/mito.lib/mesh/filter_ball.cc:15-46 passes on every mesh of tetrahedra: if there is memory for the cells,
the two wireframes exist, have the same number of cells, 12 per tetrahedron, and are the same list of cells. -/
theorem filter_test (ht : VReachable t) (hcl : m.cellList = some cells) (hcell : ∀ c ∈ cells, CellOk t 3 c)
    (hfr : Fresh t (58 * (Nat.factorial 4 * cells.length))) :
    ∃ t1 t2 W F, filter t 1 1 m = some (t1, W) ∧ filter t 2 0 m = some (t2, F) ∧ W.length = 12 * cells.length ∧
      F.length = 4 * cells.length ∧
      ∀ m' : Mesh GCell, m'.cellList = some F → ∀ t3 W', filter t2 1 0 m' = some (t3, W') → W' = W := by
  obtain ⟨t1, W, hW⟩ := filter_succeeds ht (I := 1) (d := 1) (by decide) hcl hcell hfr
  obtain ⟨t2, F, hF⟩ := filter_succeeds ht (I := 2) (d := 0) (by decide) hcl hcell hfr
  refine ⟨t1, t2, W, F, hW, hF, ?_, ?_, fun m' hm' t3 W' hW' => ?_⟩
  · rw [filter_count ht (by decide) hcl hcell t1 W hW, Nat.mul_comm]; rfl
  · rw [filter_count ht (by decide) hcl hcell t2 F hF, Nat.mul_comm]; rfl
  · exact filter_filter ht (I := 1) (d := 0) (e := 0) (by decide) hcl hcell hW hF hm' hW'

/-- a tetrahedron: its two wireframes are computed and are the same 12 cells -/
example : ∃ m m' s s' known known' t2 F W, VReachable exE ∧ Reachable (facets exE 2) m s known ∧
    m.cellList = some [⟨39, [exNode 0, exNode 1, exNode 2, exNode 3]⟩] ∧
    (∀ c ∈ [(⟨39, [exNode 0, exNode 1, exNode 2, exNode 3]⟩ : GCell)], CellOk exE 3 c) ∧
    filter exE 2 0 m = some (t2, F) ∧ Reachable (facets t2 1) m' s' known' ∧ m'.cellList = some F ∧
    (filter t2 1 0 m').map (·.2) = some W ∧ (filter exE 1 1 m).map (·.2) = some W ∧ W.length = 12 := by
  obtain ⟨m, s, known, h1, h2, h3⟩ := exists_mesh exE 2 [⟨39, [exNode 0, exNode 1, exNode 2, exNode 3]⟩]
  have hc : ∀ c ∈ [(⟨39, [exNode 0, exNode 1, exNode 2, exNode 3]⟩ : GCell)], CellOk exE 3 c := by decide +kernel
  have hF : (filter exE 2 0 m).isSome = true := by
    rw [filter_congr (m' := exMeshOf exE 2 [⟨39, [exNode 0, exNode 1, exNode 2, exNode 3]⟩]) (by rw [h2]; decide +kernel)]
    decide +kernel
  have hW : (filter exE 1 1 m).isSome = true := by
    rw [filter_congr (m' := exMeshOf exE 2 [⟨39, [exNode 0, exNode 1, exNode 2, exNode 3]⟩]) (by rw [h2]; decide +kernel)]
    decide +kernel
  obtain ⟨⟨t2, F⟩, hF⟩ := Option.isSome_iff_exists.mp hF
  obtain ⟨⟨t1, W⟩, hW⟩ := Option.isSome_iff_exists.mp hW
  obtain ⟨m', s', known', h1', h2', h3'⟩ := exists_mesh t2 1 F
  have hW' : (filter t2 1 0 m').isSome = true := by
    have hk : ((filter exE 2 0 (exMeshOf exE 2 [⟨39, [exNode 0, exNode 1, exNode 2, exNode 3]⟩])).bind fun r =>
        loop (fun t c => filterSub 1 c.nodes 1 t c.simplex) r.1 r.2).isSome = true := by decide +kernel
    rw [← filter_congr (m := m) (by rw [h2]; decide +kernel), hF] at hk
    simpa [filter, h2'] using hk
  obtain ⟨⟨t3, W'⟩, hW'⟩ := Option.isSome_iff_exists.mp hW'
  have he := filter_filter exE_reachable (I := 1) (d := 0) (e := 0) (by decide) h2 hc hW hF h2' hW'
  subst he
  exact ⟨m, m', s, s', known, known', t2, F, W', exE_reachable, h1, h2, hc, hF, h1', h2', by rw [hW']; rfl, by rw [hW]; rfl,
    filter_count exE_reachable (by decide) h2 hc t1 W' hW⟩

end Mito.Meshes
