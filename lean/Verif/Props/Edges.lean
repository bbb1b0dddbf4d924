import Verif.Spec.Edges
import Verif.Topology.EdgesLemmas
import Verif.Props.Tetrahedron

/-!
# C115: the edges of a simplex

`edges()` looks at the footprint of the simplex only, so that the orientation of what it reports is that of the footprints that happened
to exist.
-/

namespace Mito.Topology

open Mito.Combinatorics

/-- **C115.**  The edges of a triangle with the vertices `a b c`, up to an even permutation, are its sides; they run around it if its
orientation is positive, and the other way round if not. -/
theorem edges_triangle (t : Topo) (ht : VReachable t) (o a b c : Id) (ho : o ∈ (t.lvl 2).ors) (h : IsTriangle t o a b c) :
    RunAlong t (t.edges 2 o) (if t.sg 2 o = 1 then triangleEdges a b c else triangleEdges b a c) := by
  obtain ⟨ok, st⟩ := ht.ok
  have := tri_edges (TriO_of_isTriangle ok.inv st ho h)
  unfold reported at this
  unfold triangleEdges
  by_cases hs : t.sg 2 o = 1
  · simpa [hs] using this
  · simpa [hs] using this

/-- **C115.**  A simplex and its flip have the same edges, however they are oriented. -/
theorem edges_flip (t t' : Topo) (ht : Reachable t) (N : Nat) (o o' : Id) (ho : o ∈ (t.lvl N).ors) (h : t.flip N o = some (t', o')) :
    t'.edges N o' = t.edges N o := by
  have ok := ht.ok
  obtain ⟨-, le, -, e, -⟩ := orientedF_ok ok (ok.inv.fp_live N o ho) (by
    rcases ok.inv.sg N o ho with e | e <;> simp [e]) h
  unfold Topo.edges
  rw [e, edgesF_le ok.inv le N _ (ok.inv.fp_live N o ho)]

/-- **C115.**  Whatever the history, the edges of a tetrahedron connect any two of its vertices, in one direction at least … -/
theorem edges_tetrahedron (t : Topo) (ht : VReachable t) (o : Id) (ho : o ∈ (t.lvl 3).ors) (u v : Id)
    (hu : u ∈ t.vertexSet 3 (t.fp 3 o)) (hv : v ∈ t.vertexSet 3 (t.fp 3 o)) (huv : u ≠ v) :
    Runs t (t.edges 3 o) u v ∨ Runs t (t.edges 3 o) v u := by
  obtain ⟨ok, st⟩ := ht.ok
  obtain ⟨φ, ψ, hφ, hV, -, -, -, hE⟩ := tet_frame ok.inv st ho
  obtain ⟨i, rfl⟩ := (hV u).mp hu
  obtain ⟨j, rfl⟩ := (hV v).mp hv
  have hij : i ≠ j := fun e => huv (by rw [e])
  rw [hE.runs, hE.runs]
  exact (tetReport_some _ i j hij).imp (fun h => List.mem_map.mpr ⟨_, h, rfl⟩) fun h => List.mem_map.mpr ⟨_, h, rfl⟩

/-- … **C115** … nothing else is reported … -/
theorem edges_tetrahedron_only (t : Topo) (ht : VReachable t) (o : Id) (ho : o ∈ (t.lvl 3).ors) (e : Id) (he : e ∈ t.edges 3 o) :
    ∃ u v, t.tail e = some u ∧ t.head e = some v ∧ u ≠ v ∧ u ∈ t.vertexSet 3 (t.fp 3 o) ∧ v ∈ t.vertexSet 3 (t.fp 3 o) := by
  obtain ⟨ok, st⟩ := ht.ok
  obtain ⟨φ, ψ, hφ, hV, -, -, -, hE⟩ := tet_frame ok.inv st ho
  obtain ⟨u, v, h⟩ := SegO_of_live ok.inv st (edges_live ok.inv ho e he)
  obtain ⟨h1, h2, h3⟩ := SegO_ends h
  have hr : Runs t (t.edges 3 o) u v := ⟨e, he, h1, h2⟩
  rw [hE.runs] at hr
  obtain ⟨⟨i, j⟩, -, hij⟩ := List.mem_map.mp hr
  simp only [Prod.map_apply, Prod.mk.injEq] at hij
  exact ⟨u, v, h1, h2, h3, (hV u).mpr ⟨i, hij.1⟩, (hV v).mpr ⟨j, hij.2⟩⟩

/-- … **C115** … and both directions of an edge are reported exactly if the two faces that meet there, as they are in the composition,
have the same orientation. -/
theorem edges_tetrahedron_both (t : Topo) (ht : VReachable t) (o : Id) (ho : o ∈ (t.lvl 3).ors) (x y u v : Id)
    (hx : x ∈ t.compF 3 (t.fp 3 o)) (hy : y ∈ t.compF 3 (t.fp 3 o)) (hxy : x ≠ y) (huv : u ≠ v)
    (h1 : u ∈ t.vertexSet 2 (t.fp 2 x)) (h2 : v ∈ t.vertexSet 2 (t.fp 2 x)) (h3 : u ∈ t.vertexSet 2 (t.fp 2 y))
    (h4 : v ∈ t.vertexSet 2 (t.fp 2 y)) :
    Runs t (t.edges 3 o) u v ∧ Runs t (t.edges 3 o) v u ↔ t.sg 2 x = t.sg 2 y := by
  obtain ⟨ok, st⟩ := ht.ok
  obtain ⟨φ, ψ, hφ, hV, hc, hψ, hF, hE⟩ := tet_frame ok.inv st ho
  have hlx := ok.inv.comp_live 2 _ (ok.inv.fp_live 3 o ho) x hx
  have hly := ok.inv.comp_live 2 _ (ok.inv.fp_live 3 o ho) y hy
  rw [hc, List.mem_ofFn] at hx hy
  obtain ⟨k, rfl⟩ := hx
  obtain ⟨l, rfl⟩ := hy
  obtain ⟨i, hi, rfl⟩ := (hF k u).mp h1
  obtain ⟨j, hj, rfl⟩ := (hF k v).mp h2
  obtain ⟨i', hi', e⟩ := (hF l _).mp h3
  obtain rfl := hφ e
  obtain ⟨j', hj', e⟩ := (hF l _).mp h4
  obtain rfl := hφ e
  have mem : ∀ (s : Fin 4 → Bool) (p q : Fin 4), (φ p, φ q) ∈ (tetReport s).map (Prod.map φ φ) ↔ (p, q) ∈ tetReport s := by
    intro s p q
    exact List.mem_map_of_injective (f := Prod.map φ φ) (a := (p, q)) (hφ.prodMap hφ)
  rw [hE.runs, hE.runs, mem, mem, tetReport_both _ (fun e => huv (by rw [e])) (fun e => hxy (by rw [e])) hi hj hi' hj']
  simp only [decide_eq_decide]
  rcases ok.inv.sg 2 _ hlx with e | e <;> rcases ok.inv.sg 2 _ hly with e' | e' <;> simp [e, e']

/-- **C115.**  The number of oriented edges of a tetrahedron whose composition has `k` positive faces: twelve if all faces have the
same orientation, nine if one differs, eight if two do. -/
theorem edges_tetrahedron_card (t : Topo) (ht : VReachable t) (o : Id) (ho : o ∈ (t.lvl 3).ors) (k : Nat)
    (hk : (t.compF 3 (t.fp 3 o)).countP (fun x => t.sg 2 x = 1) = k) :
    (t.edges 3 o).toFinset.card = 6 + k.choose 2 + (4 - k).choose 2 := by
  obtain ⟨ok, st⟩ := ht.ok
  obtain ⟨φ, ψ, hφ, hV, hc, hψ, hF, hE⟩ := tet_frame ok.inv st ho
  rw [hE.card ok.inv st (edges_live ok.inv ho)]
  have hm : ((tetReport fun k => decide (t.sg 2 (ψ k) = 1)).map (Prod.map φ φ)).toFinset =
      (tetReport fun k => decide (t.sg 2 (ψ k) = 1)).toFinset.image (Prod.map φ φ) := by
    ext p
    simp
  rw [hm, Finset.card_image_of_injective _ (hφ.prodMap hφ)]
  apply tetReport_card
  rw [hc, List.ofFn_eq_map, List.countP_map] at hk
  exact hk

/-- **C115.**  A tetrahedron none of whose faces existed before reports each of its edges in both directions, as
tests/mito.lib/topology/cell_edges.cc expects. -/
theorem edges_tetrahedron_new (t t' : Topo) (ht : VReachable t) (a b c d o : Id) (hl : ∀ v ∈ [a, b, c, d], v ∈ (t.lvl 0).fps)
    (h : t.tetrahedron a b c d = some (t', o)) (hnew : ∀ f ∈ (t.lvl 2).fps, ¬ (t.vertexSet 2 f) ⊆ [a, b, c, d])
    (u v : Id) (hu : u ∈ [a, b, c, d]) (hv : v ∈ [a, b, c, d]) (huv : u ≠ v) : Runs t' (t'.edges 3 o) u v := by
  obtain ⟨ok, st⟩ := ht.ok
  have ha := hl a (by simp)
  have hb := hl b (by simp)
  have hc := hl c (by simp)
  have hd := hl d (by simp)
  have hpos := tetrahedron_fresh ok st ha hb hc hd h fun f hf hs => hnew f hf (by
    intro w hw
    have := hs (show w ∈ VS t 2 f by simpa [VS] using hw)
    simpa using this)
  obtain ⟨ok', -, lo⟩ := tetrahedron_ok ok ha hb hc hd h
  obtain ⟨st', of, -⟩ := tetrahedron_std ok st ha hb hc hd h
  have hVS := TetO_VS of
  obtain ⟨φ, ψ, hφ, hV, hcm, hψ, hF, hE⟩ := tet_frame ok'.inv st' lo
  have mem : ∀ w ∈ [a, b, c, d], ∃ i, φ i = w := by
    intro w hw
    refine (hV w).mp ?_
    have : w ∈ VS t' 3 (t'.fp 3 o) := by rw [hVS]; simpa using hw
    simpa [VS] using this
  obtain ⟨i, rfl⟩ := mem u hu
  obtain ⟨j, rfl⟩ := mem v hv
  rw [hE.runs]
  refine List.mem_map.mpr ⟨(i, j), ?_, rfl⟩
  have hs : (fun k => decide (t'.sg 2 (ψ k) = 1)) = fun _ => true := by
    funext k
    simp only [decide_eq_true_eq]
    exact hpos _ (by rw [hcm, List.mem_ofFn]; exact ⟨k, rfl⟩)
  rw [hs]
  have hij : i ≠ j := fun e => huv (by rw [e])
  revert hij
  clear * -
  revert i j
  decide

/-! ### examples -/

/-- two tetrahedra with a common face, then a face of the first in either orientation -/
@[irreducible] def edgesExample : Topo := (run (.init (List.range 80)) [.vertex, .vertex, .vertex, .vertex, .vertex,
  .tetrahedron 0 1 2 3, .tetrahedron 1 2 3 4, .triangle 0 1 2, .triangle 1 0 2]).getD (.init [])

theorem edgesExample_reachable : VReachable edgesExample :=
  ⟨List.range 80, [.vertex, .vertex, .vertex, .vertex, .vertex, .tetrahedron 0 1 2 3, .tetrahedron 1 2 3 4, .triangle 0 1 2,
    .triangle 1 0 2], by decide, by unfold edgesExample; exact run_eq_some _ (by decide +kernel)⟩

/-- **C115 is false for negative orientations.**  The edges of the triangle 1 0 2 run 0 → 1 → 2 → 0, not 1 → 0 → 2 → 1, because the
triangle 0 1 2 was made first. -/
theorem edges_run_backwards : ∃ t, VReachable t ∧ ∃ o ∈ (t.lvl 2).ors, t.verticesOf 2 o = some [1, 0, 2] ∧
    RunAlong t (t.edges 2 o) (triangleEdges 0 1 2) ∧ ¬ RunAlong t (t.edges 2 o) (triangleEdges 1 0 2) :=
  ⟨edgesExample, edgesExample_reachable, 61, by decide +kernel, by decide +kernel, by decide +kernel, by decide +kernel⟩

/-- **C115 is false for tetrahedra with faces that existed.**  The first of two tetrahedra with a common face has twelve oriented edges,
the second one nine. -/
theorem edges_depend_on_history : ∃ t, VReachable t ∧ ∃ o ∈ (t.lvl 3).ors, ∃ o' ∈ (t.lvl 3).ors, t.sg 3 o = 1 ∧ t.sg 3 o' = 1 ∧
    (t.edges 3 o).toFinset.card = 12 ∧ (t.edges 3 o').toFinset.card = 9 :=
  ⟨edgesExample, edgesExample_reachable, 40, by decide +kernel, 60, by decide +kernel, by decide +kernel, by decide +kernel,
    by decide +kernel, by decide +kernel⟩

/-- the hypotheses of `edges_triangle` can be met with either orientation -/
example : (18 ∈ (edgesExample.lvl 2).ors ∧ IsTriangle edgesExample 18 0 1 2 ∧ edgesExample.sg 2 18 = 1) ∧
    61 ∈ (edgesExample.lvl 2).ors ∧ IsTriangle edgesExample 61 1 0 2 ∧ edgesExample.sg 2 61 = -1 :=
  ⟨⟨by decide +kernel, ⟨[0, 1, 2], by decide +kernel, by decide +kernel⟩, by decide +kernel⟩, by decide +kernel,
    ⟨[1, 0, 2], by decide +kernel, by decide +kernel⟩, by decide +kernel⟩

/-- the hypotheses of `edges_tetrahedron_new` can be met, also where other triangles exist -/
example : ∃ t t' o, VReachable t ∧ (∀ v ∈ [1, 2, 3, 4], v ∈ (t.lvl 0).fps) ∧ t.tetrahedron 1 2 3 4 = some (t', o) ∧
    (t.lvl 2).fps.Nonempty ∧ ∀ f ∈ (t.lvl 2).fps, ¬ (t.vertexSet 2 f) ⊆ [1, 2, 3, 4] := by
  let t := (run (.init (List.range 80)) [.vertex, .vertex, .vertex, .vertex, .vertex, .triangle 0 1 2]).getD (.init [])
  have ht : VReachable t := ⟨List.range 80, [.vertex, .vertex, .vertex, .vertex, .vertex, .triangle 0 1 2], by decide,
    run_eq_some _ (by decide +kernel)⟩
  obtain ⟨⟨t', o⟩, h⟩ : ∃ r, t.tetrahedron 1 2 3 4 = some r := Option.isSome_iff_exists.mp (by decide +kernel)
  exact ⟨t, t', o, ht, by decide +kernel, h, by decide +kernel, by decide +kernel⟩

end Mito.Topology
