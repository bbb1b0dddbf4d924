import Verif.Mesh.RefineTornLemmas
import Verif.Props.Boundary
import Verif.Fem.DirichletLemmas
import Mathlib.Data.Finset.Card

/-! # Helper lemmas for the boundary of refined meshes: facets and vertices -/

namespace Mito.Meshes

open Mito.Topology Mito.Combinatorics Mito.Refine

variable {t : Topo} {N : Nat}

/-- every vertex of a simplex is opposite to a facet -/
theorem facet_opposite (ht : VReachable t) (hN : N = 1 ∨ N = 2) {o : Id} (ho : o ∈ (t.lvl (N + 1)).ors) {a : Id}
    (ha : a ∈ VS t (N + 1) (t.fp (N + 1) o)) : ∃ x ∈ t.composition (N + 1) o, VS t N (t.fp N x) = (VS t (N + 1) (t.fp (N + 1) o)).erase a := by
  obtain ⟨ok, st⟩ := ht.ok
  have hp := composition_perm t (N + 1) o
  rcases hN with rfl | rfl
  · obtain ⟨p, q, r, hF⟩ := st.tri _ (ok.inv.fp_live 2 o ho)
    rw [TriF_VS hF] at ha ⊢
    obtain ⟨n, x, y, z, e, hx, hy, hz⟩ := hF
    rw [e] at hp
    simp only [List.nodup_cons, List.mem_cons, List.not_mem_nil, or_false, not_or, not_false_eq_true, List.nodup_nil, and_true] at n
    obtain ⟨⟨n1, n2⟩, n3⟩ := n
    simp only [Finset.mem_insert, Finset.mem_singleton] at ha
    rcases ha with rfl | rfl | rfl
    · exact ⟨y, hp.mem_iff.mpr (by simp), by rw [SegO_VS hy]; ext w; simp; grind⟩
    · exact ⟨z, hp.mem_iff.mpr (by simp), by rw [SegO_VS hz]; ext w; simp; grind⟩
    · exact ⟨x, hp.mem_iff.mpr (by simp), by rw [SegO_VS hx]; ext w; simp; grind⟩
  · obtain ⟨p, q, r, s, hF⟩ := st.tet _ (ok.inv.fp_live 3 o ho)
    rw [TetF_VS hF] at ha ⊢
    obtain ⟨n, x, y, z, u, e, hx, hy, hz, hu⟩ := hF
    rw [e] at hp
    simp only [List.nodup_cons, List.mem_cons, List.not_mem_nil, or_false, not_or, not_false_eq_true, List.nodup_nil, and_true] at n
    obtain ⟨⟨n1, n2, n3⟩, ⟨n4, n5⟩, n6⟩ := n
    simp only [Finset.mem_insert, Finset.mem_singleton] at ha
    rcases ha with rfl | rfl | rfl | rfl
    · exact ⟨y, hp.mem_iff.mpr (by simp), by rw [TriO_VS hy]; ext w; simp; grind⟩
    · exact ⟨u, hp.mem_iff.mpr (by simp), by rw [TriO_VS hu]; ext w; simp; grind⟩
    · exact ⟨z, hp.mem_iff.mpr (by simp), by rw [TriO_VS hz]; ext w; simp; grind⟩
    · exact ⟨x, hp.mem_iff.mpr (by simp), by rw [TriO_VS hx]; ext w; simp; grind⟩

theorem VS_card (ht : VReachable t) (hN : N ≤ 3) {o : Id} (ho : o ∈ (t.lvl N).ors) : (VS t N (t.fp N o)).card = N + 1 := by
  obtain ⟨ok, st⟩ := ht.ok
  obtain ⟨l, -, h2, h3, h4⟩ := verticesOf_spec ok.inv st hN ho
  rw [← h3, List.toFinset_card_of_nodup h2, h4]

/-- the facets of a simplex have different vertices -/
theorem facet_injective (ht : VReachable t) (hN : N = 1 ∨ N = 2) {o x y : Id} (ho : o ∈ (t.lvl (N + 1)).ors)
    (hx : x ∈ t.composition (N + 1) o) (hy : y ∈ t.composition (N + 1) o) (h : t.fp N x = t.fp N y) : x = y := by
  obtain ⟨ok, st⟩ := ht.ok
  have hlen := composition_length ok.inv ho
  have hcard := VS_card ht (by omega) ho
  have hsub : (VS t (N + 1) (t.fp (N + 1) o)).image (fun a => (VS t (N + 1) (t.fp (N + 1) o)).erase a) ⊆
      ((t.composition (N + 1) o).map fun x => VS t N (t.fp N x)).toFinset := by
    intro s hs
    obtain ⟨a, ha, rfl⟩ := Finset.mem_image.mp hs
    obtain ⟨z, hz, e⟩ := facet_opposite ht hN ho ha
    exact List.mem_toFinset.mpr (List.mem_map.mpr ⟨z, hz, e⟩)
  have hinj : Set.InjOn (fun a => (VS t (N + 1) (t.fp (N + 1) o)).erase a) (VS t (N + 1) (t.fp (N + 1) o)) :=
    Finset.erase_injOn _
  have h1 := Finset.card_le_card hsub
  rw [Finset.card_image_of_injOn hinj, hcard] at h1
  have h2 : ((t.composition (N + 1) o).map fun x => VS t N (t.fp N x)).Nodup := by
    rw [← Multiset.coe_nodup, ← Multiset.toFinset_card_eq_card_iff_nodup]
    refine le_antisymm (Multiset.toFinset_card_le _) ?_
    rw [Multiset.coe_card, List.length_map, hlen]
    exact h1
  exact List.inj_on_of_nodup_map h2 hx hy (by rw [h])

/-- the nodes of a cell and the vertices of its simplex -/
theorem CellOk.vertices_mem (ht : VReachable t) (hN : N ≤ 3) {c : GCell} (hc : CellOk t N c) {a : Id} :
    a ∈ VS t N (t.fp N c.simplex) ↔ a ∈ c.vertices := by
  obtain ⟨ok, st⟩ := ht.ok
  obtain ⟨ho, hs⟩ := hc
  obtain ⟨l, hl, -, hV, -⟩ := verticesOf_spec ok.inv st hN ho
  simp only [GCell.sanityCheck, hl, beq_iff_eq] at hs
  rw [← hV, List.mem_toFinset, (perm_of_permutationSign hs).mem_iff]
  rfl

/-- a facet whose vertices belong to one cell only is on the boundary -/
theorem node_on_boundary {m : Mesh GCell} {s : SegVec.Abs GCell} {known : Finset Nat} {cells : List GCell} (ht : VReachable t)
    (hN : N = 1 ∨ N = 2) (hm : Reachable (facets t N) m s known) (hcl : m.cellList = some cells) (hcell : ∀ c ∈ cells, CellOk t (N + 1) c)
    {t' : Topo} {B : List GCell} (h : boundary t N m = some (t', B)) (hone : OneNode cells) {S : Finset Id} (hS : S.card = N + 1)
    {c : GCell} (hc : c ∈ cells) (hin : ∀ a ∈ S, a ∈ c.vertices) (honly : ∀ c' ∈ cells, (∀ a ∈ S, a ∈ c'.vertices) → c' = c)
    {x : Node} {c0 : GCell} (hc0 : c0 ∈ cells) (hx : x ∈ c0.nodes) (hxS : x.vertex ∈ S) : ∃ b ∈ B, x ∈ b.nodes := by
  obtain ⟨ok, st⟩ := ht.ok
  have hsub : S ⊆ VS t (N + 1) (t.fp (N + 1) c.simplex) := fun a ha => ((hcell c hc).vertices_mem ht (by omega)).mpr (hin a ha)
  have hcard := VS_card ht (by omega) (hcell c hc).1
  -- the facet
  obtain ⟨a, ha⟩ : ∃ a, a ∈ VS t (N + 1) (t.fp (N + 1) c.simplex) \ S := by
    refine Finset.card_pos.mp ?_
    rw [Finset.card_sdiff_of_subset hsub]
    omega
  obtain ⟨ha1, ha2⟩ := Finset.mem_sdiff.mp ha
  obtain ⟨y, hy, hVy⟩ := facet_opposite ht hN (hcell c hc).1 ha1
  have hSy : VS t N (t.fp N y) = S := by
    rw [hVy]
    refine (Finset.eq_of_subset_of_card_le (fun b hb => Finset.mem_erase.mpr ⟨?_, hsub hb⟩) ?_).symm
    · rintro rfl
      exact ha2 hb
    · rw [Finset.card_erase_of_mem ha1]
      omega
  have hlive := composition_live ok.inv (hcell c hc).1 y hy
  -- it is unpaired
  have hun : Unpaired t N cells y := by
    intro c' hc' hf
    obtain ⟨z, hz, he⟩ := mem_facets.mp hf
    obtain ⟨e1, e2⟩ := Prod.mk.injEq .. ▸ he
    have : c' = c := by
      refine honly c' hc' fun b hb => ?_
      rw [← (hcell c' hc').vertices_mem ht (by omega), mem_VS_succ]
      refine ⟨z, (composition_perm t (N + 1) c'.simplex).mem_iff.mp hz, ?_⟩
      rw [e1, hSy]
      exact hb
    subst this
    have := facet_injective ht hN (hcell c' hc').1 hz hy e1
    subst this
    have := ok.inv.sg N z hlive
    omega
  have hmem : (y, c.nodes) ∈ boundaryFacets t N cells := by
    refine List.mem_filter.mpr ⟨List.mem_flatMap.mpr ⟨c, hc, List.mem_map.mpr ⟨y, hy, rfl⟩⟩, ?_⟩
    exact decide_eq_true hun
  obtain ⟨b, hb, p1, p2, p3⟩ := forall₂_mem (boundary_collects ht (by omega) hm hcl hcell t' B h).1.flip hmem
  refine ⟨b, hb, ?_⟩
  obtain ⟨l, hl, -, hV, -⟩ := verticesOf_spec ok.inv st (by omega) hlive
  rw [hl] at p3
  have hxl : x.vertex ∈ l := by
    rw [← List.mem_toFinset, hV, hSy]
    exact hxS
  rw [Option.some.inj p3] at hxl
  obtain ⟨x', hx', e⟩ := List.mem_map.mp hxl
  have : x' = x := hone c hc c0 hc0 x' (p2 x' hx') x hx e
  rw [← this]
  exact hx'

/-- all nodes of a refined mesh are on its boundary -/
theorem refined_on_boundary {K : Type*} [Field K] (h2 : (2 : K) ≠ 0) {m : Mesh GCell} {s : SegVec.Abs GCell} {known : Finset Nat}
    {cells : List GCell} (ht : VReachable t) (hN : N = 1 ∨ N = 2) (hm : Reachable (facets t N) m s known) (hcl : m.cellList = some cells)
    (hcell : ∀ c ∈ cells, CellOk t (N + 1) c) {t' : Topo} {B : List GCell} (h : boundary t N m = some (t', B)) (hone : OneNode cells)
    {n k : Nat} {coarse : List (List (PNode K))} (hco : Coarse (N + 1) k coarse) {v : Nat → Id} (hr : RefinedFrom (n + 1) k coarse v cells) :
    ∀ c ∈ cells, ∀ x ∈ c.nodes, ∃ b ∈ B, x ∈ b.nodes := by
  obtain ⟨hv, hr⟩ := hr
  have hex := tetra_exposed (n := n) (k := k) h2 (N := N + 1) (by omega) (fun c hc => (hco c hc).1) (fun c hc => (hco c hc).2.1)
    fun c hc => (hco c hc).2.2
  intro c hc x hx
  have hvx : c.vertices ∈ (tetra (n + 1) k coarse).2.map fun d => d.map fun p => v p.id := by
    rw [← hr]
    exact List.mem_map_of_mem hc
  obtain ⟨d, hd, hdc⟩ := List.mem_map.mp hvx
  have hxv : x.vertex ∈ c.vertices := List.mem_map_of_mem hx
  rw [← hdc] at hxv
  obtain ⟨p, hp, hpx⟩ := List.mem_map.mp hxv
  obtain ⟨s, s1, s2, s3, -, s5⟩ := hex d hd p hp
  have hcount : cells.countP (fun c' => s.all fun i => c'.vertices.contains (v i)) = 1 := by
    have e1 : cells.countP (fun c' => s.all fun i => c'.vertices.contains (v i)) =
        (cells.map (·.vertices)).countP fun l => s.all fun i => l.contains (v i) := by
      rw [List.countP_map]
      rfl
    rw [e1, hr, List.countP_map]
    refine Eq.trans ?_ s5
    refine List.countP_congr fun e _ => ?_
    simp only [Function.comp_apply, holds, List.all_eq_true, List.contains_iff_mem, List.mem_map]
    refine forall₂_congr fun i _ => ⟨?_, ?_⟩
    · rintro ⟨q, hq, e⟩
      exact ⟨q, hq, hv e⟩
    · rintro ⟨q, hq, rfl⟩
      exact ⟨q, hq, rfl⟩
  obtain ⟨c1, hc1, hh1⟩ := List.countP_pos_iff.mp (by rw [hcount]; exact one_pos)
  have hval : ∀ {c' : GCell}, (∀ a ∈ (s.map v).toFinset, a ∈ c'.vertices) ↔ (s.all fun i => c'.vertices.contains (v i)) = true := by
    intro c'
    simp
  refine node_on_boundary ht hN hm hcl hcell h hone (S := (s.map v).toFinset) ?_ hc1 (hval.mpr hh1) (fun c' hc' ha => ?_) hc hx ?_
  · rw [List.toFinset_card_of_nodup (s2.map hv), List.length_map, s3]
  · have hl : (cells.filter fun c' => s.all fun i => c'.vertices.contains (v i)).length = 1 := by
      rw [← List.countP_eq_length_filter, hcount]
    obtain ⟨z, hz⟩ := List.length_eq_one_iff.mp hl
    have m1 : c1 ∈ cells.filter fun c' => s.all fun i => c'.vertices.contains (v i) := List.mem_filter.mpr ⟨hc1, hh1⟩
    have m2 : c' ∈ cells.filter fun c' => s.all fun i => c'.vertices.contains (v i) := List.mem_filter.mpr ⟨hc', hval.mp ha⟩
    rw [hz, List.mem_singleton] at m1 m2
    rw [m1, m2]
  · rw [← hpx]
    simp only [List.mem_toFinset]
    exact List.mem_map_of_mem s1

end Mito.Meshes
