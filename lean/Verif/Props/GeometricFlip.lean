import Verif.Props.Boundary

/-! # Properties of flipping geometric simplices and of the nodes of a mesh (C84) -/

namespace Mito.Meshes

open Mito.Topology Mito.Combinatorics

/-- **C84.**  Flipping a geometric simplex of order 1 to 3 gives the geometric simplex on the flipped
simplex: same footprint, opposite orientation.  It has the same nodes, reordered by an odd permutation,
and they match the vertices of the flipped simplex as the assertion of the constructor requires. -/
theorem flip_cell (t t' : Topo) (ht : VReachable t) (N : Nat) (hN : 1 ≤ N ∧ N ≤ 3) (c d : GCell)
    (hc : CellOk t N c) (h : c.flip t N = some (t', d)) :
    CellOk t' N d ∧ t'.fp N d.simplex = t.fp N c.simplex ∧ t'.sg N d.simplex = - t.sg N c.simplex ∧
      d.nodes.Perm c.nodes ∧
      permutationSign (d.nodes.map (·.vertex)) (c.nodes.map (·.vertex)) = some (-1) :=
  (flip_cell_aux ht.ok.1 ht.ok.2 hN hc h).2

/-- **C84.**  Flipping a geometric simplex succeeds while the allocator can provide 59 addresses. -/
theorem flip_cell_defined (t : Topo) (ht : VReachable t) (N : Nat) (hN : 1 ≤ N ∧ N ≤ 3) (c : GCell)
    (hc : CellOk t N c) (hfr : Fresh t 59) : ∃ t' d, c.flip t N = some (t', d) :=
  flip_cell_defined_aux ht.ok.1 ht.ok.2 hN hc hfr

/-- **C84.**  Flipping twice gives back the same simplex on the same nodes, reordered by an even
permutation. -/
theorem flip_cell_twice (t t' t'' : Topo) (ht : VReachable t) (N : Nat) (hN : 1 ≤ N ∧ N ≤ 3)
    (c d e : GCell) (hc : CellOk t N c) (h : c.flip t N = some (t', d))
    (h' : d.flip t' N = some (t'', e)) :
    e.simplex = c.simplex ∧ e.nodes.Perm c.nodes ∧
      permutationSign (e.nodes.map (·.vertex)) (c.nodes.map (·.vertex)) = some 1 := by
  obtain ⟨g, hd, f1, s1, p1, q1⟩ := flip_cell_aux ht.ok.1 ht.ok.2 hN hc h
  obtain ⟨g', he, f2, s2, p2, q2⟩ := flip_cell_aux g.ok g.std hN hd h'
  refine ⟨?_, p2.trans p1, ?_⟩
  · have hlive := (g.le.trans g'.le).ors N hc.1
    refine g'.ok.inv.oriented_unique he.1 hlive ?_ ?_
    · rw [f2, f1, (g.le.trans g'.le).ofp N _ hc.1]
    · rw [s2, s1, neg_neg, (g.le.trans g'.le).osg N _ hc.1]
  · have hnd : (d.nodes.map (·.vertex)).Nodup := by
      obtain ⟨l, hl, hnd, _⟩ := verticesOf_spec g.ok.inv g.std hN.2 hd.1
      have := hd.2
      unfold GCell.sanityCheck at this
      rw [hl] at this
      exact (perm_of_permutationSign (by simpa using this)).nodup_iff.mp hnd
    simpa using permutationSign_trans hnd q2 q1

example : VReachable exB ∧ CellOk exB 2 ⟨17, [exNode 0, exNode 1, exNode 2]⟩ ∧
    (GCell.flip exB 2 ⟨17, [exNode 0, exNode 1, exNode 2]⟩).map (·.2.nodes) =
      some [exNode 1, exNode 0, exNode 2] := by
  refine ⟨exB_reachable, ⟨?_, ?_⟩, ?_⟩ <;> decide +kernel

/-- **C84.**  The nodes of a mesh are the nodes of its cells, each listed once. -/
theorem mem_getNodes (cells : List GCell) :
    (getNodes cells).Nodup ∧ ∀ n, n ∈ getNodes cells ↔ ∃ c ∈ cells, n ∈ c.nodes := by
  unfold getNodes
  exact ⟨List.nodup_dedup _, by simp⟩

end Mito.Meshes
