import Verif.Fem.SegmentErrorLemmas
import Verif.Props.RefinedPoisson
import Verif.Props.RefineShape

/-! # The boundary, the lengths and the positions of refined meshes of segments -/

namespace Mito.Fem

open Mito.Functions Mito.Geometry Mito.Quadrature Mito.Meshes Mito.Topology Mito.Discretizer Mito.DiscreteSystem Mito.Refine MeasureTheory

variable {t : Topo} {cells B : List GCell} {p : Id → Val (.vec 1)}

/-- the vertex of a facet is one of the vertices of the cell, and conversely -/
theorem facet_vertex (ht : VReachable t) {c : GCell} (hc : CellOk t 1 c) {a : Id} :
    a ∈ c.vertices ↔ ∃ f ∈ facets t 0 c, f.1 = a := by
  obtain ⟨ok, st⟩ := ht.ok
  rw [← hc.vertices_mem ht (by omega), mem_VS_succ]
  constructor
  · rintro ⟨x, hx, ha⟩
    refine ⟨(t.fp 0 x, t.sg 0 x), mem_facets.mpr ⟨x, (composition_perm t 1 c.simplex).mem_iff.mpr hx, rfl⟩, ?_⟩
    simpa [VS, Topo.vertexSet, eq_comm] using ha
  · rintro ⟨f, hf, rfl⟩
    obtain ⟨x, hx, rfl⟩ := mem_facets.mp hf
    refine ⟨x, (composition_perm t 1 c.simplex).mem_iff.mp hx, ?_⟩
    simp [VS, Topo.vertexSet]

/-- a node on the boundary of a mesh of segments is in one segment only -/
theorem boundary_once (h : Divides t cells B p) {b : GCell} (hb : b ∈ B) {x : Node} (hx : x ∈ b.nodes) :
    cells.countP (fun c => c.vertices.contains x.vertex) = 1 := by
  obtain ⟨ok, st⟩ := h.topology.ok
  obtain ⟨m, s, known, t', hm, hcl, hbd⟩ := h.mesh
  obtain ⟨y, hy, p1, p2, p3⟩ := forall₂_right (boundary_collects h.topology (by omega) hm hcl h.cell t' B hbd).1 b hb
  obtain ⟨hy, hun⟩ := List.mem_filter.mp hy
  have hun : Unpaired t 0 cells y.1 := of_decide_eq_true hun
  obtain ⟨c, hc, hy⟩ := List.mem_flatMap.mp hy
  obtain ⟨y', hy', rfl⟩ := List.mem_map.mp hy
  have hv : t.fp 0 y' = x.vertex := by
    simp only [Topo.verticesOf, Option.some.injEq] at p3
    have : x.vertex ∈ b.nodes.map (·.vertex) := List.mem_map_of_mem hx
    rw [← p3] at this
    exact (List.mem_singleton.mp this).symm
  have hlive := composition_live ok.inv (h.cell c hc).1 _ hy'
  have hσ := ok.inv.sg 0 y' hlive
  -- every facet at the vertex has the same sign
  have hsame : ∀ c' ∈ cells, ∀ f ∈ facets t 0 c', f.1 = x.vertex → f = (t.fp 0 y', t.sg 0 y') := by
    intro c' hc' f hf hfx
    have h1 := facets_sign ok.inv (h.cell c' hc').1 f hf
    have h2 := hun c' hc'
    by_contra hne
    refine h2 ?_
    have : f = (t.fp 0 y', - t.sg 0 y') := by
      refine Prod.ext (by rw [hfx, hv]) ?_
      have h3 : f.2 ≠ t.sg 0 y' := fun h3 => hne (Prod.ext (by rw [hfx, hv]) h3)
      simp only
      omega
    rwa [this] at hf
  -- so there is one
  have hpos : 0 < cells.countP (fun c => c.vertices.contains x.vertex) := by
    refine List.countP_pos_iff.mpr ⟨c, hc, List.contains_iff_mem.mpr ?_⟩
    exact (facet_vertex h.topology (h.cell c hc)).mpr ⟨_, mem_facets.mpr ⟨y', hy', rfl⟩, hv⟩
  have hle : cells.countP (fun c => c.vertices.contains x.vertex) ≤ 1 := by
    rw [List.countP_eq_length_filter]
    by_contra hgt
    rcases hl : cells.filter (fun c => c.vertices.contains x.vertex) with _ | ⟨c1, _ | ⟨c2, l⟩⟩
    · rw [hl] at hgt
      exact hgt (by simp)
    · rw [hl] at hgt
      exact hgt (by simp)
    · have := hl
      have hsub : [c1, c2].Sublist cells := by
        refine List.Sublist.trans ?_ (List.filter_sublist (p := fun c : GCell => c.vertices.contains x.vertex) (l := cells))
        rw [hl]
        exact (List.nil_sublist l).cons₂ c2 |>.cons₂ c1
      have hnd : ([c1, c2].flatMap (facets t 0)).Nodup := h.ends.sublist (hsub.flatMap (facets t 0))
      have hmem : ∀ c' ∈ [c1, c2], c' ∈ cells ∧ x.vertex ∈ c'.vertices := by
        intro c' hc'
        have : c' ∈ cells.filter (fun c => c.vertices.contains x.vertex) := by rw [hl]; simp at hc' ⊢; tauto
        obtain ⟨g1, g2⟩ := List.mem_filter.mp this
        exact ⟨g1, List.contains_iff_mem.mp g2⟩
      obtain ⟨m1, v1⟩ := hmem c1 (by simp)
      obtain ⟨m2, v2⟩ := hmem c2 (by simp)
      obtain ⟨f1, hf1, e1⟩ := (facet_vertex h.topology (h.cell c1 m1)).mp v1
      obtain ⟨f2, hf2, e2⟩ := (facet_vertex h.topology (h.cell c2 m2)).mp v2
      simp only [List.flatMap_cons, List.flatMap_nil, List.append_nil] at hnd
      refine (List.disjoint_of_nodup_append hnd) hf1 ?_
      rw [hsame c1 m1 f1 hf1 e1, ← hsame c2 m2 f2 hf2 e2]
      exact hf2
  omega

/-! ## Refined meshes -/

theorem contains_holds {n k : Nat} {coarse : List (List (PNode ℝ))} {v : Nat → Id} (hr : RefinedFrom n k coarse v cells) (i : Nat) :
    cells.countP (fun c => c.vertices.contains (v i)) = (tetra n k coarse).2.countP (holds [i]) := by
  obtain ⟨hv, hr⟩ := hr
  have e1 : cells.countP (fun c => c.vertices.contains (v i)) = (cells.map (·.vertices)).countP fun l => l.contains (v i) := by
    rw [List.countP_map]
    rfl
  rw [e1, hr, List.countP_map]
  refine List.countP_congr fun e _ => ?_
  simp only [Function.comp_apply, holds, List.all_cons, List.all_nil, Bool.and_true, List.contains_iff_mem, List.mem_map]
  constructor
  · rintro ⟨q, hq, e⟩
    exact ⟨q, hq, hv e⟩
  · rintro ⟨q, hq, rfl⟩
    exact ⟨q, hq, rfl⟩

/-- a cell of the refined mesh -/
theorem refined_cell {n k : Nat} {coarse : List (List (PNode ℝ))} {v : Nat → Id} (hr : RefinedFrom n k coarse v cells) {c : GCell}
    (hc : c ∈ cells) : ∃ d ∈ (tetra n k coarse).2, c.vertices = d.map fun q => v q.id := by
  have : c.vertices ∈ (tetra n k coarse).2.map fun d => d.map fun q => v q.id := by
    rw [← hr.2]
    exact List.mem_map_of_mem hc
  obtain ⟨d, hd, e⟩ := List.mem_map.mp this
  exact ⟨d, hd, e.symm⟩

/-- the positions of the boundary nodes of the refined mesh are those of the coarse mesh -/
theorem refined_ends (h : Divides t cells B p) {n k : Nat} {coarse : List (List (PNode ℝ))} (hco : Coarse 1 k coarse) {v : Nat → Id}
    (hr : RefinedAt n k coarse v cells p) {u : ℝ → ℝ} (hu : CoarseVanishes coarse u) : VanishesAtEnds B p u := by
  intro b hb x hx
  have h1 := boundary_once h hb hx
  obtain ⟨c, hc, hxc⟩ := List.countP_pos_iff.mp (show 0 < cells.countP fun c => c.vertices.contains x.vertex by rw [h1]; exact one_pos)
  obtain ⟨d, hd, e⟩ := refined_cell hr.1 hc
  have hxd := List.contains_iff_mem.mp hxc
  rw [e] at hxd
  obtain ⟨q, hq, hqx⟩ := List.mem_map.mp hxd
  rw [← hqx, contains_holds hr.1, refined_segments hco] at h1
  rw [← hqx, hr.2 d hd q hq]
  split at h1
  · rename_i hlt
    -- an old node
    obtain ⟨c0, hc0, -, -, hor, -⟩ := refine_children 1 n k coarse (fun c hc => (hco c hc).1) (by omega) (by omega) d hd
    rcases hor q hq with hq0 | hq0
    · exact hu c0 hc0 q hq0 h1
    · omega
  · split at h1 <;> omega

/-- the absolute value of the first coordinate -/
noncomputable def firstSize : Seminorm ℝ (Nat → ℝ) := (normSeminorm ℝ ℝ).comp (LinearMap.proj 0)

theorem firstSize_eq (a : Nat → ℝ) : firstSize a = |a 0| := rfl

theorem refined_short {n k : Nat} {coarse : List (List (PNode ℝ))} (hco : Coarse 1 k coarse) {v : Nat → Id}
    (hr : RefinedAt n k coarse v cells p) {r R : ℝ} (hs : CoarseShort coarse r R) : Short cells p (r / 2 ^ n) R := by
  intro c hc
  obtain ⟨d, hd, e⟩ := refined_cell hr.1 hc
  have hsz := refine_size firstSize r n k coarse (fun c hc => Or.inl (hco c hc).1) (fun c hc => by
    obtain ⟨h1, -⟩ := hs c hc
    refine List.pairwise_of_forall_mem_list fun a ha b hb => ?_
    exact h1 a ha b hb) d hd
  have hin : ∀ q ∈ d, |q.pos 0| ≤ R := by
    intro q hq
    have hq' : ∃ d ∈ (tetra n k coarse).2, InHull d q.pos := by
      refine ⟨d, hd, ?_⟩
      obtain ⟨l1, l2, rfl⟩ := List.append_of_mem hq
      refine ⟨List.replicate l1.length 0 ++ 1 :: List.replicate l2.length 0, by simp, ?_, by simp, fun i => ?_⟩
      · intro a ha
        simp only [List.mem_append, List.mem_replicate, List.mem_cons] at ha
        rcases ha with ⟨-, rfl⟩ | rfl | ⟨-, rfl⟩ <;> norm_num
      · have z : ∀ l : List (PNode ℝ), (List.zipWith (fun a (p : PNode ℝ) => a * p.pos i) (List.replicate l.length 0) l).sum = 0 := by
          intro l
          induction l with
          | nil => rfl
          | cons x l ih => simp [List.replicate_succ, ih]
        rw [List.zipWith_append (by simp), List.sum_append, z, List.zipWith_cons_cons, List.sum_cons, z]
        ring
    obtain ⟨c0, hc0, w, hw1, hw2, hw3, hw4⟩ := (refine_fills n k coarse (fun c hc => by
      have := (hco c hc).1
      exact ⟨by omega, by omega⟩) q.pos).mp hq'
    have hlen := (hco c0 hc0).1
    obtain ⟨-, hb⟩ := hs c0 hc0
    match c0, hlen, w, hw1 with
    | [a, b], _, [wa, wb], _ =>
      have e0 := hw4 0
      simp only [List.zipWith_cons_cons, List.zipWith_nil_right, List.sum_cons, List.sum_nil, add_zero] at e0 hw3
      have ha0 := abs_le.mp (hb a (by simp))
      have hb0 := abs_le.mp (hb b (by simp))
      have hwa := hw2 wa (by simp)
      have hwb := hw2 wb (by simp)
      rw [e0, abs_le]
      constructor <;> nlinarith
  obtain ⟨-, -, hlen, -⟩ := refine_children 1 n k coarse (fun c hc => (hco c hc).1) (by omega) (by omega) d hd
  match d, hlen with
  | [a, b], _ =>
    have ha := hr.2 _ hd a (by simp)
    have hb := hr.2 _ hd b (by simp)
    rw [GCell.vertices] at e
    have e0 : positions 2 p c 0 0 = a.pos 0 := by rw [← ha]; simp [positions, e]
    have e1 : positions 2 p c 1 0 = b.pos 0 := by rw [← hb]; simp [positions, e]
    refine ⟨?_, fun i => ?_⟩
    · rw [length, e0, e1]
      rw [SizeLe, List.pairwise_pair, firstSize_eq] at hsz
      exact (le_abs_self _).trans hsz
    · fin_cases i
      · exact e0 ▸ hin a (by simp)
      · exact e1 ▸ hin b (by simp)

theorem refined_length {n k : Nat} {coarse : List (List (PNode ℝ))} (hco : Coarse 1 k coarse) {v : Nat → Id}
    (hr : RefinedAt n k coarse v cells p) : lengthOf cells p = (coarse.map (signedVolume 0 0 0)).sum := by
  rw [← refine_total_volume 1 n k coarse (fun c hc => (hco c hc).1) (by omega) (by omega) 0 0 0]
  have e : ∀ c : GCell, length (positions 2 p c) = p (c.vertices.getD 1 0) 0 - p (c.vertices.getD 0 0) 0 := fun c => rfl
  have e1 : lengthOf cells p = ((cells.map (·.vertices)).map fun l => p (l.getD 1 0) 0 - p (l.getD 0 0) 0).sum := by
    rw [lengthOf, List.map_map]
    rfl
  rw [e1, hr.1.2, List.map_map]
  refine congrArg List.sum (List.map_congr_left fun d hd => ?_)
  obtain ⟨-, -, hlen, -⟩ := refine_children 1 n k coarse (fun c hc => (hco c hc).1) (by omega) (by omega) d hd
  match d, hlen with
  | [a, b], _ =>
    have ha := hr.2 _ hd a (by simp)
    have hb := hr.2 _ hd b (by simp)
    simp [signedVolume, ha, hb]

end Mito.Fem
