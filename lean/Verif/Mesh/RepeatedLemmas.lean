import Verif.Spec.RepeatedCells
import Verif.Mesh.LoadFacesLemmas

/-! # Lemmas about loading files in which cells are repeated -/

namespace Mito.Load

open Mito.Topology Mito.Meshes Mito.Combinatorics

/-- what is known of a cell after loading if there may be others on the same nodes -/
structure OnNodes (n : Nat) (t : Topo) (nodes : List Node) (index : List Nat) (c : GCell) : Prop where
  onto : index.map (fun i => nodes[i]?) = c.nodes.map some
  live : c.simplex ∈ (t.lvl n).ors
  of : OfVertices t n c.simplex (index.map (vertexAt nodes))

theorem OnNodes.grows {n : Nat} {t t' : Topo} (hi : Inv t) (hg : Grows t t') {nodes : List Node} {index : List Nat} {c : GCell}
    (h : OnNodes n t nodes index c) : OnNodes n t' nodes index c where
  onto := h.onto
  live := hg.ors n h.live
  of := OfVertices_le hi hg h.live h.of

theorem OnNodes.vertices {n : Nat} {t : Topo} {nodes : List Node} {index : List Nat} {c : GCell} (h : OnNodes n t nodes index c) :
    c.vertices = index.map (vertexAt nodes) := by
  have := congrArg (List.map fun o : Option Node => (o.map (·.vertex)).getD 0) h.onto
  rw [List.map_map, List.map_map] at this
  refine this.symm.trans (List.map_congr_left fun i _ => ?_)
  simp [vertexAt, List.getD_eq_getElem?_getD]

theorem OnNodes.cellOk {n : Nat} {t : Topo} {nodes : List Node} {index : List Nat} {c : GCell} (h : OnNodes n t nodes index c) :
    CellOk t n c := by
  obtain ⟨l', e1, e2⟩ := OfVertices_vertices h.of
  have := h.vertices
  rw [GCell.vertices] at this
  exact ⟨h.live, by simp [GCell.sanityCheck, e1, this, e2]⟩

theorem makeCell_any {n : Nat} (hn : n = 1 ∨ n = 2 ∨ n = 3) {t : Topo} (h : VReachable t) {k : Nat} (hf : Fresh t (k + 58))
    {nodes : List Node} (hv : ∀ n ∈ nodes, n.vertex ∈ (t.lvl 0).fps) (hnd : (nodes.map (·.vertex)).Nodup) {index : List Nat}
    (hl : index.length = n + 1) (hi : ∀ i ∈ index, i < nodes.length) (hin : index.Nodup) :
    ∃ t' c, makeCell t nodes index = some (t', c) ∧ VReachable t' ∧ Fresh t' k ∧ Grows t t' ∧ OnNodes n t' nodes index c ∧
      (∀ f ∈ (t'.lvl n).fps, f ∈ (t.lvl n).fps ∨ VS t' n f = vertexSetOf nodes index) ∧
      ((∀ f ∈ (t.lvl n).fps, VS t n f ≠ vertexSetOf nodes index) → t'.sg n c.simplex = 1) := by
  obtain ⟨ns, e1, e2, e3⟩ := nodes_at hi
  have hlv : ∀ v ∈ index.map (vertexAt nodes), v ∈ (t.lvl 0).fps := by
    rw [← e2]
    intro v hm
    obtain ⟨x, hx, rfl⟩ := List.mem_map.mp hm
    exact hv x (e3 x hx)
  have hvn := map_vertexAt_nodup hnd hi hin
  have hlen : (index.map (vertexAt nodes)).length = n + 1 := by rw [List.length_map, hl]
  obtain ⟨t1, o, f1, f2⟩ := fromVertices_fresh h.ok.1 h.ok.2 (k := k) (by rw [hlen]; omega) hlv hvn hf
  obtain ⟨m, -, g2, ok1, st1, le1, l1, o1, -⟩ := fromVertices_spec h.ok.1 h.ok.2 hlv f1
  have hm : m = n := by omega
  subst hm
  obtain ⟨n1, n2⟩ := fromVertices_new h.ok.1 h.ok.2 hlv f1
  obtain ⟨p1, p2⟩ := step_fromVertices hlv f1
  rw [hlen, Nat.add_sub_cancel] at n1 n2 p2
  have hset : VS t1 m (t1.fp m o) = vertexSetOf nodes index := OfVertices_VS o1
  refine ⟨t1.hold m o, ⟨o, ns⟩, ?_, reachable_step h p1 p2, Fresh.of_same f2 rfl rfl, (Grows.of_le le1).lvl rfl,
    ⟨e1, l1, o1⟩, ?_, fun hnew => ?_⟩
  · simp only [makeCell, e1, allSome_map_some, mkCell, e2, f1, hl, Nat.add_sub_cancel]
  · intro f hf
    rcases n1 f hf with hf | rfl
    · exact Or.inl hf
    · right
      rw [← hset]
      rcases hn with rfl | rfl | rfl <;> rfl
  · refine n2 fun hm => hnew _ hm ?_
    rw [← hset]
    simp only [VS]
    rw [vertexSet_le h.ok.1.inv le1 hm]

theorem vertexSetOf_inj {nodes : List Node} (hn : (nodes.map (·.vertex)).Nodup) {c c' : List Nat} (hc : ∀ i ∈ c, i < nodes.length)
    (hc' : ∀ i ∈ c', i < nodes.length) (e : vertexSetOf nodes c = vertexSetOf nodes c') : c.toFinset = c'.toFinset := by
  have key : ∀ {c c' : List Nat}, (∀ i ∈ c, i < nodes.length) → (∀ i ∈ c', i < nodes.length) →
      vertexSetOf nodes c = vertexSetOf nodes c' → c.toFinset ⊆ c'.toFinset := by
    intro c c' hc hc' e i hi
    rw [List.mem_toFinset] at hi ⊢
    have : vertexAt nodes i ∈ vertexSetOf nodes c' := by
      rw [← e]
      simp only [vertexSetOf, List.mem_toFinset]
      exact List.mem_map.mpr ⟨i, hi, rfl⟩
    simp only [vertexSetOf, List.mem_toFinset] at this
    obtain ⟨j, hj, ej⟩ := List.mem_map.mp this
    rwa [← vertexAt_inj hn (hc' j hj) (hc i hi) ej]
  exact Finset.Subset.antisymm (key hc hc' e) (key hc' hc e.symm)

theorem vertexSetOf_congr {nodes : List Node} {c c' : List Nat} (e : c.toFinset = c'.toFinset) : vertexSetOf nodes c = vertexSetOf nodes c' := by
  ext v
  have hm : ∀ i, i ∈ c ↔ i ∈ c' := fun i => by rw [← List.mem_toFinset, e, List.mem_toFinset]
  simp only [vertexSetOf, List.mem_toFinset, List.mem_map, hm]

theorem firstOn_congr {cells : List (List Nat)} {c c' : List Nat} (e : c.toFinset = c'.toFinset) : firstOn cells c = firstOn cells c' := by
  rw [firstOn, firstOn, e]

theorem firstOn_append {cells rest : List (List Nat)} {c d : List Nat} (h : firstOn cells c = some d) :
    firstOn (cells ++ rest) c = some d := by
  rw [firstOn, List.find?_append]
  rw [firstOn] at h
  rw [h]
  rfl

theorem firstOn_self {cells : List (List Nat)} {c : List Nat} (h : firstOn cells c = none) : firstOn (cells ++ [c]) c = some c := by
  rw [firstOn] at h
  rw [firstOn, List.find?_append, h]
  simp

theorem firstOn_some {cells : List (List Nat)} {c d : List Nat} (h : firstOn cells c = some d) : d ∈ cells ∧ d.toFinset = c.toFinset := by
  rw [firstOn] at h
  exact ⟨List.mem_of_find?_eq_some h, by simpa using List.find?_some h⟩

theorem VS_grows {n : Nat} (hn : n = 1 ∨ n = 2 ∨ n = 3) {t t' : Topo} (hi : Inv t) (hg : Grows t t') {f : Id} (hf : f ∈ (t.lvl n).fps) :
    VS t' n f = VS t n f := by
  simp only [VS]
  rw [← vertexSet_le hi hg hf]
  rcases hn with rfl | rfl | rfl <;> rfl

/-- Loading cells after the cells `seen`: each is on its nodes, with the footprint of the first cell on them, which is positive. -/
theorem makeCells_any {n : Nat} (hn : n = 1 ∨ n = 2 ∨ n = 3) {t : Topo} (h : VReachable t) {k : Nat} {nodes : List Node}
    (cells seen : List (List Nat)) (hf : Fresh t (k + 58 * cells.length)) (hv : ∀ n ∈ nodes, n.vertex ∈ (t.lvl 0).fps)
    (hnd : (nodes.map (·.vertex)).Nodup) (hl : ∀ c ∈ cells, c.length = n + 1 ∧ (∀ i ∈ c, i < nodes.length) ∧ c.Nodup)
    (hseen : ∀ c ∈ seen, ∃ f ∈ (t.lvl n).fps, VS t n f = vertexSetOf nodes c)
    (hold : ∀ f ∈ (t.lvl n).fps, ∀ c ∈ cells, VS t n f = vertexSetOf nodes c → ∃ d g, firstOn seen c = some d ∧ Built n t nodes d g) :
    ∃ t' cs, makeCells nodes t cells = some (t', cs) ∧ VReachable t' ∧ Fresh t' k ∧ Grows t t' ∧
      List.Forall₂ (fun c g => OnNodes n t' nodes c g ∧ ∃ d g0, firstOn (seen ++ cells) c = some d ∧ Built n t' nodes d g0 ∧
        t'.fp n g.simplex = t'.fp n g0.simplex) cells cs := by
  induction cells generalizing t seen with
  | nil => exact ⟨t, [], rfl, h, hf, Grows.refl t, .nil⟩
  | cons c cells ih =>
    obtain ⟨h1, h2, h3⟩ := hl c (by simp)
    obtain ⟨t1, g, a1, a2, a3, a4, a5, a6, a7⟩ := makeCell_any hn h (k := k + 58 * cells.length) (hf.mono (by simp; omega)) hv hnd h1 h2 h3
    -- the first cell on the nodes of `c`
    have hfirst : ∃ d g0, firstOn (seen ++ [c]) c = some d ∧ Built n t1 nodes d g0 := by
      by_cases hex : ∃ f ∈ (t.lvl n).fps, VS t n f = vertexSetOf nodes c
      · obtain ⟨f, hf', e⟩ := hex
        obtain ⟨d, g0, e1, e2⟩ := hold f hf' c (by simp) e
        exact ⟨d, g0, firstOn_append e1, e2.grows h.ok.1.inv a4⟩
      · refine ⟨c, g, firstOn_self ?_, ⟨a5.onto, a5.live, a7 fun f hf' e => hex ⟨f, hf', e⟩, a5.of⟩⟩
        cases hs : firstOn seen c with
        | none => rfl
        | some d =>
          obtain ⟨hd, he⟩ := firstOn_some hs
          obtain ⟨f, hf', e⟩ := hseen d hd
          exact absurd ⟨f, hf', e.trans (vertexSetOf_congr he)⟩ hex
    obtain ⟨t2, cs, b1, b2, b3, b4, b5⟩ := ih a2 (seen ++ [c]) a3 (fun n hn => a4.fps 0 (hv n hn)) (fun c hc => hl c (by simp [hc])) (by
        intro d hd
        rcases List.mem_append.mp hd with hd | hd
        · obtain ⟨f, hf', e⟩ := hseen d hd
          exact ⟨f, a4.fps n hf', (VS_grows hn h.ok.1.inv a4 hf').trans e⟩
        · rw [List.mem_singleton.mp hd]
          exact ⟨_, a2.ok.1.inv.fp_live n _ a5.live, OfVertices_VS a5.of⟩) (by
        intro f hf' c' hc' e
        rcases a6 f hf' with hf' | e'
        · rw [VS_grows hn h.ok.1.inv a4 hf'] at e
          obtain ⟨d, g0, e1, e2⟩ := hold f hf' c' (by simp [hc']) e
          exact ⟨d, g0, firstOn_append e1, e2.grows h.ok.1.inv a4⟩
        · obtain ⟨d, g0, e1, e2⟩ := hfirst
          refine ⟨d, g0, ?_, e2⟩
          rw [firstOn_congr (vertexSetOf_inj hnd (hl c' (by simp [hc'])).2.1 h2 (e.symm.trans e'))]
          exact e1)
    refine ⟨t2, g :: cs, by simp only [makeCells, a1, b1], b2, b3, a4.trans b4, .cons ?_ ?_⟩
    · obtain ⟨d, g0, e1, e2⟩ := hfirst
      have e2' := e2.grows a2.ok.1.inv b4
      have a5' := a5.grows a2.ok.1.inv b4
      refine ⟨a5', d, g0, by simpa using firstOn_append (rest := cells) e1, e2', ?_⟩
      refine fp_unique b2.ok.1.inv b2.ok.2 hn (b2.ok.1.inv.fp_live n _ a5'.live) (b2.ok.1.inv.fp_live n _ e2'.live) ?_
      rw [OfVertices_VS a5'.of, OfVertices_VS e2'.of]
      exact (vertexSetOf_congr (firstOn_some e1).2).symm
    · simpa using b5

/-- cells with the footprints of others, which are built in the order of the first cells -/
theorem exists_firsts {n : Nat} {t : Topo} {nodes : List Node} {all cells : List (List Nat)} {cs : List GCell}
    (h : List.Forall₂ (fun c g => OnNodes n t nodes c g ∧ ∃ d g0, firstOn all c = some d ∧ Built n t nodes d g0 ∧
      t.fp n g.simplex = t.fp n g0.simplex) cells cs) :
    ∃ cs0, List.Forall₂ (Built n t nodes) (cells.map fun c => (firstOn all c).getD c) cs0 ∧
      List.Forall₂ (fun g g0 : GCell => t.fp n g.simplex = t.fp n g0.simplex) cs cs0 := by
  induction h with
  | nil => exact ⟨[], .nil, .nil⟩
  | cons h1 _ ih =>
    obtain ⟨cs0, i1, i2⟩ := ih
    obtain ⟨-, d, g0, e1, e2, e3⟩ := h1
    refine ⟨g0 :: cs0, .cons ?_ i1, .cons e3 i2⟩
    beta_reduce
    rw [e1]
    exact e2

theorem allFacets_perm {t : Topo} {n : Nat} {cs cs0 : List GCell}
    (h : List.Forall₂ (fun g g0 : GCell => t.fp (n + 1) g.simplex = t.fp (n + 1) g0.simplex) cs cs0) :
    (allFacets t n cs).Perm (allFacets t n cs0) := by
  induction h with
  | nil => exact .refl _
  | @cons g g0 cs cs0 h1 _ ih =>
    simp only [allFacets, List.flatMap_cons]
    refine List.Perm.append ?_ ih
    exact (composition_perm t (n + 1) g.simplex).trans ((by rw [h1] : (t.compF (n + 1) (t.fp (n + 1) g.simplex)).Perm _).trans
      (composition_perm t (n + 1) g0.simplex).symm)

theorem unpaired_congr {t : Topo} {n : Nat} {cs cs0 : List GCell} (h : (allFacets t n cs).Perm (allFacets t n cs0)) (x : Id) :
    Unpaired t n cs x ↔ Unpaired t n cs0 x := by
  have key : ∀ cs, Unpaired t n cs x ↔ ∀ y ∈ allFacets t n cs, (t.fp n y, t.sg n y) ≠ (t.fp n x, -t.sg n x) := by
    intro cs
    simp only [Unpaired, facets, allFacets, List.mem_flatMap, List.mem_map, not_exists, not_and, forall_exists_index, and_imp]
    exact ⟨fun h y c hc hy => h c hc y hy, fun h c hc y hy => h y c hc hy⟩
  rw [key, key]
  exact ⟨fun g y hy => g y (h.mem_iff.mpr hy), fun g y hy => g y (h.mem_iff.mp hy)⟩

/-- the boundary consists of the faces of the first cells without an opposite -/
theorem boundary_firsts {t : Topo} (hi : Inv t) (hst : Std t) {n : Nat} (hn : n = 1 ∨ n = 2) {nodes : List Node}
    (hv : (nodes.map (·.vertex)).Nodup) {cells : List (List Nat)} {cs cs0 : List GCell}
    (hl : ∀ c ∈ cells, (∀ i ∈ c, i < nodes.length) ∧ c.Nodup) (h : List.Forall₂ (Built (n + 1) t nodes) cells cs0)
    (hp0 : (allFacets t n cs).Perm (allFacets t n cs0)) {B : List GCell} (hB : List.Forall₂ (Places t n) (boundaryFacets t n cs) B) :
    ∃ L, L.Perm (outerFaces cells) ∧ List.Forall₂ (fun f b => permutationSign (GCell.vertices b) (f.map (vertexAt nodes)) = some 1) L B := by
  obtain ⟨xs, hp, hF⟩ := allFacets_faces hn h
  have h2 : (boundaryFacets t n cs).map (·.1) = (allFacets t n cs).filter fun x => Unpaired t n cs0 x := by
    have e : (occurrences t n cs).map (·.1) = allFacets t n cs := by
      simp only [occurrences, allFacets, List.map_flatMap, List.map_map, Function.comp_def, List.map_id']
    simp only [boundaryFacets, unpaired_congr hp0]
    rw [← e, List.filter_map]
    rfl
  have h3 : List.Forall₂ (fun x f => OfVertices t n x (f.map (vertexAt nodes))) (xs.filter fun x => Unpaired t n cs0 x) (outerFaces cells) := by
    have key : ∀ {a : List Id} {b : List (List Nat)}, List.Forall₂ (fun x f => OfVertices t n x (f.map (vertexAt nodes))) a b →
        (∀ x ∈ a, x ∈ allFacets t n cs0) → (∀ f ∈ b, f ∈ cells.flatMap faces) →
        List.Forall₂ (fun x f => OfVertices t n x (f.map (vertexAt nodes))) (a.filter fun x => Unpaired t n cs0 x)
          (b.filter fun f => ∀ g ∈ cells.flatMap faces, ¬ Opposite f g) := by
      intro a b hab
      induction hab with
      | nil => exact fun _ _ => .nil
      | @cons x f a b hxf _ ih =>
        intro ha hb
        have hu := unpaired_faces hi hst hn hv hl h (ha x (by simp)) (hb f (by simp)) hxf
        have := ih (fun y hy => ha y (by simp [hy])) fun g hg => hb g (by simp [hg])
        by_cases hux : Unpaired t n cs0 x
        · rw [List.filter_cons_of_pos (by simpa using hux), List.filter_cons_of_pos (by simpa using hu.mp hux)]
          exact .cons hxf this
        · rw [List.filter_cons_of_neg (by simpa using hux), List.filter_cons_of_neg (by simpa using mt hu.mpr hux)]
          exact this
    exact key hF (fun x hx => hp.mem_iff.mp hx) fun f hf => hf
  obtain ⟨L, k1, k2⟩ := List.perm_comp_forall₂ (((hp.trans hp0.symm).filter _).symm) h3
  rw [← h2] at k1
  refine ⟨L, k2, ?_⟩
  clear k2 h2
  generalize boundaryFacets t n cs = X at hB k1
  induction hB generalizing L with
  | nil => cases k1; exact .nil
  | @cons x b X B hxb _ ih =>
    cases k1 with
    | cons hxf k1 =>
      refine .cons ?_ (ih _ k1)
      obtain ⟨l', g1, g2⟩ := OfVertices_vertices hxf
      rw [hxb.2.2] at g1
      simp only [Option.some.injEq] at g1
      rw [GCell.vertices, g1]
      exact g2

/-! ### loading fails for degenerate cells -/

theorem allSome_lt {nodes ns : List Node} : ∀ {index : List Nat}, Numbering.allSome (index.map fun i => nodes[i]?) = some ns →
    ∀ i ∈ index, i < nodes.length := by
  intro index
  induction index generalizing ns with
  | nil => simp
  | cons j index ih =>
    intro e i hi
    rw [List.map_cons] at e
    cases hj : nodes[j]? with
    | none => simp [Numbering.allSome, hj] at e
    | some x =>
      cases hr : Numbering.allSome (index.map fun i => nodes[i]?) with
      | none => simp [Numbering.allSome, hj, hr] at e
      | some rs =>
        rcases List.mem_cons.mp hi with rfl | hi
        · exact (List.getElem?_eq_some_iff.mp hj).1
        · exact ih hr i hi

theorem makeCell_some {t : Topo} (h : VReachable t) {nodes : List Node} (hv : ∀ n ∈ nodes, n.vertex ∈ (t.lvl 0).fps)
    {index : List Nat} {r : Topo × GCell} (e : makeCell t nodes index = some r) : (∀ i ∈ index, i < nodes.length) ∧ index.Nodup := by
  unfold makeCell at e
  split at e
  · simp at e
  · rename_i ns hns
    have hi := allSome_lt hns
    refine ⟨hi, ?_⟩
    obtain ⟨ns', e1, e2, e3⟩ := nodes_at hi
    rw [e1, allSome_map_some, Option.some.injEq] at hns
    subst hns
    split at e
    · simp at e
    · rename_i t1 c hm
      unfold mkCell at hm
      rw [e2] at hm
      split at hm
      · simp at hm
      · rename_i t2 o ho
        obtain ⟨-, -, -, -, -, -, -, -, hnd⟩ := fromVertices_spec h.ok.1 h.ok.2 (by
          rw [← e2]
          intro v hm
          obtain ⟨x, hx, rfl⟩ := List.mem_map.mp hm
          exact hv x (e3 x hx)) ho
        exact List.Nodup.of_map _ hnd

theorem makeCells_some {n : Nat} (hn : n = 1 ∨ n = 2 ∨ n = 3) {t : Topo} (h : VReachable t) {nodes : List Node}
    (cells : List (List Nat)) (hf : Fresh t (58 * cells.length)) (hv : ∀ n ∈ nodes, n.vertex ∈ (t.lvl 0).fps)
    (hnd : (nodes.map (·.vertex)).Nodup) (hl : ∀ c ∈ cells, c.length = n + 1) {r : Topo × List GCell} (e : makeCells nodes t cells = some r) :
    ∀ c ∈ cells, (∀ i ∈ c, i < nodes.length) ∧ c.Nodup := by
  induction cells generalizing t r with
  | nil => simp
  | cons c cells ih =>
    unfold makeCells at e
    split at e
    · simp at e
    · rename_i t1 g hg
      have hc := makeCell_some h hv hg
      obtain ⟨t1', g', a1, a2, a3, a4, -⟩ := makeCell_any hn h (k := 58 * cells.length) (hf.mono (by simp; omega)) hv hnd
        (hl c (by simp)) hc.1 hc.2
      rw [hg, Option.some.injEq, Prod.mk.injEq] at a1
      obtain ⟨rfl, rfl⟩ := a1
      split at e
      · simp at e
      · rename_i t2 cs hcs
        have := ih a2 a3 (fun n hn => a4.fps 0 (hv n hn)) (fun c hc => hl c (by simp [hc])) hcs
        intro d hd
        rcases List.mem_cons.mp hd with rfl | hd
        · exact hc
        · exact this d hd

end Mito.Load
