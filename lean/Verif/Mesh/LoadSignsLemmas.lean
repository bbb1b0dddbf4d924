import Verif.Mesh.LoadFacesLemmas

/-! # Lemmas about the orientations of the facets of cells read from files -/

namespace Mito.Load

open Mito.Topology Mito.Meshes Mito.Combinatorics

/-- the facets of a new triangle: the new segments are among them with positive orientation -/
theorem triangle_facets {t t' : Topo} (h : Ok t) (hst : Std t) {a b c o : Id} (ha : a ∈ (t.lvl 0).fps)
    (hb : b ∈ (t.lvl 0).fps) (hc : c ∈ (t.lvl 0).fps) (ho : t.triangle a b c = some (t', o)) (hnew : t'.fp 2 o ∉ (t.lvl 2).fps) :
    ∀ f ∈ (t'.lvl 1).fps, f ∈ (t.lvl 1).fps ∨ ∃ x ∈ t'.compF 2 (t'.fp 2 o), t'.fp 1 x = f ∧ t'.sg 1 x = 1 := by
  unfold Topo.triangle at ho
  split at ho
  · simp at ho
  · rename_i t1 x hx
    obtain ⟨ok1, le1, l1, e1, n1⟩ := segment_ok h ha hb hx
    obtain ⟨st1, o1⟩ := segment_std h hst ha hb hx
    obtain ⟨p1, q1⟩ := segment_fps' h ha hb hx
    split at ho
    · simp at ho
    · rename_i t2 y hy
      obtain ⟨ok2, le2, l2, e2, n2⟩ := segment_ok ok1 (le1.fps 0 hb) (le1.fps 0 hc) hy
      obtain ⟨st2, o2⟩ := segment_std ok1 st1 (le1.fps 0 hb) (le1.fps 0 hc) hy
      obtain ⟨p2, q2⟩ := segment_fps' ok1 (le1.fps 0 hb) (le1.fps 0 hc) hy
      split at ho
      · simp at ho
      · rename_i t3 z hz
        obtain ⟨ok3, le3, l3, e3, n3⟩ := segment_ok ok2 (le2.fps 0 (le1.fps 0 hc)) (le2.fps 0 (le1.fps 0 ha)) hz
        obtain ⟨st3, o3⟩ := segment_std ok2 st2 (le2.fps 0 (le1.fps 0 hc)) (le2.fps 0 (le1.fps 0 ha)) hz
        obtain ⟨p3, q3⟩ := segment_fps' ok2 (le2.fps 0 (le1.fps 0 hc)) (le2.fps 0 (le1.fps 0 ha)) hz
        have hcl : ∀ w ∈ [x, y, z], w ∈ (t3.lvl 1).ors := by simp [le3.ors 1 (le2.ors 1 l1), le3.ors 1 l2, l3]
        have hsub : (t3.lvl 2).fps ⊆ (t.lvl 2).fps := by
          intro f hf
          rcases p3 2 f hf with hf | ⟨e, -⟩
          · rcases p2 2 f hf with hf | ⟨e, -⟩
            · rcases p1 2 f hf with hf | ⟨e, -⟩
              · exact hf
              · exact absurd e (by decide)
            · exact absurd e (by decide)
          · exact absurd e (by decide)
        have ox := SegO_le ok2.inv le3 (le2.ors 1 l1) (SegO_le ok1.inv le2 l1 o1)
        have oy := SegO_le ok2.inv le3 l2 o2
        have n0 : [a, b, c].Nodup := by simp; exact ⟨⟨n1, Ne.symm n3⟩, n2⟩
        have hE : [x, y, z].Nodup := by
          apply List.Nodup.of_map (t3.fp 1)
          apply List.Nodup.of_map (VS t3 1)
          rw [tri_faces n0 ox oy o3]
          apply List.Nodup.map_on _ (nodup_rot3 n0)
          intro u hu v hv e
          refine erase_injOn ?_ ?_ e
          · rw [← rot3]; simpa using hu
          · rw [← rot3]; simpa using hv
        obtain ⟨i, le, ol, hv, hp, hsg, hcomp, hfp⟩ := simplex_spec ok3.inv hcl rfl hE ho
        rw [hcomp fun hm => hnew (hsub hm)]
        have hold : ∀ w ∈ [x, y, z], t'.fp 1 w = t3.fp 1 w ∧ t'.sg 1 w = t3.sg 1 w := fun w hw =>
          ⟨hfp w hw, le.osg 1 w (hcl w hw)⟩
        intro f hf
        rcases simplex_fps ok3.inv hcl rfl hE ho 1 f hf with hf | ⟨e, -⟩
        swap
        · exact absurd e (by decide)
        by_cases hf2 : f ∈ (t2.lvl 1).fps
        · by_cases hf1 : f ∈ (t1.lvl 1).fps
          · by_cases hf0 : f ∈ (t.lvl 1).fps
            · exact .inl hf0
            · obtain ⟨-, e⟩ := (p1 1 f hf1).resolve_left hf0
              refine .inr ⟨x, by simp, ?_, ?_⟩
              · rw [(hold x (by simp)).1, le3.ofp 1 x (le2.ors 1 l1), le2.ofp 1 x l1]; exact e.symm
              · rw [(hold x (by simp)).2, le3.osg 1 x (le2.ors 1 l1), le2.osg 1 x l1]
                exact q1 (e ▸ hf0)
          · obtain ⟨-, e⟩ := (p2 1 f hf2).resolve_left hf1
            refine .inr ⟨y, by simp, ?_, ?_⟩
            · rw [(hold y (by simp)).1, le3.ofp 1 y l2]; exact e.symm
            · rw [(hold y (by simp)).2, le3.osg 1 y l2]
              exact q2 (e ▸ hf1)
        · obtain ⟨-, e⟩ := (p3 1 f hf).resolve_left hf2
          refine .inr ⟨z, by simp, ?_, ?_⟩
          · rw [(hold z (by simp)).1]; exact e.symm
          · rw [(hold z (by simp)).2]
            exact q3 (e ▸ hf2)

theorem tet_distinct {t : Topo} {a b c d x y z w : Id} (n : [a, b, c, d].Nodup) (ox : TriO t x a b c) (oy : TriO t y b d c)
    (oz : TriO t z d b a) (ow : TriO t w d a c) : [x, y, z, w].Nodup := by
  apply List.Nodup.of_map (t.fp 2)
  apply List.Nodup.of_map (VS t 2)
  rw [tet_faces n ox oy oz ow]
  refine List.Nodup.map_on ?_ (by simp at n ⊢; tauto)
  intro u hu v hv e
  refine erase_injOn ?_ ?_ e
  · simp at hu ⊢; tauto
  · simp at hv ⊢; tauto

/-- the facets of a new tetrahedron: the new triangles are among them with positive orientation -/
theorem tetrahedron_facets {t t' : Topo} (h : Ok t) (hst : Std t) {a b c d o : Id} (ha : a ∈ (t.lvl 0).fps)
    (hb : b ∈ (t.lvl 0).fps) (hc : c ∈ (t.lvl 0).fps) (hd : d ∈ (t.lvl 0).fps) (ho : t.tetrahedron a b c d = some (t', o))
    (hnew : t'.fp 3 o ∉ (t.lvl 3).fps) :
    ∀ f ∈ (t'.lvl 2).fps, f ∈ (t.lvl 2).fps ∨ ∃ x ∈ t'.compF 3 (t'.fp 3 o), t'.fp 2 x = f ∧ t'.sg 2 x = 1 := by
  have n := (tetrahedron_std h hst ha hb hc hd ho).2.2
  unfold Topo.tetrahedron at ho
  split at ho
  · simp at ho
  · rename_i t1 x hx
    obtain ⟨ok1, le1, l1, _, n1⟩ := triangle_ok h ha hb hc hx
    obtain ⟨st1, o1⟩ := triangle_std h hst ha hb hc hx
    have s1 := triangle_fps' h hst ha hb hc hx
    obtain ⟨p1, q1⟩ := triangle_new h hst ha hb hc hx
    have ha := le1.fps 0 ha
    have hb := le1.fps 0 hb
    have hc := le1.fps 0 hc
    have hd := le1.fps 0 hd
    split at ho
    · simp at ho
    · rename_i t2 y hy
      obtain ⟨ok2, le2, l2, _, n2⟩ := triangle_ok ok1 hb hd hc hy
      obtain ⟨st2, o2⟩ := triangle_std ok1 st1 hb hd hc hy
      have s2 := triangle_fps' ok1 st1 hb hd hc hy
      obtain ⟨p2, q2⟩ := triangle_new ok1 st1 hb hd hc hy
      have ha := le2.fps 0 ha
      have hb := le2.fps 0 hb
      have hc := le2.fps 0 hc
      have hd := le2.fps 0 hd
      split at ho
      · simp at ho
      · rename_i t3 z hz
        obtain ⟨ok3, le3, l3, _, n3⟩ := triangle_ok ok2 hd hb ha hz
        obtain ⟨st3, o3⟩ := triangle_std ok2 st2 hd hb ha hz
        have s3 := triangle_fps' ok2 st2 hd hb ha hz
        obtain ⟨p3, q3⟩ := triangle_new ok2 st2 hd hb ha hz
        have ha := le3.fps 0 ha
        have hb := le3.fps 0 hb
        have hc := le3.fps 0 hc
        have hd := le3.fps 0 hd
        split at ho
        · simp at ho
        · rename_i t4 w hw
          obtain ⟨ok4, le4, l4, _, n4⟩ := triangle_ok ok3 hd ha hc hw
          obtain ⟨st4, o4⟩ := triangle_std ok3 st3 hd ha hc hw
          have s4 := triangle_fps' ok3 st3 hd ha hc hw
          obtain ⟨p4, q4⟩ := triangle_new ok3 st3 hd ha hc hw
          have ox := TriO_le ok3.inv le4 (le3.ors 2 (le2.ors 2 l1))
            (TriO_le ok2.inv le3 (le2.ors 2 l1) (TriO_le ok1.inv le2 l1 o1))
          have oy := TriO_le ok3.inv le4 (le3.ors 2 l2) (TriO_le ok2.inv le3 l2 o2)
          have oz := TriO_le ok3.inv le4 l3 o3
          have hsub : (t4.lvl 3).fps ⊆ (t.lvl 3).fps := s4.trans (s3.trans (s2.trans s1))
          have hcl : ∀ v ∈ [x, y, z, w], v ∈ (t4.lvl 2).ors := by
            simp [le4.ors 2 (le3.ors 2 (le2.ors 2 l1)), le4.ors 2 (le3.ors 2 l2), le4.ors 2 l3, l4]
          have hnd' : [x, y, z, w].Nodup := tet_distinct n ox oy oz o4
          obtain ⟨i, le, ol, hv, hp, hsg, hcomp, hfp⟩ := simplex_spec ok4.inv hcl rfl hnd' ho
          rw [hcomp fun hm => hnew (hsub hm)]
          have hold : ∀ u ∈ [x, y, z, w], t'.fp 2 u = t4.fp 2 u ∧ t'.sg 2 u = t4.sg 2 u := fun u hu =>
            ⟨hfp u hu, le.osg 2 u (hcl u hu)⟩
          intro f hf
          rcases simplex_fps ok4.inv hcl rfl hnd' ho 2 f hf with hf | ⟨e, -⟩
          swap
          · exact absurd e (by decide)
          by_cases hf3 : f ∈ (t3.lvl 2).fps
          · by_cases hf2 : f ∈ (t2.lvl 2).fps
            · by_cases hf1 : f ∈ (t1.lvl 2).fps
              · by_cases hf0 : f ∈ (t.lvl 2).fps
                · exact .inl hf0
                · have e := (p1 f hf1).resolve_left hf0
                  refine .inr ⟨x, by simp, ?_, ?_⟩
                  · rw [(hold x (by simp)).1, le4.ofp 2 x (le3.ors 2 (le2.ors 2 l1)), le3.ofp 2 x (le2.ors 2 l1), le2.ofp 2 x l1]
                    exact e.symm
                  · rw [(hold x (by simp)).2, le4.osg 2 x (le3.ors 2 (le2.ors 2 l1)), le3.osg 2 x (le2.ors 2 l1), le2.osg 2 x l1]
                    exact q1 (e ▸ hf0)
              · have e := (p2 f hf2).resolve_left hf1
                refine .inr ⟨y, by simp, ?_, ?_⟩
                · rw [(hold y (by simp)).1, le4.ofp 2 y (le3.ors 2 l2), le3.ofp 2 y l2]; exact e.symm
                · rw [(hold y (by simp)).2, le4.osg 2 y (le3.ors 2 l2), le3.osg 2 y l2]
                  exact q2 (e ▸ hf1)
            · have e := (p3 f hf3).resolve_left hf2
              refine .inr ⟨z, by simp, ?_, ?_⟩
              · rw [(hold z (by simp)).1, le4.ofp 2 z l3]; exact e.symm
              · rw [(hold z (by simp)).2, le4.osg 2 z l3]
                exact q3 (e ▸ hf2)
          · have e := (p4 f hf).resolve_left hf3
            refine .inr ⟨w, by simp, ?_, ?_⟩
            · rw [(hold w (by simp)).1]; exact e.symm
            · rw [(hold w (by simp)).2]
              exact q4 (e ▸ hf3)

theorem mem_composition {t : Topo} {N : Nat} {o x : Id} : x ∈ t.composition N o ↔ x ∈ t.compF N (t.fp N o) := by
  unfold Topo.composition
  split
  · unfold swap01
    split
    · rename_i e
      rw [e]
      simp [or_left_comm]
    · rfl
  · rfl

theorem fromVertices_facets {n : Nat} (hn : n = 1 ∨ n = 2) {t t' : Topo} (h : Ok t) (hst : Std t) {l : List Id} {o : Id}
    (hlen : l.length = n + 2) (hl : ∀ v ∈ l, v ∈ (t.lvl 0).fps) (ho : t.fromVertices l = some (t', o))
    (hnew : t'.fp (n + 1) o ∉ (t.lvl (n + 1)).fps) :
    ∀ f ∈ (t'.lvl n).fps, f ∈ (t.lvl n).fps ∨ ∃ x ∈ t'.composition (n + 1) o, t'.fp n x = f ∧ t'.sg n x = 1 := by
  simp only [mem_composition]
  rcases hn with rfl | rfl
  · match l, hlen with
    | [a, b, c], _ => exact triangle_facets h hst (hl _ (by simp)) (hl _ (by simp)) (hl _ (by simp)) ho hnew
  · match l, hlen with
    | [a, b, c, d], _ =>
      exact tetrahedron_facets h hst (hl _ (by simp)) (hl _ (by simp)) (hl _ (by simp)) (hl _ (by simp)) ho hnew

/-- the new facets of a new cell have positive orientation -/
theorem makeCell_signs {n : Nat} (hn : n = 1 ∨ n = 2) {t : Topo} (h : VReachable t)
    {nodes : List Node} (hv : ∀ n ∈ nodes, n.vertex ∈ (t.lvl 0).fps) {index : List Nat}
    (hl : index.length = n + 2) (hi : ∀ i ∈ index, i < nodes.length)
    (hnew : ∀ f ∈ (t.lvl (n + 1)).fps, VS t (n + 1) f ≠ vertexSetOf nodes index) {t' : Topo} {c : GCell}
    (hm : makeCell t nodes index = some (t', c)) : ∀ f ∈ (t'.lvl n).fps, f ∈ (t.lvl n).fps ∨ (f, 1) ∈ facets t' n c := by
  obtain ⟨ns, e1, e2, e3⟩ := nodes_at hi
  have hlv : ∀ v ∈ index.map (vertexAt nodes), v ∈ (t.lvl 0).fps := by
    rw [← e2]
    intro v hm
    obtain ⟨x, hx, rfl⟩ := List.mem_map.mp hm
    exact hv x (e3 x hx)
  have hlen : (index.map (vertexAt nodes)).length = n + 2 := by rw [List.length_map, hl]
  simp only [makeCell, e1, allSome_map_some, mkCell, e2] at hm
  split at hm
  · simp at hm
  · rename_i t1 c1 hc1
    split at hc1
    · simp at hc1
    · rename_i t2 o f1
      simp only [Option.some.injEq, Prod.mk.injEq] at hc1 hm
      obtain ⟨rfl, rfl⟩ := hc1
      obtain ⟨rfl, rfl⟩ := hm
      obtain ⟨m, -, g2, ok1, st1, le1, l1, o1, -⟩ := fromVertices_spec h.ok.1 h.ok.2 hlv f1
      have hm : m = n + 1 := by omega
      subst hm
      have hset : VS t2 (n + 1) (t2.fp (n + 1) o) = vertexSetOf nodes index := OfVertices_VS o1
      have hk : t2.fp (n + 1) o ∉ (t.lvl (n + 1)).fps := fun hm => hnew _ hm (by
        rw [← hset]
        simp only [VS]
        rw [vertexSet_le h.ok.1.inv le1 hm])
      intro f hf
      refine (fromVertices_facets hn h.ok.1 h.ok.2 hlen hlv f1 hk f hf).imp_right ?_
      rintro ⟨x, hx, e, e'⟩
      exact List.mem_map.mpr ⟨x, hx, Prod.ext e e'⟩

/-- old simplices have old vertices -/
theorem old_vertices {n : Nat} (hn : n = 1 ∨ n = 2 ∨ n = 3) {t t' : Topo} (hi : Inv t) (hg : Grows t t') {f v : Id}
    (hf : f ∈ (t.lvl n).fps) (hv : v ∈ VS t' n f) : v ∈ (t.lvl 0).fps := by
  have e : VS t' n f = VS t n f := by
    simp only [VS]
    rw [← vertexSet_le hi hg hf]
    rcases hn with rfl | rfl | rfl <;> rfl
  rw [e] at hv
  exact vertexSet_live hi hf (by simpa [VS] using hv)

/-- the vertices of a facet are vertices of the simplex -/
theorem VS_facet {t : Topo} {n : Nat} {o x : Id} (hx : x ∈ t.composition (n + 1) o) : VS t n (t.fp n x) ⊆ VS t (n + 1) (t.fp (n + 1) o) := by
  intro v hv
  simp only [VS, Topo.vertexSet, List.mem_toFinset, List.mem_insertionSort, List.mem_dedup, List.mem_flatMap] at hv ⊢
  exact ⟨x, mem_composition.mp hx, hv⟩

/-- the facets of a cell stay -/
theorem facets_grows {t t' : Topo} (hi : Inv t) (hg : Grows t t') {n : Nat} {c : GCell} (hc : c.simplex ∈ (t.lvl (n + 1)).ors) :
    facets t' n c = facets t n c := by
  unfold facets
  rw [show t'.composition (n + 1) c.simplex = t.composition (n + 1) c.simplex from composition_le hi hg hc]
  refine List.map_congr_left fun x hx => ?_
  have hx := composition_live hi hc x hx
  exact Prod.ext (hg.ofp n x hx) (hg.osg n x hx)

/-- the new facets of new cells occur in them with positive orientation -/
theorem makeCells_signs {n : Nat} (hn : n = 1 ∨ n = 2) {t : Topo} (h : VReachable t) {k : Nat} {nodes : List Node}
    (cells : List (List Nat)) (hf : Fresh t (k + 58 * cells.length)) (hv : ∀ n ∈ nodes, n.vertex ∈ (t.lvl 0).fps)
    (hnd : (nodes.map (·.vertex)).Nodup) (hl : ∀ c ∈ cells, c.length = n + 2 ∧ (∀ i ∈ c, i < nodes.length) ∧ c.Nodup)
    (hd : cells.Pairwise fun c c' => vertexSetOf nodes c ≠ vertexSetOf nodes c')
    (hnew : ∀ f ∈ (t.lvl (n + 1)).fps, ∀ c ∈ cells, VS t (n + 1) f ≠ vertexSetOf nodes c) {t' : Topo} {cs : List GCell}
    (hm : makeCells nodes t cells = some (t', cs)) :
    ∀ f ∈ (t'.lvl n).fps, f ∈ (t.lvl n).fps ∨ ∃ c ∈ cs, (f, 1) ∈ facets t' n c := by
  induction cells generalizing t cs with
  | nil =>
    simp only [makeCells, Option.some.injEq, Prod.mk.injEq] at hm
    obtain ⟨rfl, rfl⟩ := hm
    exact fun f hf => .inl hf
  | cons c cells ih =>
    obtain ⟨h1, h2, h3⟩ := hl c (by simp)
    rw [List.pairwise_cons] at hd
    obtain ⟨t1, g, a1, a2, a3, a4, a5, a6⟩ := makeCell_built (n := n + 1) (by omega) h (k := k + 58 * cells.length)
      (hf.mono (by simp; omega)) hv hnd h1 h2 h3 fun f hf => hnew f hf c (by simp)
    have hs := makeCell_signs hn h hv h1 h2 (fun f hf => hnew f hf c (by simp)) a1
    have hnew' : ∀ f ∈ (t1.lvl (n + 1)).fps, ∀ c' ∈ cells, VS t1 (n + 1) f ≠ vertexSetOf nodes c' := by
      intro f hf c' hc'
      rcases a6 f hf with hf' | e
      · have := hnew f hf' c' (by simp [hc'])
        rwa [show VS t1 (n + 1) f = VS t (n + 1) f by simp only [VS]; rw [← vertexSet_le h.ok.1.inv a4 hf']; rcases hn with rfl | rfl <;> rfl]
      · rw [e]
        exact hd.1 c' hc'
    obtain ⟨t2, cs', b1, b2, b3, b4, b5⟩ := makeCells_built (n := n + 1) (by omega) a2 (k := k) cells a3
      (fun n hn => a4.fps 0 (hv n hn)) hnd (fun c hc => hl c (by simp [hc])) hd.2 hnew'
    simp only [makeCells, a1, b1, Option.some.injEq, Prod.mk.injEq] at hm
    obtain ⟨rfl, rfl⟩ := hm
    intro f hf
    rcases ih a2 a3 (fun n hn => a4.fps 0 (hv n hn)) (fun c hc => hl c (by simp [hc])) hd.2 hnew' b1 f hf with hf | ⟨c', hc', hf⟩
    · rcases hs f hf with hf | hf
      · exact .inl hf
      · exact .inr ⟨g, by simp, by rwa [facets_grows a2.ok.1.inv b4 a5.live]⟩
    · exact .inr ⟨c', by simp [hc'], hf⟩

end Mito.Load
