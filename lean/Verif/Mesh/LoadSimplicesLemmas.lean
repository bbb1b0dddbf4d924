import Verif.Spec.LoadSimplices
import Verif.Mesh.LoadLemmas
import Mathlib.Data.List.Permutation

/-! # Lemmas about loading segments, triangles and tetrahedra -/

namespace Mito.Load

open Mito.Topology Mito.Meshes Mito.Combinatorics

/-! ### new simplices are positive -/

theorem segment_fps' {t t' : Topo} (h : Ok t) {a b o : Id} (ha : a ∈ (t.lvl 0).fps) (hb : b ∈ (t.lvl 0).fps)
    (ho : t.segment a b = some (t', o)) :
    (∀ M f, f ∈ (t'.lvl M).fps → f ∈ (t.lvl M).fps ∨ M = 1 ∧ f = t'.fp 1 o) ∧ (t'.fp 1 o ∉ (t.lvl 1).fps → t'.sg 1 o = 1) := by
  have hab := (segment_ok h ha hb ho).2.2.2.2
  unfold Topo.segment at ho
  split at ho
  · simp at ho
  · rename_i t1 x hx
    obtain ⟨ok1, le1, l1, f1, s1⟩ := orientedF_ok h ha (by simp) hx
    split at ho
    · simp at ho
    · rename_i t2 y hy
      obtain ⟨ok2, le2, l2, f2, s2⟩ := orientedF_ok ok1 (le1.fps 0 hb) (by simp) hy
      have hxy : x ≠ y := by
        rintro rfl
        rw [le2.osg 0 x l1, s1] at s2
        simp at s2
      have hcl : ∀ w ∈ [x, y], w ∈ (t2.lvl 0).ors := by simp [l2, le2.ors 0 l1]
      constructor
      · intro M f hf
        rcases simplex_fps ok2.inv hcl rfl (by simp [hxy]) ho M f hf with hf | ⟨e, e', -⟩
        · left
          rwa [orientedF_fps hy, orientedF_fps hx] at hf
        · exact .inr ⟨e, e'⟩
      · intro hn
        obtain ⟨i, le, ol, hv, hp, hsg, hnew, hfp⟩ := simplex_spec ok2.inv hcl rfl (by simp [hxy]) ho
        have hn2 : t'.fp 1 o ∉ (t2.lvl 1).fps := by rwa [orientedF_fps hy, orientedF_fps hx]
        have e4 : [x, y].map (t'.fp 0) = [x, y].map (t2.fp 0) := map_fp_congr hfp
        have hnd : ([x, y].map (t2.fp 0)).Nodup := by
          simp [le2.ofp 0 x l1, f1, f2, hab]
        rw [hnew hn2, e4, permutationSign_refl (by simp) hnd] at hsg
        simpa using hsg.symm

theorem triangle_fps' {t t' : Topo} (h : Ok t) (hst : Std t) {a b c o : Id} (ha : a ∈ (t.lvl 0).fps)
    (hb : b ∈ (t.lvl 0).fps) (hc : c ∈ (t.lvl 0).fps) (ho : t.triangle a b c = some (t', o)) : (t'.lvl 3).fps ⊆ (t.lvl 3).fps := by
  unfold Topo.triangle at ho
  split at ho
  · simp at ho
  · rename_i t1 x hx
    obtain ⟨ok1, le1, l1, e1, n1⟩ := segment_ok h ha hb hx
    obtain ⟨st1, o1⟩ := segment_std h hst ha hb hx
    split at ho
    · simp at ho
    · rename_i t2 y hy
      obtain ⟨ok2, le2, l2, e2, n2⟩ := segment_ok ok1 (le1.fps 0 hb) (le1.fps 0 hc) hy
      obtain ⟨st2, o2⟩ := segment_std ok1 st1 (le1.fps 0 hb) (le1.fps 0 hc) hy
      split at ho
      · simp at ho
      · rename_i t3 z hz
        obtain ⟨ok3, le3, l3, e3, n3⟩ := segment_ok ok2 (le2.fps 0 (le1.fps 0 hc)) (le2.fps 0 (le1.fps 0 ha)) hz
        have hcl : ∀ w ∈ [x, y, z], w ∈ (t3.lvl 1).ors := by simp [le3.ors 1 (le2.ors 1 l1), le3.ors 1 l2, l3]
        have hsub : (t3.lvl 3).fps ⊆ (t.lvl 3).fps := by
          intro f hf
          rcases (segment_fps' ok2 (le2.fps 0 (le1.fps 0 hc)) (le2.fps 0 (le1.fps 0 ha)) hz).1 3 f hf with hf | ⟨e, -⟩
          · rcases (segment_fps' ok1 (le1.fps 0 hb) (le1.fps 0 hc) hy).1 3 f hf with hf | ⟨e, -⟩
            · rcases (segment_fps' h ha hb hx).1 3 f hf with hf | ⟨e, -⟩
              · exact hf
              · exact absurd e (by decide)
            · exact absurd e (by decide)
          · exact absurd e (by decide)
        obtain ⟨st3, o3⟩ := segment_std ok2 st2 (le2.fps 0 (le1.fps 0 hc)) (le2.fps 0 (le1.fps 0 ha)) hz
        have ox := SegO_le ok2.inv le3 (le2.ors 1 l1) (SegO_le ok1.inv le2 l1 o1)
        have oy := SegO_le ok2.inv le3 l2 o2
        have n0 : [a, b, c].Nodup := by simp; exact ⟨⟨n1, Ne.symm n3⟩, n2⟩
        have hE : [x, y, z].Nodup := by
          apply List.Nodup.of_map (t3.fp 1)
          apply List.Nodup.of_map (VS t3 1)
          rw [tri_faces n0 ox oy o3]
          apply List.Nodup.map_on _ (nodup_rot3 n0)
          intro u hu v hv e
          refine erase_injOn ?_ ?_ e
          · rw [← rot3]; simpa using hu
          · rw [← rot3]; simpa using hv
        intro f hf
        rcases simplex_fps ok3.inv hcl rfl hE ho 3 f hf with hf | ⟨e, -⟩
        · exact hsub hf
        · exact absurd e (by decide)

/-- a tetrahedron adds at most one footprint of order three, and if it does, its orientation is positive -/
theorem tetrahedron_new {t t' : Topo} (h : Ok t) (hst : Std t) {a b c d o : Id} (ha : a ∈ (t.lvl 0).fps)
    (hb : b ∈ (t.lvl 0).fps) (hc : c ∈ (t.lvl 0).fps) (hd : d ∈ (t.lvl 0).fps) (ho : t.tetrahedron a b c d = some (t', o)) :
    (∀ f ∈ (t'.lvl 3).fps, f ∈ (t.lvl 3).fps ∨ f = t'.fp 3 o) ∧ (t'.fp 3 o ∉ (t.lvl 3).fps → t'.sg 3 o = 1) := by
  have n := (tetrahedron_std h hst ha hb hc hd ho).2.2
  unfold Topo.tetrahedron at ho
  split at ho
  · simp at ho
  · rename_i t1 x hx
    obtain ⟨ok1, le1, l1, _, n1⟩ := triangle_ok h ha hb hc hx
    obtain ⟨st1, o1⟩ := triangle_std h hst ha hb hc hx
    have s1 := triangle_fps' h hst ha hb hc hx
    have ha := le1.fps 0 ha
    have hb := le1.fps 0 hb
    have hc := le1.fps 0 hc
    have hd := le1.fps 0 hd
    split at ho
    · simp at ho
    · rename_i t2 y hy
      obtain ⟨ok2, le2, l2, _, n2⟩ := triangle_ok ok1 hb hd hc hy
      obtain ⟨st2, o2⟩ := triangle_std ok1 st1 hb hd hc hy
      have s2 := triangle_fps' ok1 st1 hb hd hc hy
      have ha := le2.fps 0 ha
      have hb := le2.fps 0 hb
      have hc := le2.fps 0 hc
      have hd := le2.fps 0 hd
      split at ho
      · simp at ho
      · rename_i t3 z hz
        obtain ⟨ok3, le3, l3, _, n3⟩ := triangle_ok ok2 hd hb ha hz
        obtain ⟨st3, o3⟩ := triangle_std ok2 st2 hd hb ha hz
        have s3 := triangle_fps' ok2 st2 hd hb ha hz
        have ha := le3.fps 0 ha
        have hb := le3.fps 0 hb
        have hc := le3.fps 0 hc
        have hd := le3.fps 0 hd
        split at ho
        · simp at ho
        · rename_i t4 w hw
          obtain ⟨ok4, le4, l4, _, n4⟩ := triangle_ok ok3 hd ha hc hw
          obtain ⟨st4, o4⟩ := triangle_std ok3 st3 hd ha hc hw
          have s4 := triangle_fps' ok3 st3 hd ha hc hw
          have ox := TriO_le ok3.inv le4 (le3.ors 2 (le2.ors 2 l1))
            (TriO_le ok2.inv le3 (le2.ors 2 l1) (TriO_le ok1.inv le2 l1 o1))
          have oy := TriO_le ok3.inv le4 (le3.ors 2 l2) (TriO_le ok2.inv le3 l2 o2)
          have oz := TriO_le ok3.inv le4 l3 o3
          have hsub : (t4.lvl 3).fps ⊆ (t.lvl 3).fps := s4.trans (s3.trans (s2.trans s1))
          have hcl : ∀ v ∈ [x, y, z, w], v ∈ (t4.lvl 2).ors := by
            simp [le4.ors 2 (le3.ors 2 (le2.ors 2 l1)), le4.ors 2 (le3.ors 2 l2), le4.ors 2 l3, l4]
          have hnd : ([x, y, z, w].map (t4.fp 2)).Nodup := by
            apply List.Nodup.of_map (VS t4 2)
            rw [tet_faces n ox oy oz o4]
            refine List.Nodup.map_on ?_ (by simp at n ⊢; tauto)
            intro u hu v hv e
            refine erase_injOn ?_ ?_ e
            · simp at hu ⊢; tauto
            · simp at hv ⊢; tauto
          have hnd' : [x, y, z, w].Nodup := List.Nodup.of_map _ hnd
          obtain ⟨i, le, ol, hv, hp, hsg, hnew, hfp⟩ := simplex_spec ok4.inv hcl rfl hnd' ho
          constructor
          · intro f hf
            rcases simplex_fps ok4.inv hcl rfl hnd' ho 3 f hf with hf | ⟨-, e, -⟩
            · exact Or.inl (hsub hf)
            · exact Or.inr e
          · intro hn
            have hn4 : t'.fp 3 o ∉ (t4.lvl 3).fps := fun hm => hn (hsub hm)
            have e4 : [x, y, z, w].map (t'.fp 2) = [x, y, z, w].map (t4.fp 2) := map_fp_congr hfp
            rw [hnew hn4, e4, permutationSign_refl (by simp) hnd] at hsg
            simpa using hsg.symm

/-- the three kinds of simplices together -/
theorem fromVertices_new {t t' : Topo} (h : Ok t) (hst : Std t) {l : List Id} {o : Id} (hl : ∀ v ∈ l, v ∈ (t.lvl 0).fps)
    (ho : t.fromVertices l = some (t', o)) :
    (∀ f ∈ (t'.lvl (l.length - 1)).fps, f ∈ (t.lvl (l.length - 1)).fps ∨ f = t'.fp (l.length - 1) o) ∧
      (t'.fp (l.length - 1) o ∉ (t.lvl (l.length - 1)).fps → t'.sg (l.length - 1) o = 1) := by
  unfold Topo.fromVertices at ho
  split at ho
  · obtain ⟨h1, h2⟩ := segment_fps' h (hl _ (by simp)) (hl _ (by simp)) ho
    exact ⟨fun f hf => (h1 1 f hf).imp_right (·.2), h2⟩
  · exact triangle_new h hst (hl _ (by simp)) (hl _ (by simp)) (hl _ (by simp)) ho
  · exact tetrahedron_new h hst (hl _ (by simp)) (hl _ (by simp)) (hl _ (by simp)) (hl _ (by simp)) ho
  · simp at ho

/-! ### loading -/

/-- what is known of a cell after loading -/
structure Built (n : Nat) (t : Topo) (nodes : List Node) (index : List Nat) (c : GCell) : Prop where
  onto : index.map (fun i => nodes[i]?) = c.nodes.map some
  live : c.simplex ∈ (t.lvl n).ors
  sign : t.sg n c.simplex = 1
  of : OfVertices t n c.simplex (index.map (vertexAt nodes))

theorem OfVertices_le {t t' : Topo} (hi : Inv t) (hg : Le t t') {n : Nat} {o : Id} {l : List Id} (ho : o ∈ (t.lvl n).ors)
    (h : OfVertices t n o l) : OfVertices t' n o l := by
  match n, l, h with
  | 1, [a, b], h => exact SegO_le hi hg ho h
  | 2, [a, b, c], h => exact TriO_le hi hg ho h
  | 3, [a, b, c, d], h => exact TetO_le hi hg ho h

theorem OfVertices_VS {t : Topo} {n : Nat} {o : Id} {l : List Id} (h : OfVertices t n o l) : VS t n (t.fp n o) = l.toFinset := by
  obtain ⟨l', h1, h2⟩ := OfVertices_iff h
  rw [FOfVertices_VS h1]
  exact (finset_eq_of_perm (perm_of_permutationSign h2)).symm

theorem Built.grows {n : Nat} {t t' : Topo} (hi : Inv t) (hg : Grows t t') {nodes : List Node} {index : List Nat} {c : GCell}
    (h : Built n t nodes index c) : Built n t' nodes index c where
  onto := h.onto
  live := hg.ors n h.live
  sign := (hg.osg n _ h.live).trans h.sign
  of := OfVertices_le hi hg h.live h.of

theorem nodes_at {nodes : List Node} {index : List Nat} (hi : ∀ i ∈ index, i < nodes.length) :
    ∃ ns : List Node, index.map (fun i => nodes[i]?) = ns.map some ∧ ns.map (·.vertex) = index.map (vertexAt nodes) ∧ ∀ x ∈ ns, x ∈ nodes := by
  induction index with
  | nil => exact ⟨[], rfl, rfl, by simp⟩
  | cons i is ih =>
    obtain ⟨ns, h1, h2, h3⟩ := ih fun j hj => hi j (by simp [hj])
    have hlt := hi i (by simp)
    refine ⟨nodes[i] :: ns, ?_, ?_, ?_⟩
    · simp only [List.map_cons, h1, List.getElem?_eq_getElem hlt]
    · simp only [List.map_cons, h2, vertexAt_node (List.getElem?_eq_getElem hlt)]
    · intro x hx
      rcases List.mem_cons.mp hx with rfl | hx
      · exact List.getElem_mem hlt
      · exact h3 x hx

theorem allSome_map_some {α : Type} (l : List α) : Numbering.allSome (l.map some) = some l := by
  induction l with
  | nil => rfl
  | cons a l ih => simp [Numbering.allSome, ih]

theorem map_vertexAt_nodup {nodes : List Node} (h : (nodes.map (·.vertex)).Nodup) {index : List Nat} (hi : ∀ i ∈ index, i < nodes.length)
    (hn : index.Nodup) : (index.map (vertexAt nodes)).Nodup :=
  List.Nodup.map_on (fun a ha b hb e => vertexAt_inj h (hi a ha) (hi b hb) e) hn

theorem fromVertices_fresh {t : Topo} (hok : Ok t) (hst : Std t) {k : Nat} {l : List Id}
    (hlen : 2 ≤ l.length ∧ l.length ≤ 4) (hl : ∀ v ∈ l, v ∈ (t.lvl 0).fps) (hnd : l.Nodup)
    (hfr : Fresh t (k + 58)) : ∃ t' o, t.fromVertices l = some (t', o) ∧ Fresh t' k := by
  match l, hlen with
  | [a, b], _ =>
    obtain ⟨t', o, h, hf⟩ := segment_succeeds hok (k := k + 54) (hfr.mono (by omega)) (hl a (by simp))
      (hl b (by simp)) (by simpa using hnd)
    exact ⟨t', o, h, hf.mono (by omega)⟩
  | [a, b, c], _ =>
    obtain ⟨t', o, h, hf⟩ := triangle_succeeds hok hst (k := k + 44) (hfr.mono (by omega))
      (hl a (by simp)) (hl b (by simp)) (hl c (by simp)) hnd
    exact ⟨t', o, h, hf.mono (by omega)⟩
  | [a, b, c, d], _ =>
    exact tetrahedron_succeeds hok hst hfr (hl a (by simp)) (hl b (by simp)) (hl c (by simp)) (hl d (by simp)) hnd

/-- the step of a history that builds a simplex -/
def opOf : List Id → Op
  | [a, b] => .segment a b
  | [a, b, c] => .triangle a b c
  | [a, b, c, d] => .tetrahedron a b c d
  | _ => .vertex

theorem step_fromVertices {t t' : Topo} {l : List Id} {o : Id} (hl : ∀ v ∈ l, v ∈ (t.lvl 0).fps) (h : t.fromVertices l = some (t', o)) :
    (opOf l).fromVerticesOnly = true ∧ Topology.step t (opOf l) = some (t'.hold (l.length - 1) o) := by
  unfold Topo.fromVertices at h
  split at h
  · exact ⟨rfl, by simp [opOf, Topology.step, hl _, h, keep]⟩
  · exact ⟨rfl, by simp [opOf, Topology.step, hl _, h, keep]⟩
  · exact ⟨rfl, by simp [opOf, Topology.step, hl _, h, keep]⟩
  · simp at h

theorem makeCell_built {n : Nat} (hn : n = 1 ∨ n = 2 ∨ n = 3) {t : Topo} (h : VReachable t) {k : Nat} (hf : Fresh t (k + 58))
    {nodes : List Node} (hv : ∀ n ∈ nodes, n.vertex ∈ (t.lvl 0).fps) (hnd : (nodes.map (·.vertex)).Nodup) {index : List Nat}
    (hl : index.length = n + 1) (hi : ∀ i ∈ index, i < nodes.length) (hin : index.Nodup)
    (hnew : ∀ f ∈ (t.lvl n).fps, VS t n f ≠ vertexSetOf nodes index) :
    ∃ t' c, makeCell t nodes index = some (t', c) ∧ VReachable t' ∧ Fresh t' k ∧ Grows t t' ∧ Built n t' nodes index c ∧
      ∀ f ∈ (t'.lvl n).fps, f ∈ (t.lvl n).fps ∨ VS t' n f = vertexSetOf nodes index := by
  obtain ⟨ns, e1, e2, e3⟩ := nodes_at hi
  have hlv : ∀ v ∈ index.map (vertexAt nodes), v ∈ (t.lvl 0).fps := by
    rw [← e2]
    intro v hm
    obtain ⟨x, hx, rfl⟩ := List.mem_map.mp hm
    exact hv x (e3 x hx)
  have hvn := map_vertexAt_nodup hnd hi hin
  have hlen : (index.map (vertexAt nodes)).length = n + 1 := by rw [List.length_map, hl]
  obtain ⟨t1, o, f1, f2⟩ := fromVertices_fresh h.ok.1 h.ok.2 (k := k) (by rw [hlen]; omega) hlv hvn hf
  obtain ⟨m, -, g2, ok1, st1, le1, l1, o1, -⟩ := fromVertices_spec h.ok.1 h.ok.2 hlv f1
  have hm : m = n := by omega
  subst hm
  obtain ⟨n1, n2⟩ := fromVertices_new h.ok.1 h.ok.2 hlv f1
  obtain ⟨p1, p2⟩ := step_fromVertices hlv f1
  rw [hlen, Nat.add_sub_cancel] at n1 n2 p2
  have hset : VS t1 m (t1.fp m o) = vertexSetOf nodes index := OfVertices_VS o1
  refine ⟨t1.hold m o, ⟨o, ns⟩, ?_, reachable_step h p1 p2, Fresh.of_same f2 rfl rfl, (Grows.of_le le1).lvl rfl,
    ⟨e1, l1, ?_, o1⟩, ?_⟩
  · simp only [makeCell, e1, allSome_map_some, mkCell, e2, f1, hl, Nat.add_sub_cancel]
  · refine n2 fun hm => hnew _ hm ?_
    rw [← hset]
    simp only [VS]
    rw [vertexSet_le h.ok.1.inv le1 hm]
  · intro f hf
    rcases n1 f hf with hf | rfl
    · exact Or.inl hf
    · right
      rw [← hset]
      rcases hn with rfl | rfl | rfl <;> rfl

theorem makeCells_built {n : Nat} (hn : n = 1 ∨ n = 2 ∨ n = 3) {t : Topo} (h : VReachable t) {k : Nat} {nodes : List Node}
    (cells : List (List Nat)) (hf : Fresh t (k + 58 * cells.length)) (hv : ∀ n ∈ nodes, n.vertex ∈ (t.lvl 0).fps)
    (hnd : (nodes.map (·.vertex)).Nodup) (hl : ∀ c ∈ cells, c.length = n + 1 ∧ (∀ i ∈ c, i < nodes.length) ∧ c.Nodup)
    (hd : cells.Pairwise fun c c' => vertexSetOf nodes c ≠ vertexSetOf nodes c')
    (hnew : ∀ f ∈ (t.lvl n).fps, ∀ c ∈ cells, VS t n f ≠ vertexSetOf nodes c) :
    ∃ t' cs, makeCells nodes t cells = some (t', cs) ∧ VReachable t' ∧ Fresh t' k ∧ Grows t t' ∧
      List.Forall₂ (Built n t' nodes) cells cs := by
  induction cells generalizing t with
  | nil => exact ⟨t, [], rfl, h, hf, Grows.refl t, .nil⟩
  | cons c cells ih =>
    obtain ⟨h1, h2, h3⟩ := hl c (by simp)
    rw [List.pairwise_cons] at hd
    obtain ⟨t1, g, a1, a2, a3, a4, a5, a6⟩ := makeCell_built hn h (k := k + 58 * cells.length) (hf.mono (by simp; omega)) hv hnd h1 h2 h3
      fun f hf => hnew f hf c (by simp)
    obtain ⟨t2, cs, b1, b2, b3, b4, b5⟩ := ih a2 a3 (fun n hn => a4.fps 0 (hv n hn)) (fun c hc => hl c (by simp [hc])) hd.2 (by
      intro f hf c' hc'
      rcases a6 f hf with hf' | e
      · have := hnew f hf' c' (by simp [hc'])
        rwa [show VS t1 n f = VS t n f by simp only [VS]; rw [← vertexSet_le h.ok.1.inv a4 hf']; rcases hn with rfl | rfl | rfl <;> rfl]
      · rw [e]
        exact hd.1 c' hc')
    exact ⟨t2, g :: cs, by simp only [makeCells, a1, b1], b2, b3, a4.trans b4, .cons (a5.grows a2.ok.1.inv b4) b5⟩

end Mito.Load
