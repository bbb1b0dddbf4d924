import Verif.Mesh.LoadSimplicesLemmas
import Verif.Spec.Stokes

/-! # Lemmas about the faces of simplices that were loaded -/

namespace Mito.Load

open Mito.Topology Mito.Meshes Mito.Combinatorics

/-! ### faces of a simplex -/

theorem OfVertices_even {t : Topo} {n : Nat} {o : Id} {l l' : List Id} (h : OfVertices t n o l) (hs : permutationSign l' l = some 1) :
    OfVertices t n o l' := by
  obtain ⟨m, h1, h2⟩ := OfVertices_iff h
  have hnd : l.Nodup := (perm_of_permutationSign h2).nodup_iff.mpr (FOfVertices_nodup h1)
  refine OfVertices_mk h1 ?_
  have := permutationSign_trans hnd hs h2
  simpa using this

theorem OfVertices_nodup {t : Topo} {n : Nat} {o : Id} {l : List Id} (h : OfVertices t n o l) : l.Nodup := by
  obtain ⟨m, h1, h2⟩ := OfVertices_iff h
  exact (perm_of_permutationSign h2).nodup_iff.mpr (FOfVertices_nodup h1)

theorem faces_map {α β : Type} (f : α → β) (l : List α) : faces (l.map f) = (faces l).map (List.map f) := by
  match l with
  | [] | [_] | [_, _] | [_, _, _] | [_, _, _, _] => rfl
  | _ :: _ :: _ :: _ :: _ :: _ => rfl

theorem faces_mem {α : Type} {l f : List α} (h : f ∈ faces l) : ∀ i ∈ f, i ∈ l := by
  match l, h with
  | [a, b, c], h =>
    simp only [faces, List.mem_cons, List.not_mem_nil, or_false] at h
    rcases h with rfl | rfl | rfl <;> simp +contextual
  | [a, b, c, d], h =>
    simp only [faces, List.mem_cons, List.not_mem_nil, or_false] at h
    rcases h with rfl | rfl | rfl | rfl <;> simp +contextual

theorem faces_nodup {α : Type} {l f : List α} (hl : l.Nodup) (h : f ∈ faces l) : f.Nodup := by
  match l, h with
  | [a, b, c], h =>
    simp only [faces, List.mem_cons, List.not_mem_nil, or_false] at h
    rcases h with rfl | rfl | rfl <;> simp at hl ⊢ <;> tauto
  | [a, b, c, d], h =>
    simp only [faces, List.mem_cons, List.not_mem_nil, or_false] at h
    rcases h with rfl | rfl | rfl | rfl <;> simp at hl ⊢ <;> tauto

/-- the faces of a tetrahedron do not depend on the order of its vertices, as long as the permutation is even -/
theorem faces_four : ∀ l ∈ List.permutations' [(0 : Fin 4), 1, 2, 3], permutationSign [(0 : Fin 4), 1, 2, 3] l = some 1 →
    ∃ ys ∈ (faces [(0 : Fin 4), 1, 2, 3]).permutations', List.Forall₂ (fun f g => permutationSign g f = some 1) (faces l) ys := by
  decide +kernel

theorem exists_map_four {α : Type} [DecidableEq α] {a b c d : α} (h : [a, b, c, d].Nodup) {l : List α} (hp : l.Perm [a, b, c, d]) :
    ∃ g : Fin 4 → α, Function.Injective g ∧ [a, b, c, d] = [0, 1, 2, 3].map g ∧ ∃ m : List (Fin 4), l = m.map g := by
  refine ⟨[a, b, c, d].get, List.nodup_iff_injective_get.mp h, rfl, ?_⟩
  obtain ⟨σ, hσ⟩ := exists_perm_of_perm h hp
  exact ⟨List.ofFn σ, by rw [hσ, List.map_ofFn]⟩

theorem permutationSign_map_inj {α β : Type} [DecidableEq α] [DecidableEq β] {f : α → β} {a b : List α} {s : Int} (hnd : b.Nodup)
    (hf : ∀ x ∈ a ++ b, ∀ y ∈ a ++ b, f x = f y → x = y) (h : permutationSign (a.map f) (b.map f) = some s) : permutationSign a b = some s := by
  have hp := perm_of_permutationSign h
  have hnb : (b.map f).Nodup := List.Nodup.map_on (fun x hx y hy => hf x (by simp [hx]) y (by simp [hy])) hnd
  have hna : a.Nodup := List.Nodup.of_map f (hp.nodup_iff.mpr hnb)
  have hab : a.Perm b := by
    rw [List.perm_ext_iff_of_nodup hna hnd]
    intro x
    constructor
    · intro hx
      obtain ⟨y, hy, e⟩ := List.mem_map.mp (hp.mem_iff.mp (List.mem_map_of_mem (f := f) hx))
      rwa [← hf y (by simp [hy]) x (by simp [hx]) e]
    · intro hx
      obtain ⟨y, hy, e⟩ := List.mem_map.mp (hp.mem_iff.mpr (List.mem_map_of_mem (f := f) hx))
      rwa [← hf y (by simp [hy]) x (by simp [hx]) e]
  have hne : a ≠ [] := by
    rintro rfl
    rw [List.nil_perm] at hab
    subst hab
    simp [permutationSign, swapSort] at h
  obtain ⟨s', hs'⟩ := permutationSign_some hne hnd hab
  have := permutationSign_map f hnd (fun x hx y hy => hf x (by simp [hx]) y (by simp [hy])) hs'
  rw [h] at this
  rw [hs']
  exact this.symm

/-- the facets of a positive simplex are its faces -/
theorem composition_faces {t : Topo} {n : Nat} (hn : n = 1 ∨ n = 2) {o : Id} {l : List Id} (h : OfVertices t (n + 1) o l)
    (hs : t.sg (n + 1) o = 1) : ∃ xs, xs.Perm (t.composition (n + 1) o) ∧ List.Forall₂ (OfVertices t n) xs (faces l) := by
  rcases hn with rfl | rfl
  · match l, h with
    | [a, b, c], h =>
      obtain ⟨p, q, r, hp, ⟨-, hx, hy, hz⟩ | ⟨hs', -⟩⟩ := TriO_composition h
      · exact ⟨[p, q, r], hp.symm, .cons hx (.cons hy (.cons hz .nil))⟩
      · rw [show (1 + 1 : Nat) = 2 from rfl] at hs
        rw [hs] at hs'
        exact absurd hs' (by decide)
  · match l, h with
    | [a, b, c, d], h =>
      have hnd := OfVertices_nodup (n := 3) h
      obtain ⟨a', b', c', d', ⟨n', x, y, z, w, e, h1, h2, h3, h4⟩, hsg⟩ := h
      rw [show (2 + 1 : Nat) = 3 from rfl] at hs
      rw [hs] at hsg
      have hp := perm_of_permutationSign hsg
      obtain ⟨g, hg, e1, m, e2⟩ := exists_map_four hnd hp.symm
      have hm : permutationSign [(0 : Fin 4), 1, 2, 3] m = some 1 := by
        refine permutationSign_map_inj (f := g) ?_ (fun x _ y _ e => hg e) (by rw [← e1, ← e2]; exact hsg)
        refine List.Nodup.of_map g ?_
        rw [← e2]
        exact n'
      obtain ⟨ys, hys, hF⟩ := faces_four m (List.mem_permutations'.mpr (perm_of_permutationSign hm).symm) hm
      rw [List.mem_permutations'] at hys
      have hF1 : List.Forall₂ (OfVertices t 2) [x, y, z, w] (ys.map (List.map g)) := by
        have h0 : List.Forall₂ (OfVertices t 2) [x, y, z, w] (faces [a', b', c', d']) := .cons h1 (.cons h2 (.cons h3 (.cons h4 .nil)))
        rw [e2, faces_map] at h0
        have hnodup : ∀ f ∈ faces m, f.Nodup := fun f hf => faces_nodup ((perm_of_permutationSign hm).nodup_iff.mp (by decide)) hf
        clear hys hs e h1 h2 h3 h4
        generalize [x, y, z, w] = xs at h0
        generalize faces m = fm at h0 hF hnodup
        induction hF generalizing xs with
        | nil => cases h0; exact .nil
        | cons hfg _ ih =>
          cases h0 with
          | cons hx h0 =>
            refine .cons (OfVertices_even hx ?_) (ih _ h0 fun f hf => hnodup f (by simp [hf]))
            exact permutationSign_map g (hnodup _ (by simp)) (fun x _ y _ e => hg e) hfg
      have e3 : (ys.map (List.map g)).Perm (faces [a, b, c, d]) := by
        rw [e1, faces_map]
        exact hys.map _
      obtain ⟨xs, k1, k2⟩ := List.perm_comp_forall₂ e3.symm hF1.flip
      refine ⟨xs, ?_, k1.flip⟩
      have hc := composition_perm t 3 o
      rw [e] at hc
      exact k2.trans hc.symm

/-! ### faces of all cells -/

/-- the facets of all cells -/
def allFacets (t : Topo) (n : Nat) (cs : List GCell) : List Id := cs.flatMap fun c => t.composition (n + 1) c.simplex

theorem forall₂_append {α β : Type} {R : α → β → Prop} {a c : List α} {b d : List β} (h : List.Forall₂ R a b) (h' : List.Forall₂ R c d) :
    List.Forall₂ R (a ++ c) (b ++ d) := by
  induction h with
  | nil => exact h'
  | cons h1 _ ih => exact .cons h1 ih

theorem allFacets_faces {t : Topo} {n : Nat} (hn : n = 1 ∨ n = 2) {nodes : List Node} {cells : List (List Nat)} {cs : List GCell}
    (h : List.Forall₂ (Built (n + 1) t nodes) cells cs) :
    ∃ xs, xs.Perm (allFacets t n cs) ∧ List.Forall₂ (fun x f => OfVertices t n x (f.map (vertexAt nodes))) xs (cells.flatMap faces) := by
  induction h with
  | nil => exact ⟨[], .nil, .nil⟩
  | cons h1 _ ih =>
    obtain ⟨xs, a1, a2⟩ := ih
    obtain ⟨ys, b1, b2⟩ := composition_faces hn h1.of h1.sign
    rw [faces_map, List.forall₂_map_right_iff] at b2
    exact ⟨ys ++ xs, b1.append a1, forall₂_append b2 a2⟩

theorem allFacets_live {t : Topo} (hi : Inv t) {n : Nat} {nodes : List Node} {cells : List (List Nat)} {cs : List GCell}
    (h : List.Forall₂ (Built (n + 1) t nodes) cells cs) : ∀ x ∈ allFacets t n cs, x ∈ (t.lvl n).ors := by
  intro x hx
  obtain ⟨c, hc, hx⟩ := List.mem_flatMap.mp hx
  obtain ⟨index, -, hL⟩ := forall₂_mem h hc
  exact composition_live hi hL.live x hx

theorem forall₂_left {α β : Type} {R : α → β → Prop} {a : List α} {b : List β} (h : List.Forall₂ R a b) {x : α} (hx : x ∈ a) :
    ∃ y ∈ b, R x y := by
  induction h with
  | nil => simp at hx
  | cons h1 _ ih =>
    rcases List.mem_cons.mp hx with rfl | hx
    · exact ⟨_, by simp, h1⟩
    · obtain ⟨y, hy, hr⟩ := ih hx
      exact ⟨y, by simp [hy], hr⟩

section
variable {t : Topo} (hi : Inv t) (hst : Std t) {n : Nat} (hn : n = 1 ∨ n = 2) {nodes : List Node} (hv : (nodes.map (·.vertex)).Nodup)
  {cells : List (List Nat)} {cs : List GCell} (hl : ∀ c ∈ cells, (∀ i ∈ c, i < nodes.length) ∧ c.Nodup)
  (h : List.Forall₂ (Built (n + 1) t nodes) cells cs)
include hi hst hn hv hl h

theorem face_inj {f g : List Nat} (hf : f ∈ cells.flatMap faces) (hg : g ∈ cells.flatMap faces) :
    ∀ x ∈ g ++ f, ∀ y ∈ g ++ f, vertexAt nodes x = vertexAt nodes y → x = y := by
  have hlt : ∀ f ∈ cells.flatMap faces, ∀ i ∈ f, i < nodes.length := by
    intro f hf i hif
    obtain ⟨c, hc, hm⟩ := List.mem_flatMap.mp hf
    exact (hl c hc).1 i (faces_mem hm i hif)
  intro x hx y hy e
  rw [List.mem_append] at hx hy
  exact vertexAt_inj hv (hx.elim (hlt g hg x) (hlt f hf x)) (hy.elim (hlt g hg y) (hlt f hf y)) e

/-- a facet is without an opposite in the mesh if the face is without one in the file -/
theorem unpaired_faces {x : Id} (hx : x ∈ allFacets t n cs) {f : List Nat} (hf : f ∈ cells.flatMap faces)
    (hxf : OfVertices t n x (f.map (vertexAt nodes))) : Unpaired t n cs x ↔ ∀ g ∈ cells.flatMap faces, ¬ Opposite f g := by
  obtain ⟨xs, hp, hF⟩ := allFacets_faces hn h
  have hxl := allFacets_live hi h x hx
  have hn3 : n = 1 ∨ n = 2 ∨ n = 3 := by omega
  have hnf : f.Nodup := by
    obtain ⟨c, hc, hm⟩ := List.mem_flatMap.mp hf
    exact faces_nodup (hl c hc).2 hm
  constructor
  · intro hu g hg hopp
    have hs := permutationSign_map (vertexAt nodes) hnf
      (fun a ha b hb e => face_inj hi hst hn hv hl h hf hg a (by simp [ha]) b (by simp [hb]) e) hopp
    obtain ⟨y, hy, hyg⟩ := forall₂_left hF.flip hg
    have hyl := allFacets_live hi h y (hp.mem_iff.mp hy)
    obtain ⟨e1, e2⟩ := OfVertices_related hi hst hn3 hxl hyl hxf hyg hs
    obtain ⟨c, hc, hm⟩ := List.mem_flatMap.mp (hp.mem_iff.mp hy)
    refine hu c hc (List.mem_map.mpr ⟨y, hm, ?_⟩)
    rw [e1, e2]
    simp
  · intro ho c hc hm
    obtain ⟨y, hy, e⟩ := List.mem_map.mp hm
    simp only [Prod.mk.injEq] at e
    have hyA : y ∈ allFacets t n cs := List.mem_flatMap.mpr ⟨c, hc, hy⟩
    have hyl := allFacets_live hi h y hyA
    obtain ⟨g, hg, hyg⟩ := forall₂_left hF (hp.mem_iff.mpr hyA)
    refine ho g hg ?_
    have hset : (g.map (vertexAt nodes)).toFinset = (f.map (vertexAt nodes)).toFinset := by
      rw [← OfVertices_VS hyg, ← OfVertices_VS hxf, e.1]
    have hperm : (g.map (vertexAt nodes)).Perm (f.map (vertexAt nodes)) := by
      rw [List.perm_ext_iff_of_nodup (OfVertices_nodup hyg) (OfVertices_nodup hxf)]
      intro a
      have := Finset.ext_iff.mp hset a
      rwa [List.mem_toFinset, List.mem_toFinset] at this
    have hne : g.map (vertexAt nodes) ≠ [] := by
      intro e0
      rw [e0] at hyg
      rcases hn with rfl | rfl <;> simp [OfVertices] at hyg
    obtain ⟨s, hs⟩ := permutationSign_some hne (OfVertices_nodup hxf) hperm
    obtain ⟨-, e2⟩ := OfVertices_related hi hst hn3 hxl hyl hxf hyg hs
    have hs1 : s = -1 := by
      rw [e.2] at e2
      rcases hi.sg n x hxl with e3 | e3 <;> rw [e3] at e2 <;> omega
    rw [hs1] at hs
    exact permutationSign_map_inj hnf (face_inj hi hst hn hv hl h hf hg) hs

/-- the boundary consists of the faces without an opposite -/
theorem boundary_faces {B : List GCell} (hB : List.Forall₂ (Places t n) (boundaryFacets t n cs) B) :
    ∃ L, L.Perm (outerFaces cells) ∧ List.Forall₂ (fun f b => permutationSign (GCell.vertices b) (f.map (vertexAt nodes)) = some 1) L B := by
  obtain ⟨xs, hp, hF⟩ := allFacets_faces hn h
  have h2 : (boundaryFacets t n cs).map (·.1) = (allFacets t n cs).filter fun x => Unpaired t n cs x := by
    have e : (occurrences t n cs).map (·.1) = allFacets t n cs := by
      simp only [occurrences, allFacets, List.map_flatMap, List.map_map, Function.comp_def, List.map_id']
    rw [← e, List.filter_map]
    rfl
  have h3 : List.Forall₂ (fun x f => OfVertices t n x (f.map (vertexAt nodes))) (xs.filter fun x => Unpaired t n cs x) (outerFaces cells) := by
    have key : ∀ {a : List Id} {b : List (List Nat)}, List.Forall₂ (fun x f => OfVertices t n x (f.map (vertexAt nodes))) a b →
        (∀ x ∈ a, x ∈ allFacets t n cs) → (∀ f ∈ b, f ∈ cells.flatMap faces) →
        List.Forall₂ (fun x f => OfVertices t n x (f.map (vertexAt nodes))) (a.filter fun x => Unpaired t n cs x)
          (b.filter fun f => ∀ g ∈ cells.flatMap faces, ¬ Opposite f g) := by
      intro a b hab
      induction hab with
      | nil => exact fun _ _ => .nil
      | @cons x f a b hxf _ ih =>
        intro ha hb
        have hu := unpaired_faces hi hst hn hv hl h (ha x (by simp)) (hb f (by simp)) hxf
        have := ih (fun y hy => ha y (by simp [hy])) fun g hg => hb g (by simp [hg])
        by_cases hux : Unpaired t n cs x
        · rw [List.filter_cons_of_pos (by simpa using hux), List.filter_cons_of_pos (by simpa using hu.mp hux)]
          exact .cons hxf this
        · rw [List.filter_cons_of_neg (by simpa using hux), List.filter_cons_of_neg (by simpa using mt hu.mpr hux)]
          exact this
    exact key hF (fun x hx => hp.mem_iff.mp hx) fun f hf => hf
  obtain ⟨L, k1, k2⟩ := List.perm_comp_forall₂ ((hp.filter _).symm) h3
  rw [← h2] at k1
  refine ⟨L, k2, ?_⟩
  clear k2 h2
  generalize boundaryFacets t n cs = X at hB k1
  induction hB generalizing L with
  | nil => cases k1; exact .nil
  | @cons x b X B hxb _ ih =>
    cases k1 with
    | cons hxf k1 =>
      refine .cons ?_ (ih _ k1)
      obtain ⟨l', g1, g2⟩ := OfVertices_vertices hxf
      rw [hxb.2.2] at g1
      simp only [Option.some.injEq] at g1
      rw [GCell.vertices, g1]
      exact g2

end

theorem Built.vertices {n : Nat} {t : Topo} {nodes : List Node} {index : List Nat} {c : GCell} (h : Built n t nodes index c) :
    c.vertices = index.map (vertexAt nodes) := by
  have := congrArg (List.map fun o : Option Node => (o.map (·.vertex)).getD 0) h.onto
  rw [List.map_map, List.map_map] at this
  refine this.symm.trans (List.map_congr_left fun i _ => ?_)
  simp [vertexAt, List.getD_eq_getElem?_getD]

theorem Built.cellOk {n : Nat} {t : Topo} {nodes : List Node} {index : List Nat} {c : GCell} (h : Built n t nodes index c) :
    CellOk t n c := by
  obtain ⟨l', e1, e2⟩ := OfVertices_vertices h.of
  have := h.vertices
  rw [GCell.vertices] at this
  exact ⟨h.live, by simp [GCell.sanityCheck, e1, this, e2]⟩

/-- if no two faces in the file are the same, no two facets of the mesh are the same -/
theorem facets_nodup_of_faces {t : Topo} (hi : Inv t) (hst : Std t) {n : Nat} (hn : n = 1 ∨ n = 2) {nodes : List Node}
    (hv : (nodes.map (·.vertex)).Nodup) {cells : List (List Nat)} {cs : List GCell}
    (hl : ∀ c ∈ cells, (∀ i ∈ c, i < nodes.length) ∧ c.Nodup) (h : List.Forall₂ (Built (n + 1) t nodes) cells cs)
    (hc : NoCommonFaces cells) : (cs.flatMap (facets t n)).Nodup := by
  have hn3 : n = 1 ∨ n = 2 ∨ n = 3 := by omega
  obtain ⟨xs, hp, hF⟩ := allFacets_faces hn h
  have e : cs.flatMap (facets t n) = (allFacets t n cs).map fun x => (t.fp n x, t.sg n x) := by
    simp [allFacets, List.map_flatMap]
    rfl
  have hlive : ∀ x ∈ xs, x ∈ (t.lvl n).ors := fun x hx => allFacets_live hi h x (hp.subset hx)
  rw [e, (hp.map _).symm.nodup_iff]
  have hmem : ∀ f ∈ cells.flatMap faces, f ∈ cells.flatMap faces := fun f hf => hf
  unfold NoCommonFaces at hc
  clear hp e
  revert hc hmem
  generalize hL : cells.flatMap faces = L at hF
  intro hc hmem
  have hsub : ∀ f ∈ L, f ∈ cells.flatMap faces := fun f hf => by rw [hL]; exact hf
  clear hL hmem
  induction hF with
  | nil => simp
  | @cons x f xs L hxf hF ih =>
    rw [List.pairwise_cons] at hc
    rw [List.map_cons, List.nodup_cons]
    refine ⟨fun hm => ?_, ih (fun y hy => hlive y (by simp [hy])) hc.2 fun f hf => hsub f (by simp [hf])⟩
    obtain ⟨y, hy, eq⟩ := List.mem_map.mp hm
    simp only [Prod.mk.injEq] at eq
    have hyx := hi.oriented_unique (hlive y (by simp [hy])) (hlive x (by simp)) eq.1 eq.2
    subst hyx
    obtain ⟨g, hg, hyg⟩ := forall₂_left hF hy
    refine hc.1 g hg ?_
    have hset : (g.map (vertexAt nodes)).toFinset = (f.map (vertexAt nodes)).toFinset := by
      rw [← OfVertices_VS hyg, ← OfVertices_VS hxf]
    have hperm : (g.map (vertexAt nodes)).Perm (f.map (vertexAt nodes)) := by
      rw [List.perm_ext_iff_of_nodup (OfVertices_nodup hyg) (OfVertices_nodup hxf)]
      intro a
      have := Finset.ext_iff.mp hset a
      rwa [List.mem_toFinset, List.mem_toFinset] at this
    have hne : g.map (vertexAt nodes) ≠ [] := by
      intro e0
      rw [e0] at hyg
      rcases hn with rfl | rfl <;> simp [OfVertices] at hyg
    obtain ⟨s, hs⟩ := permutationSign_some hne (OfVertices_nodup hxf) hperm
    obtain ⟨-, e2⟩ := OfVertices_related hi hst hn3 (hlive y (by simp)) (hlive y (by simp)) hxf hyg hs
    have hs1 : s = 1 := by
      rcases hi.sg n y (hlive y (by simp)) with e3 | e3 <;> rw [e3] at e2 <;> omega
    rw [hs1] at hs
    have hnf : f.Nodup := by
      obtain ⟨c, hc, hm⟩ := List.mem_flatMap.mp (hsub f (by simp))
      exact faces_nodup (hl c hc).2 hm
    exact permutationSign_map_inj hnf (face_inj hi hst hn hv hl h (hsub f (by simp)) (hsub g (by simp [hg]))) hs

theorem place3_at {coords : List (List ℚ)} {nodes : List Node} (hn : (nodes.map (·.vertex)).Nodup) {i : Nat}
    (hi : i < nodes.length) (k : Fin 3) : place3 coords nodes (vertexAt nodes i) k = (coordinate coords i k : ℝ) := by
  rw [vertexAt_node (List.getElem?_eq_getElem hi)]
  have : (nodes.map (·.vertex)).idxOf nodes[i].vertex = i := by
    have := hn.idxOf_getElem i (by simpa using hi)
    simpa using this
  rw [place3, this]

/-- the volume of a tetrahedron from its coordinates -/
theorem volume_index {coords : List (List ℚ)} {nodes : List Node} (hn : (nodes.map (·.vertex)).Nodup) {index : List Nat}
    (hl : index.length = 4) (hi : ∀ i ∈ index, i < nodes.length) :
    volume (place3 coords nodes) (index.map (vertexAt nodes)) = (sixVolume coords index : ℝ) / 6 := by
  match index, hl with
  | [i, j, k, l], _ =>
    have p := fun a (ha : a ∈ [i, j, k, l]) => place3_at (coords := coords) hn (hi a ha)
    have p1 := p i (by simp)
    have p2 := p j (by simp)
    have p3 := p k (by simp)
    have p4 := p l (by simp)
    simp only [List.map_cons, List.map_nil, volume, Geometry.simplexVolume, sixVolume]
    rw [Matrix.det_fin_three]
    simp [p1, p2, p3, p4, Nat.factorial]
    ring

end Mito.Load
