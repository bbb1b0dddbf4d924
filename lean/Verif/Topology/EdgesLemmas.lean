import Verif.Spec.Edges
import Verif.Topology.HistoryLemmas
import Verif.Topology.FlipDiagonalLemmas
import Verif.Mesh.LoadSimplicesLemmas
import Verif.Mesh.BoundaryLemmas
import Mathlib.Data.Fin.VecNotation

/-! # Lemmas about the edges of simplices -/

namespace Mito.Topology

open Mito.Combinatorics

/-- the directed edges that a face with the orientation `s` and the vertices `p q r` reports -/
def reported {α : Type*} (s : Bool) (p q r : α) : List (α × α) :=
  if s then [(p, q), (q, r), (r, p)] else [(q, p), (p, r), (r, q)]

theorem edgesF_le {t t' : Topo} (hi : Inv t) (h : Le t t') : ∀ (N : Nat) (f : Id), f ∈ (t.lvl N).fps → t'.edgesF N f = t.edgesF N f
  | 0, _, _ | 1, _, _ => rfl
  | 2, f, hf => h.comp 2 f hf
  | N + 3, f, hf => by
    simp only [Topo.edgesF, h.comp _ f hf]
    apply List.flatMap_congr
    intro o ho
    have hl := hi.comp_live _ f hf o ho
    rw [h.ofp _ o hl, edgesF_le hi h _ _ (hi.fp_live _ o hl)]

theorem SegO_of_ends {t : Topo} (hi : Inv t) (hs : Std t) {e u v : Id} (he : e ∈ (t.lvl 1).ors) (h1 : t.tail e = some u)
    (h2 : t.head e = some v) : SegO t e u v := by
  obtain ⟨a, b, h⟩ := SegO_of_live hi hs he
  obtain ⟨g1, g2, -⟩ := SegO_ends h
  rw [h1] at g1
  rw [h2] at g2
  simp only [Option.some.injEq] at g1 g2
  subst g1 g2
  exact h

/-- an oriented segment is determined by its ends -/
theorem SegO_inj {t : Topo} (hi : Inv t) (hs : Std t) {e e' u v : Id} (he : e ∈ (t.lvl 1).ors) (he' : e' ∈ (t.lvl 1).ors)
    (h : SegO t e u v) (h' : SegO t e' u v) : e = e' := by
  have := EP_unique hi hs (EP_of_SegO hi he h) (EP_of_SegO hi he' h')
  simp only [Prod.mk.injEq] at this
  have g := (hi.orients 1 (t.fp 1 e) (t.sg 1 e) e).mpr ⟨he, rfl, rfl⟩
  have g' := (hi.orients 1 (t.fp 1 e) (t.sg 1 e) e').mpr ⟨he', this.1.symm, this.2.symm⟩
  rw [g] at g'
  simpa using g'

/-- what the edges of a triangle are -/
theorem tri_edges {t : Topo} {o a b c : Id} (h : TriO t o a b c) :
    RunAlong t (t.edges 2 o) (reported (decide (t.sg 2 o = 1)) a b c) := by
  obtain ⟨a', b', c', ⟨n, x, y, z, e, p, q, r⟩, hs⟩ := h
  obtain ⟨p1, p2, -⟩ := SegO_ends p
  obtain ⟨q1, q2, -⟩ := SegO_ends q
  obtain ⟨r1, r2, -⟩ := SegO_ends r
  have hmap : ((t.edges 2 o).map fun e => (t.tail e, t.head e)) = [(some a', some b'), (some b', some c'), (some c', some a')] := by
    simp only [Topo.edges, Topo.edgesF, e, List.map_cons, List.map_nil, p1, p2, q1, q2, r1, r2]
  unfold RunAlong
  rw [hmap]
  rcases permutationSign_values hs with e1 | e1
  · rw [e1] at hs
    rw [e1]
    simp only [decide_true, reported, if_true]
    rcases permutationSign_three n hs with h1 | h1 | h1 <;>
      (simp only [List.cons.injEq, and_true] at h1; obtain ⟨rfl, rfl, rfl⟩ := h1)
    · exact List.Perm.refl _
    · exact (List.perm_append_comm (l₁ := [_]) (l₂ := [_, _]))
    · exact (List.perm_append_comm (l₁ := [_, _]) (l₂ := [_]))
  · rw [e1] at hs
    rw [e1]
    have : decide ((-1 : Int) = 1) = false := by decide
    simp only [this, reported]
    have hs' : permutationSign [b, a, c] [a', b', c'] = some 1 := by
      have hn : [a, b, c].Nodup := (perm_of_permutationSign hs).nodup_iff.mpr n
      have := permutationSign_trans hn (permutationSign_swap01 a b [c] hn) hs
      simpa using this
    rcases permutationSign_three n hs' with h1 | h1 | h1 <;>
      (simp only [List.cons.injEq, and_true] at h1; obtain ⟨rfl, rfl, rfl⟩ := h1)
    · exact List.Perm.refl _
    · exact (List.perm_append_comm (l₁ := [_]) (l₂ := [_, _]))
    · exact (List.perm_append_comm (l₁ := [_, _]) (l₂ := [_]))

/-- the faces of a tetrahedron with the vertices 0 1 2 3, as `Topology::tetrahedron` lists them -/
def faceOf : Fin 4 → Fin 4 × Fin 4 × Fin 4 := ![(0, 1, 2), (1, 3, 2), (3, 1, 0), (3, 0, 2)]

/-- the directed edges reported by the four faces with the orientations `s` -/
def tetReport (s : Fin 4 → Bool) : List (Fin 4 × Fin 4) :=
  (List.finRange 4).flatMap fun k => reported (s k) (faceOf k).1 (faceOf k).2.1 (faceOf k).2.2

theorem reported_map {α β : Type*} (g : α → β) (s : Bool) (p q r : α) :
    reported s (g p) (g q) (g r) = (reported s p q r).map (Prod.map g g) := by
  unfold reported
  split <;> rfl

/-- what the edges of a tetrahedron are -/
theorem tet_edges {t : Topo} {f a b c d x y z w : Id} (e : t.compF 3 f = [x, y, z, w]) (hx : TriO t x a b c) (hy : TriO t y b d c)
    (hz : TriO t z d b a) (hw : TriO t w d a c) :
    RunAlong t (t.edgesF 3 f) ((tetReport fun k => decide (t.sg 2 (![x, y, z, w] k) = 1)).map (Prod.map ![a, b, c, d] ![a, b, c, d])) := by
  have h1 := tri_edges hx
  have h2 := tri_edges hy
  have h3 := tri_edges hz
  have h4 := tri_edges hw
  unfold RunAlong at *
  have hE : t.edgesF 3 f = t.edges 2 x ++ (t.edges 2 y ++ (t.edges 2 z ++ t.edges 2 w)) := by
    simp [Topo.edgesF, e, Topo.edges]
  rw [hE]
  simp only [List.map_append]
  refine (h1.append (h2.append (h3.append h4))).trans ?_
  simp only [← List.map_append]
  refine List.Perm.of_eq (congrArg _ ?_)
  have hfr : List.finRange 4 = [0, 1, 2, 3] := by decide
  simp only [tetReport, hfr, List.flatMap_cons, List.flatMap_nil, List.append_nil, List.map_append, ← reported_map]
  rfl

theorem tetReport_some (s : Fin 4 → Bool) : ∀ i j, i ≠ j → (i, j) ∈ tetReport s ∨ (j, i) ∈ tetReport s := by
  revert s
  decide

theorem tetReport_ne (s : Fin 4 → Bool) : ∀ p ∈ tetReport s, p.1 ≠ p.2 := by
  revert s
  decide

/-- the vertices of a face -/
def onFace (k i : Fin 4) : Bool := i = (faceOf k).1 ∨ i = (faceOf k).2.1 ∨ i = (faceOf k).2.2

/-- `tetReport_both` as a test -/
def bothTest (s : Fin 4 → Bool) (i j k l : Fin 4) : Bool :=
  !(i ≠ j ∧ k ≠ l ∧ onFace k i ∧ onFace k j ∧ onFace l i ∧ onFace l j) || ((i, j) ∈ tetReport s ∧ (j, i) ∈ tetReport s) == (s k == s l)

theorem bothTest_true (s : Fin 4 → Bool) : ∀ i j k l, bothTest s i j k l = true := by
  revert s
  decide +kernel

theorem tetReport_both (s : Fin 4 → Bool) {i j k l : Fin 4} (h1 : i ≠ j) (h2 : k ≠ l) (h3 : onFace k i) (h4 : onFace k j)
    (h5 : onFace l i) (h6 : onFace l j) : (i, j) ∈ tetReport s ∧ (j, i) ∈ tetReport s ↔ s k = s l := by
  have := bothTest_true s i j k l
  simp only [bothTest, h1, h2, h3, h4, h5, h6, ne_eq, not_false_eq_true, and_self, decide_true, Bool.not_true, Bool.false_or,
    beq_iff_eq] at this
  rw [← decide_eq_true_iff (p := (i, j) ∈ tetReport s ∧ (j, i) ∈ tetReport s), this, beq_iff_eq]

theorem tetReport_card (s : Fin 4 → Bool) : ∀ k, ((List.finRange 4).countP s = k) →
    (tetReport s).toFinset.card = 6 + k.choose 2 + (4 - k).choose 2 := by
  rintro _ rfl
  revert s
  decide +kernel

theorem RunAlong.runs {t : Topo} {l : List Id} {E : List (Id × Id)} (h : RunAlong t l E) (u v : Id) : Runs t l u v ↔ (u, v) ∈ E := by
  have hm := h.mem_iff (a := (some u, some v))
  simp only [List.mem_map, Prod.mk.injEq, Option.some.injEq] at hm
  constructor
  · rintro ⟨e, he, h1, h2⟩
    obtain ⟨⟨p, q⟩, hp, rfl, rfl⟩ := hm.mp ⟨e, he, h1, h2⟩
    exact hp
  · intro hp
    obtain ⟨e, he, h1, h2⟩ := hm.mpr ⟨_, hp, rfl, rfl⟩
    exact ⟨e, he, h1, h2⟩

theorem RunAlong.card {t : Topo} (hi : Inv t) (hs : Std t) {l : List Id} {E : List (Id × Id)} (h : RunAlong t l E)
    (hl : ∀ e ∈ l, e ∈ (t.lvl 1).ors) : l.toFinset.card = E.toFinset.card := by
  have h1 : (l.toFinset.image fun e => (t.tail e, t.head e)) = E.toFinset.image fun p => (some p.1, some p.2) := by
    ext p
    have := h.mem_iff (a := p)
    simpa using this
  rw [← Finset.card_image_of_injOn (s := l.toFinset) (f := fun e => (t.tail e, t.head e)), h1, Finset.card_image_of_injective]
  · rintro ⟨p, q⟩ ⟨p', q'⟩ he
    simpa using he
  · intro e he e' he' hee
    have he := hl e (by simpa using he)
    have he' := hl e' (by simpa using he')
    obtain ⟨a, b, hab⟩ := SegO_of_live hi hs he
    obtain ⟨g1, g2, -⟩ := SegO_ends hab
    simp only [Prod.mk.injEq, g1, g2] at hee
    exact SegO_inj hi hs he he' hab (SegO_of_ends hi hs he' hee.1.symm hee.2.symm)

theorem mem_vertexSet_TriO {t : Topo} {o a b c : Id} (h : TriO t o a b c) (v : Id) :
    v ∈ t.vertexSet 2 (t.fp 2 o) ↔ v = a ∨ v = b ∨ v = c := by
  have := Finset.ext_iff.mp (TriO_VS h) v
  simpa [VS] using this

/-- the vertices, faces and edges of a tetrahedron, numbered -/
theorem tet_frame {t : Topo} (hi : Inv t) (hs : Std t) {o : Id} (ho : o ∈ (t.lvl 3).ors) :
    ∃ φ ψ : Fin 4 → Id, Function.Injective φ ∧ (∀ v, v ∈ t.vertexSet 3 (t.fp 3 o) ↔ ∃ i, φ i = v) ∧
      t.compF 3 (t.fp 3 o) = List.ofFn ψ ∧ Function.Injective ψ ∧
      (∀ k v, v ∈ t.vertexSet 2 (t.fp 2 (ψ k)) ↔ ∃ i, onFace k i ∧ φ i = v) ∧
      RunAlong t (t.edges 3 o) ((tetReport fun k => decide (t.sg 2 (ψ k) = 1)).map (Prod.map φ φ)) := by
  obtain ⟨a, b, c, d, hF⟩ := hs.tet _ (hi.fp_live 3 o ho)
  have hV := TetF_VS hF
  obtain ⟨n, x, y, z, w, e, hx, hy, hz, hw⟩ := hF
  have hnd := hi.comp_nodup 2 _ (hi.fp_live 3 o ho)
  have inj : ∀ {p q r s : Id}, [p, q, r, s].Nodup → Function.Injective ![p, q, r, s] := by
    intro p q r s h
    have : List.ofFn ![p, q, r, s] = [p, q, r, s] := by simp [List.ofFn_succ]
    rw [← this] at h
    exact List.nodup_ofFn.mp h
  refine ⟨![a, b, c, d], ![x, y, z, w], inj n, fun v => ?_, ?_, inj (by rwa [e] at hnd), ?_, tet_edges e hx hy hz hw⟩
  · have := Finset.ext_iff.mp hV v
    simp only [VS, List.mem_toFinset, Finset.mem_insert, Finset.mem_singleton] at this
    rw [this, Fin.exists_fin_succ, Fin.exists_fin_succ, Fin.exists_fin_succ, Fin.exists_fin_succ]
    simp [eq_comm]
  · rw [e]
    simp [List.ofFn_succ]
  · intro k v
    fin_cases k
    · rw [show (![x, y, z, w] : Fin 4 → Id) ⟨0, by decide⟩ = x from rfl, mem_vertexSet_TriO hx]
      rw [Fin.exists_fin_succ, Fin.exists_fin_succ, Fin.exists_fin_succ, Fin.exists_fin_succ]
      simp [onFace, faceOf, @eq_comm _ v]; try tauto
    · rw [show (![x, y, z, w] : Fin 4 → Id) ⟨1, by decide⟩ = y from rfl, mem_vertexSet_TriO hy]
      rw [Fin.exists_fin_succ, Fin.exists_fin_succ, Fin.exists_fin_succ, Fin.exists_fin_succ]
      simp [onFace, faceOf, @eq_comm _ v]; try tauto
    · rw [show (![x, y, z, w] : Fin 4 → Id) ⟨2, by decide⟩ = z from rfl, mem_vertexSet_TriO hz]
      rw [Fin.exists_fin_succ, Fin.exists_fin_succ, Fin.exists_fin_succ, Fin.exists_fin_succ]
      simp [onFace, faceOf, @eq_comm _ v]; try tauto
    · rw [show (![x, y, z, w] : Fin 4 → Id) ⟨3, by decide⟩ = w from rfl, mem_vertexSet_TriO hw]
      rw [Fin.exists_fin_succ, Fin.exists_fin_succ, Fin.exists_fin_succ, Fin.exists_fin_succ]
      simp [onFace, faceOf, @eq_comm _ v]; try tauto

theorem edges_live {t : Topo} (hi : Inv t) {o : Id} (ho : o ∈ (t.lvl 3).ors) : ∀ e ∈ t.edges 3 o, e ∈ (t.lvl 1).ors := by
  intro e he
  simp only [Topo.edges, Topo.edgesF, List.mem_flatMap] at he
  obtain ⟨x, hx, he⟩ := he
  exact hi.comp_live 1 _ (hi.fp_live 2 x (hi.comp_live 2 _ (hi.fp_live 3 o ho) x hx)) e he

/-! ### new tetrahedra -/

theorem VS_le {t t' : Topo} (hi : Inv t) (hle : Le t t') {N : Nat} {f : Id} (hf : f ∈ (t.lvl N).fps) : VS t' N f = VS t N f := by
  unfold VS
  rw [vertexSet_le hi hle hf]

/-- no triangle has the vertices `S` -/
def NoTri (t : Topo) (S : Finset Id) : Prop := ∀ f ∈ (t.lvl 2).fps, VS t 2 f ≠ S

/-- a triangle on new vertices is positive, and the only one made -/
theorem triangle_fresh {t t' : Topo} (h : Ok t) (hst : Std t) {a b c o : Id} (ha : a ∈ (t.lvl 0).fps)
    (hb : b ∈ (t.lvl 0).fps) (hc : c ∈ (t.lvl 0).fps) (ho : t.triangle a b c = some (t', o)) (hn : NoTri t {a, b, c}) :
    t'.sg 2 o = 1 ∧ ∀ S, S ≠ {a, b, c} → NoTri t S → NoTri t' S := by
  obtain ⟨ok1, le1, l1, _, n1⟩ := triangle_ok h ha hb hc ho
  obtain ⟨st1, o1⟩ := triangle_std h hst ha hb hc ho
  obtain ⟨new1, pos1⟩ := Load.triangle_new h hst ha hb hc ho
  refine ⟨pos1 fun hm => hn _ hm ?_, fun S hS hno f hf e => ?_⟩
  · rw [← VS_le h.inv le1 hm, TriO_VS o1]
  · rcases new1 f hf with hf | rfl
    · exact hno f hf (by rw [← VS_le h.inv le1 hf, e])
    · exact hS (by rw [← e, TriO_VS o1])

theorem triples {a b c d : Id} (n : [a, b, c, d].Nodup) :
    ({b, d, c} : Finset Id) ≠ {a, b, c} ∧ ({d, b, a} : Finset Id) ≠ {a, b, c} ∧ ({d, a, c} : Finset Id) ≠ {a, b, c} ∧
      ({d, b, a} : Finset Id) ≠ {b, d, c} ∧ ({d, a, c} : Finset Id) ≠ {b, d, c} ∧ ({d, a, c} : Finset Id) ≠ {d, b, a} := by
  simp only [List.nodup_cons, List.mem_cons, List.not_mem_nil, or_false, not_or, not_false_eq_true, List.nodup_nil, and_true] at n
  obtain ⟨⟨n1, n2, n3⟩, ⟨n4, n5⟩, n6⟩ := n
  refine ⟨fun e => ?_, fun e => ?_, fun e => ?_, fun e => ?_, fun e => ?_, fun e => ?_⟩
  · have := (Finset.ext_iff.mp e d).mp (by simp); simp at this; tauto
  · have := (Finset.ext_iff.mp e d).mp (by simp); simp at this; tauto
  · have := (Finset.ext_iff.mp e d).mp (by simp); simp at this; tauto
  · have := (Finset.ext_iff.mp e a).mp (by simp); simp at this; tauto
  · have := (Finset.ext_iff.mp e a).mp (by simp); simp at this; tauto
  · have := (Finset.ext_iff.mp e c).mp (by simp); simp at this; tauto

theorem faces_nodup {t : Topo} {a b c d x y z w : Id} (n : [a, b, c, d].Nodup) (ox : TriO t x a b c) (oy : TriO t y b d c)
    (oz : TriO t z d b a) (ow : TriO t w d a c) : [x, y, z, w].Nodup := by
  apply List.Nodup.of_map (t.fp 2)
  apply List.Nodup.of_map (VS t 2)
  rw [tet_faces n ox oy oz ow]
  refine List.Nodup.map_on ?_ (by simp at n ⊢; tauto)
  intro u hu v hv e
  refine erase_injOn ?_ ?_ e
  · simp at hu ⊢; tauto
  · simp at hv ⊢; tauto

/-- the faces of a new tetrahedron none of whose faces existed are positive -/
theorem tetrahedron_fresh {t t' : Topo} (h : Ok t) (hst : Std t) {a b c d o : Id} (ha : a ∈ (t.lvl 0).fps)
    (hb : b ∈ (t.lvl 0).fps) (hc : c ∈ (t.lvl 0).fps) (hd : d ∈ (t.lvl 0).fps) (ho : t.tetrahedron a b c d = some (t', o))
    (hn : ∀ f ∈ (t.lvl 2).fps, ¬ VS t 2 f ⊆ {a, b, c, d}) : ∀ x ∈ t'.compF 3 (t'.fp 3 o), t'.sg 2 x = 1 := by
  obtain ⟨okf, lef, lo⟩ := tetrahedron_ok h ha hb hc hd ho
  obtain ⟨stf, of, n⟩ := tetrahedron_std h hst ha hb hc hd ho
  obtain ⟨m1, m2, m3, m4, m5, m6⟩ := triples n
  have no : ∀ S ⊆ {a, b, c, d}, NoTri t S := fun S hS f hf e => hn f hf (e ▸ hS)
  have sx := no {a, b, c} (by intro v; simp; tauto)
  have sy := no {b, d, c} (by intro v; simp; tauto)
  have sz := no {d, b, a} (by intro v; simp; tauto)
  have sw := no {d, a, c} (by intro v; simp; tauto)
  have hnew : t'.fp 3 o ∉ (t.lvl 3).fps := by
    intro hm
    have hV := TetO_VS of
    rw [VS_le h.inv lef hm] at hV
    obtain ⟨p, q, r, s, hF⟩ := hst.tet _ hm
    have hV' := TetF_VS hF
    obtain ⟨-, x', y', z', w', e, hx', -⟩ := hF
    have hlive := h.inv.comp_live 2 _ hm x' (by rw [e]; simp)
    refine hn _ (h.inv.fp_live 2 x' hlive) ?_
    rw [TriO_VS hx', ← hV, hV']
    intro v
    simp
    tauto
  clear hn no of lef lo okf stf
  unfold Topo.tetrahedron at ho
  split at ho
  · simp at ho
  · rename_i t1 x hx
    obtain ⟨ok1, le1, l1, _, n1⟩ := triangle_ok h ha hb hc hx
    obtain ⟨st1, o1⟩ := triangle_std h hst ha hb hc hx
    have s1 := Load.triangle_fps' h hst ha hb hc hx
    obtain ⟨p1, f1⟩ := triangle_fresh h hst ha hb hc hx sx
    have sy := f1 _ m1 sy
    have sz := f1 _ m2 sz
    have sw := f1 _ m3 sw
    have ha := le1.fps 0 ha
    have hb := le1.fps 0 hb
    have hc := le1.fps 0 hc
    have hd := le1.fps 0 hd
    split at ho
    · simp at ho
    · rename_i t2 y hy
      obtain ⟨ok2, le2, l2, _, n2⟩ := triangle_ok ok1 hb hd hc hy
      obtain ⟨st2, o2⟩ := triangle_std ok1 st1 hb hd hc hy
      have s2 := Load.triangle_fps' ok1 st1 hb hd hc hy
      obtain ⟨p2, f2⟩ := triangle_fresh ok1 st1 hb hd hc hy sy
      have sz := f2 _ m4 sz
      have sw := f2 _ m5 sw
      have ha := le2.fps 0 ha
      have hb := le2.fps 0 hb
      have hc := le2.fps 0 hc
      have hd := le2.fps 0 hd
      split at ho
      · simp at ho
      · rename_i t3 z hz
        obtain ⟨ok3, le3, l3, _, n3⟩ := triangle_ok ok2 hd hb ha hz
        obtain ⟨st3, o3⟩ := triangle_std ok2 st2 hd hb ha hz
        have s3 := Load.triangle_fps' ok2 st2 hd hb ha hz
        obtain ⟨p3, f3⟩ := triangle_fresh ok2 st2 hd hb ha hz sz
        have sw := f3 _ m6 sw
        have ha := le3.fps 0 ha
        have hb := le3.fps 0 hb
        have hc := le3.fps 0 hc
        have hd := le3.fps 0 hd
        split at ho
        · simp at ho
        · rename_i t4 w hw
          obtain ⟨ok4, le4, l4, _, n4⟩ := triangle_ok ok3 hd ha hc hw
          obtain ⟨st4, o4⟩ := triangle_std ok3 st3 hd ha hc hw
          have s4 := Load.triangle_fps' ok3 st3 hd ha hc hw
          obtain ⟨p4, -⟩ := triangle_fresh ok3 st3 hd ha hc hw sw
          have lx := le3.ors 2 (le2.ors 2 l1)
          have ly := le3.ors 2 l2
          have ox := TriO_le ok3.inv le4 lx (TriO_le ok2.inv le3 (le2.ors 2 l1) (TriO_le ok1.inv le2 l1 o1))
          have oy := TriO_le ok3.inv le4 ly (TriO_le ok2.inv le3 l2 o2)
          have oz := TriO_le ok3.inv le4 l3 o3
          have hcl : ∀ v ∈ [x, y, z, w], v ∈ (t4.lvl 2).ors := by
            simp [le4.ors 2 lx, le4.ors 2 ly, le4.ors 2 l3, l4]
          have hnd' : [x, y, z, w].Nodup := faces_nodup n ox oy oz o4
          obtain ⟨-, le, -, -, -, -, hcomp, -⟩ := simplex_spec ok4.inv hcl rfl hnd' ho
          rw [hcomp fun hm => hnew ((s4.trans (s3.trans (s2.trans s1))) hm)]
          rw [← le2.osg 2 x l1, ← le3.osg 2 x (le2.ors 2 l1), ← le4.osg 2 x lx, ← le.osg 2 x (hcl x (by simp))] at p1
          rw [← le3.osg 2 y l2, ← le4.osg 2 y ly, ← le.osg 2 y (hcl y (by simp))] at p2
          rw [← le4.osg 2 z l3, ← le.osg 2 z (hcl z (by simp))] at p3
          rw [← le.osg 2 w (hcl w (by simp))] at p4
          simp [p1, p2, p3, p4]

end Mito.Topology
