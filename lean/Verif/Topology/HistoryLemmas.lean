import Verif.Topology.ValidLemmas
import Verif.Spec.Topology

/-! # Helper lemmas for the topology: replaying requests, loops, permuted vertices -/

set_option linter.unusedSimpArgs false
set_option linter.unusedVariables false

namespace Mito.Topology

open Mito.Combinatorics

theorem Reachable.ok {t : Topo} (h : Reachable t) : Ok t := by
  obtain ⟨s, ops, hr⟩ := h
  exact run_ok (Ok.init s) hr

theorem VReachable.ok {t : Topo} (h : VReachable t) : Ok t ∧ Std t := by
  obtain ⟨s, ops, hv, hr⟩ := h
  refine run_std (Ok.init s) (Std.init s) (fun op hop => ?_) hr
  have := hv op hop
  cases op <;> simp_all [Op.fromVerticesOnly, VertexBased]

/-! ### replay -/

theorem orientedF_replay {t t1 t2 : Topo} {N : Nat} {f : Id} {s : Int} {o : Id} (hi : Inv t)
    (hf : f ∈ (t.lvl N).fps) (hs : s = 1 ∨ s = -1) (h : t.orientedF N f s = some (t1, o))
    (hi2 : Inv t2) (hle : Le t1 t2) : t2.orientedF N f s = some (t2, o) := by
  obtain ⟨i1, l1, ol, e1, e2⟩ := orientedF_spec hi hf hs h
  have := orientedF_existing hi2 (hle.ors N ol)
  rwa [hle.ofp N o ol, hle.osg N o ol, e1, e2] at this

theorem simplex_replay {t t1 t2 : Topo} {N : Nat} {c : List Id} {o : Id} (hi : Inv t)
    (hc : ∀ x ∈ c, x ∈ (t.lvl N).ors) (hl : c.length = N + 2) (hnd : c.Nodup)
    (h : t.simplex N c = some (t1, o)) (hi2 : Inv t2) (hle : Le t1 t2) :
    t2.simplex N c = some (t2, o) := by
  obtain ⟨i1, l1, ol, hv, hp, hsg, _, hfp⟩ := simplex_spec hi hc hl hnd h
  have hl2 := l1.trans hle
  have hv2 : t2.isValid (N + 1) c = some true := by rw [isValid_le hi hl2 hc, hv]
  have hfpc : c.map (t2.fp N) = c.map (t.fp N) := map_fp_congr fun x hx => hl2.ofp N x (hc x hx)
  have hf1 := i1.fp_live _ o ol
  have hcomp2 : t2.compF (N + 1) (t1.fp (N + 1) o) = t1.compF (N + 1) (t1.fp (N + 1) o) :=
    hle.comp _ _ hf1
  have hmap : (t2.compF (N + 1) (t1.fp (N + 1) o)).map (t2.fp N) =
      (t1.compF (N + 1) (t1.fp (N + 1) o)).map (t1.fp N) := by
    rw [hcomp2]
    exact map_fp_congr fun x hx => hle.ofp N x (i1.comp_live N _ hf1 x hx)
  have hcs : (t2.lvl (N + 1)).comps (t2.representative N c) = some (t1.fp (N + 1) o) := by
    rw [hi2.comps]
    refine ⟨hle.fps _ hf1, ?_⟩
    rw [representative_eq_iff, hmap, hfpc]
    exact hp.symm
  have hor : t2.orientation N c (t1.fp (N + 1) o) = some (t1.sg (N + 1) o) := by
    unfold Topo.orientation
    rw [hmap, hfpc]; exact hsg
  have hex := orientedF_existing hi2 (hle.ors _ ol)
  rw [hle.ofp _ o ol, hle.osg _ o ol] at hex
  simp [Topo.simplex, hv2, Topo.simplexF, hcs, hor, hex]

theorem segment_replay {t t1 t2 : Topo} {a b o : Id} (hok : Ok t) (ha : a ∈ (t.lvl 0).fps)
    (hb : b ∈ (t.lvl 0).fps) (h : t.segment a b = some (t1, o)) (hi2 : Inv t2) (hle : Le t1 t2) :
    t2.segment a b = some (t2, o) := by
  have hne := (segment_ok hok ha hb h).2.2.2.2
  unfold Topo.segment at h
  split at h
  · simp at h
  · rename_i u x hx
    obtain ⟨ok1, le1, l1, f1, s1⟩ := orientedF_ok hok ha (by simp) hx
    split at h
    · simp at h
    · rename_i u2 y hy
      obtain ⟨ok2, le2, l2, f2, s2⟩ := orientedF_ok ok1 (le1.fps 0 hb) (by simp) hy
      have hxy : x ≠ y := by
        rintro rfl
        rw [le2.osg 0 x l1, s1] at s2
        simp at s2
      have hc : ∀ z ∈ [x, y], z ∈ (u2.lvl 0).ors := by simp [le2.ors 0 l1, l2]
      have hles := (simplex_spec ok2.inv hc rfl (by simp [hxy]) h).2.1
      have r1 := orientedF_replay hok.inv ha (by simp) hx hi2 ((le2.trans hles).trans hle)
      have r2 := orientedF_replay ok1.inv (le1.fps 0 hb) (by simp) hy hi2 (hles.trans hle)
      have r3 := simplex_replay ok2.inv hc rfl (by simp [hxy]) h hi2 hle
      simp [Topo.segment, r1, r2, r3]

theorem triangle_replay {t t1 t2 : Topo} {a b c o : Id} (hok : Ok t) (hst : Std t)
    (ha : a ∈ (t.lvl 0).fps) (hb : b ∈ (t.lvl 0).fps) (hc : c ∈ (t.lvl 0).fps)
    (h : t.triangle a b c = some (t1, o)) (hi2 : Inv t2) (hle : Le t1 t2) :
    t2.triangle a b c = some (t2, o) := by
  have hne := (triangle_ok hok ha hb hc h).2.2.2.2
  unfold Topo.triangle at h
  split at h
  · simp at h
  · rename_i u1 x hx
    obtain ⟨ok1, le1, l1, _⟩ := segment_ok hok ha hb hx
    obtain ⟨st1, o1⟩ := segment_std hok hst ha hb hx
    split at h
    · simp at h
    · rename_i u2 y hy
      obtain ⟨ok2, le2, l2, _⟩ := segment_ok ok1 (le1.fps 0 hb) (le1.fps 0 hc) hy
      obtain ⟨st2, o2⟩ := segment_std ok1 st1 (le1.fps 0 hb) (le1.fps 0 hc) hy
      split at h
      · simp at h
      · rename_i u3 z hz
        have hc2 := le2.fps 0 (le1.fps 0 hc)
        have ha2 := le2.fps 0 (le1.fps 0 ha)
        obtain ⟨ok3, le3, l3, _⟩ := segment_ok ok2 hc2 ha2 hz
        obtain ⟨st3, o3⟩ := segment_std ok2 st2 hc2 ha2 hz
        have ox := SegO_le ok2.inv le3 (le2.ors 1 l1) (SegO_le ok1.inv le2 l1 o1)
        have oy := SegO_le ok2.inv le3 l2 o2
        have n0 : [a, b, c].Nodup := by simp; exact ⟨⟨hne.1, Ne.symm hne.2.2⟩, hne.2.1⟩
        have hlive : ∀ u ∈ [x, y, z], u ∈ (u3.lvl 1).ors := by
          simp [le3.ors 1 (le2.ors 1 l1), le3.ors 1 l2, l3]
        have hnd : [x, y, z].Nodup := by
          apply List.Nodup.of_map (u3.fp 1)
          apply List.Nodup.of_map (VS u3 1)
          rw [tri_faces n0 ox oy o3]
          apply List.Nodup.map_on _ (nodup_rot3 n0)
          intro u hu v hv e
          refine erase_injOn ?_ ?_ e
          · rw [← rot3]; simpa using hu
          · rw [← rot3]; simpa using hv
        have hles := (simplex_spec ok3.inv hlive rfl hnd h).2.1
        have r1 := segment_replay hok ha hb hx hi2 (((le2.trans le3).trans hles).trans hle)
        have r2 := segment_replay ok1 (le1.fps 0 hb) (le1.fps 0 hc) hy hi2
          ((le3.trans hles).trans hle)
        have r3 := segment_replay ok2 hc2 ha2 hz hi2 (hles.trans hle)
        have r4 := simplex_replay ok3.inv hlive rfl hnd h hi2 hle
        simp [Topo.triangle, r1, r2, r3, r4]

theorem tetrahedron_replay {t t1 t2 : Topo} {a b c d o : Id} (hok : Ok t) (hst : Std t)
    (ha : a ∈ (t.lvl 0).fps) (hb : b ∈ (t.lvl 0).fps) (hc : c ∈ (t.lvl 0).fps)
    (hd : d ∈ (t.lvl 0).fps) (h : t.tetrahedron a b c d = some (t1, o)) (hi2 : Inv t2)
    (hle : Le t1 t2) : t2.tetrahedron a b c d = some (t2, o) := by
  have n0 := (tetrahedron_std hok hst ha hb hc hd h).2.2
  unfold Topo.tetrahedron at h
  split at h
  · simp at h
  · rename_i u1 x hx
    obtain ⟨ok1, le1, l1, _⟩ := triangle_ok hok ha hb hc hx
    obtain ⟨st1, o1⟩ := triangle_std hok hst ha hb hc hx
    have ha1 := le1.fps 0 ha
    have hb1 := le1.fps 0 hb
    have hc1 := le1.fps 0 hc
    have hd1 := le1.fps 0 hd
    split at h
    · simp at h
    · rename_i u2 y hy
      obtain ⟨ok2, le2, l2, _⟩ := triangle_ok ok1 hb1 hd1 hc1 hy
      obtain ⟨st2, o2⟩ := triangle_std ok1 st1 hb1 hd1 hc1 hy
      have ha2 := le2.fps 0 ha1
      have hb2 := le2.fps 0 hb1
      have hc2 := le2.fps 0 hc1
      have hd2 := le2.fps 0 hd1
      split at h
      · simp at h
      · rename_i u3 z hz
        obtain ⟨ok3, le3, l3, _⟩ := triangle_ok ok2 hd2 hb2 ha2 hz
        obtain ⟨st3, o3⟩ := triangle_std ok2 st2 hd2 hb2 ha2 hz
        have ha3 := le3.fps 0 ha2
        have hb3 := le3.fps 0 hb2
        have hc3 := le3.fps 0 hc2
        have hd3 := le3.fps 0 hd2
        split at h
        · simp at h
        · rename_i u4 w hw
          obtain ⟨ok4, le4, l4, _⟩ := triangle_ok ok3 hd3 ha3 hc3 hw
          obtain ⟨st4, o4⟩ := triangle_std ok3 st3 hd3 ha3 hc3 hw
          have ox := TriO_le ok3.inv le4 (le3.ors 2 (le2.ors 2 l1))
            (TriO_le ok2.inv le3 (le2.ors 2 l1) (TriO_le ok1.inv le2 l1 o1))
          have oy := TriO_le ok3.inv le4 (le3.ors 2 l2) (TriO_le ok2.inv le3 l2 o2)
          have oz := TriO_le ok3.inv le4 l3 o3
          have hlive : ∀ u ∈ [x, y, z, w], u ∈ (u4.lvl 2).ors := by
            simp [le4.ors 2 (le3.ors 2 (le2.ors 2 l1)), le4.ors 2 (le3.ors 2 l2), le4.ors 2 l3, l4]
          have hnd : [x, y, z, w].Nodup := by
            apply List.Nodup.of_map (u4.fp 2)
            apply List.Nodup.of_map (VS u4 2)
            rw [tet_faces n0 ox oy oz o4]
            apply List.Nodup.map_on _ (nodup_rot4 n0)
            intro u hu v hv e
            refine erase_injOn ?_ ?_ e
            · rw [← rot4]; simpa using hu
            · rw [← rot4]; simpa using hv
          have hles := (simplex_spec ok4.inv hlive rfl hnd h).2.1
          have r1 := triangle_replay hok hst ha hb hc hx hi2
            ((((le2.trans le3).trans le4).trans hles).trans hle)
          have r2 := triangle_replay ok1 st1 hb1 hd1 hc1 hy hi2
            (((le3.trans le4).trans hles).trans hle)
          have r3 := triangle_replay ok2 st2 hd2 hb2 ha2 hz hi2 ((le4.trans hles).trans hle)
          have r4 := triangle_replay ok3 st3 hd3 ha3 hc3 hw hi2 (hles.trans hle)
          have r5 := simplex_replay ok4.inv hlive rfl hnd h hi2 hle
          simp [Topo.tetrahedron, r1, r2, r3, r4, r5]

/-! ### requests by composition -/

theorem map_swap01 {α β : Type*} (f : α → β) (l : List α) : (swap01 l).map f = swap01 (l.map f) := by
  match l with
  | [] => rfl
  | [x] => rfl
  | x :: y :: l => rfl

theorem permutationSign_swap01' {l : List Id} (hl : 2 ≤ l.length) (h : l.Nodup) :
    permutationSign (swap01 l) l = some (-1) := by
  match l, hl with
  | x :: y :: l, _ => exact permutationSign_swap01 x y l h

/-- the orientation of the composition of a live simplex -/
theorem orientation_composition {t : Topo} (hi : Inv t) {N : Nat} {o : Id}
    (ho : o ∈ (t.lvl (N + 1)).ors) (hnd : ((t.composition (N + 1) o).map (t.fp N)).Nodup) :
    permutationSign ((t.composition (N + 1) o).map (t.fp N))
      ((t.compF (N + 1) (t.fp (N + 1) o)).map (t.fp N)) = some (t.sg (N + 1) o) := by
  have hlen := hi.comp_len N _ (hi.fp_live _ o ho)
  have hp := (composition_perm t (N + 1) o).map (t.fp N)
  have hnd' := hp.nodup_iff.mp hnd
  unfold Topo.composition
  rcases hi.sg _ o ho with h | h
  · rw [if_neg (by rw [h]; decide), h]
    apply permutationSign_refl _ hnd'
    intro e
    have := congrArg List.length e
    simp [hlen] at this
  · rw [if_pos h, h, map_swap01]
    exact permutationSign_swap01' (by simp [hlen]) hnd'

theorem simplex_of_realizes {t : Topo} (hi : Inv t) {N : Nat} {c : List Id} {o : Id}
    (hv : t.isValid (N + 1) c = some true) (h : Realizes t N c o) :
    t.simplex N c = some (t, o) := by
  obtain ⟨ho, hs⟩ := h
  have hcs : (t.lvl (N + 1)).comps (t.representative N c) = some (t.fp (N + 1) o) := by
    rw [hi.comps]
    refine ⟨hi.fp_live _ o ho, ?_⟩
    rw [representative_eq_iff]
    exact (perm_of_permutationSign hs).symm
  simp [Topo.simplex, hv, Topo.simplexF, hcs, Topo.orientation, hs, orientedF_existing hi ho]

theorem realizes_unique {t : Topo} (hi : Inv t) {N : Nat} {c : List Id} {o o' : Id}
    (h : Realizes t N c o) (h' : Realizes t N c o') : o = o' := by
  have hf : t.fp (N + 1) o = t.fp (N + 1) o' :=
    hi.footprint_unique (hi.fp_live _ o h.1) (hi.fp_live _ o' h'.1)
      ((perm_of_permutationSign h.2).symm.trans (perm_of_permutationSign h'.2))
  refine hi.oriented_unique h.1 h'.1 hf ?_
  have h1 := h.2
  rw [hf, h'.2] at h1
  simpa using h1.symm

theorem existsComp_eq {t : Topo} (hi : Inv t) {N : Nat} {c : List Id} :
    t.existsComp N c = some true ↔ ∃ o, Realizes t N c o := by
  unfold Topo.existsComp Topo.findSimplex Topo.findOriented Topo.orientation
  constructor
  · intro h
    split at h
    · simp at h
    · rename_i f hf
      obtain ⟨hfl, hrep⟩ := (hi.comps N _ f).1 hf
      split at h
      · simp at h
      · rename_i s hs
        simp only [Option.some.injEq, Option.isSome_iff_exists] at h
        obtain ⟨o, ho⟩ := h
        obtain ⟨h1, h2, h3⟩ := (hi.orients _ _ _ _).1 ho
        exact ⟨o, h1, by rw [h2, h3]; exact hs⟩
  · rintro ⟨o, ho, hs⟩
    have hcs : (t.lvl (N + 1)).comps (t.representative N c) = some (t.fp (N + 1) o) := by
      rw [hi.comps]
      refine ⟨hi.fp_live _ o ho, ?_⟩
      rw [representative_eq_iff]
      exact (perm_of_permutationSign hs).symm
    simp only [hcs, hs]
    have := (hi.orients (N + 1) _ _ o).2 ⟨ho, rfl, rfl⟩
    simp [this]

theorem existsComp_defined {t : Topo} (hi : Inv t) {N : Nat} {c : List Id} (hl : c.length = N + 2)
    (hnd : (c.map (t.fp N)).Nodup) : ∃ b, t.existsComp N c = some b := by
  unfold Topo.existsComp Topo.findSimplex Topo.findOriented Topo.orientation
  split
  · exact ⟨false, rfl⟩
  · rename_i f hf
    obtain ⟨hfl, hrep⟩ := (hi.comps N _ f).1 hf
    rw [representative_eq_iff] at hrep
    have hne : c.map (t.fp N) ≠ [] := by
      intro e
      have := congrArg List.length e
      simp [hl] at this
    obtain ⟨s, hs⟩ := permutationSign_some hne (hrep.nodup_iff.mpr hnd) hrep.symm
    simp [hs]

/-! ### loops of three segments -/

theorem SegO_of_live {t : Topo} (hi : Inv t) (hs : Std t) {o : Id} (ho : o ∈ (t.lvl 1).ors) :
    ∃ a b, SegO t o a b := by
  obtain ⟨a, b, hF⟩ := hs.seg _ (hi.fp_live 1 o ho)
  have hne := hF.1
  rcases hi.sg 1 o ho with h | h
  · exact ⟨a, b, a, b, hF, by rw [h]; exact permutationSign_refl (by simp) (by simp [hne])⟩
  · exact ⟨b, a, a, b, hF, by rw [h]; exact permutationSign_swap01 a b [] (by simp [hne])⟩

theorem SegO_ends {t : Topo} {o a b : Id} (h : SegO t o a b) :
    t.tail o = some a ∧ t.head o = some b ∧ a ≠ b := by
  obtain ⟨p, q, hF, hs⟩ := h
  have hp := SegO_pairs ⟨p, q, hF, hs⟩
  have hne : a ≠ b := by
    rcases sign_two hF.1 hs with ⟨_, rfl, rfl⟩ | ⟨_, rfl, rfl⟩
    · exact hF.1
    · exact Ne.symm hF.1
  unfold Topo.tail Topo.head
  have hm := congrArg (List.map Prod.fst) hp
  rw [List.map_map] at hm
  have hm' : (t.composition 1 o).map (t.fp 0) = [a, b] := hm
  rw [← List.getElem?_map, ← List.getElem?_map, hm']
  exact ⟨rfl, rfl, hne⟩

theorem loop_pairs {a b c d e f : Id} (h1 : a ≠ b) (h2 : c ≠ d) (h3 : e ≠ f) :
    checkPairs 3 [(a, -1), (b, 1), (c, -1), (d, 1), (e, -1), (f, 1)] = some true ↔
      ∃ u v w : Id, u ≠ v ∧ v ≠ w ∧ w ≠ u ∧
        [(a, b), (c, d), (e, f)].Perm [(u, v), (v, w), (w, u)] := by
  rw [checkPairs_true_iff]
  constructor
  · rintro ⟨hcard, hnet⟩
    simp only [List.map_cons, List.map_nil, List.mem_cons, List.not_mem_nil, or_false] at hnet
    have hin : ∀ x, (x = b ∨ x = d ∨ x = f) → (x = a ∨ x = c ∨ x = e) := by
      intro x hx
      by_contra hcon
      push Not at hcon
      obtain ⟨c1, c2, c3⟩ := hcon
      have hn := hnet x (by tauto)
      clear hnet hcard
      rcases hx with rfl | rfl | rfl <;>
        simp only [net, List.filter_cons, List.filter_nil, decide_eq_true_eq, Ne.symm c1,
          Ne.symm c2, Ne.symm c3, if_false, if_true] at hn <;>
        (revert hn; split_ifs <;> simp)
    have hset : ([(a, (-1 : Int)), (b, 1), (c, -1), (d, 1), (e, -1), (f, 1)].map
        (fun x : Id × Int => x.1)).toFinset = [a, c, e].toFinset := by
      ext x
      simp only [List.map_cons, List.map_nil, List.mem_toFinset, List.mem_cons, List.not_mem_nil,
        or_false]
      constructor
      · rintro (h | h | h | h | h | h)
        · exact Or.inl h
        · exact hin x (Or.inl h)
        · exact Or.inr (Or.inl h)
        · exact hin x (Or.inr (Or.inl h))
        · exact Or.inr (Or.inr h)
        · exact hin x (Or.inr (Or.inr h))
      · rintro (h | h | h) <;> simp [h]
    rw [hset] at hcard
    have hnd : [a, c, e].Nodup := by
      rw [List.card_toFinset] at hcard
      have : ([a, c, e].dedup).length = [a, c, e].length := by rw [hcard]; rfl
      rw [← List.dedup_eq_self]
      exact (List.dedup_sublist _).eq_of_length this
    simp only [List.nodup_cons, List.mem_cons, List.not_mem_nil, or_false, not_or,
      not_false_eq_true, List.nodup_nil, and_true] at hnd
    obtain ⟨⟨k1, k2⟩, k3⟩ := hnd
    have na := hnet a (by simp)
    have nc := hnet c (by simp)
    have ne := hnet e (by simp)
    rcases hin b (by simp) with hb | rfl | rfl
    · exact absurd hb.symm h1
    · rcases hin d (by simp) with rfl | hd | rfl
      · rcases hin f (by simp) with rfl | rfl | hf
        · simp [net, List.filter_cons, k1, k2, k3, Ne.symm k1, Ne.symm k2, Ne.symm k3] at ne
        · simp [net, List.filter_cons, k1, k2, k3, Ne.symm k1, Ne.symm k2, Ne.symm k3] at ne
        · exact absurd hf.symm h3
      · exact absurd hd.symm h2
      · rcases hin f (by simp) with rfl | rfl | hf
        · exact ⟨f, b, d, k1, k3, Ne.symm k2, List.Perm.refl _⟩
        · simp [net, List.filter_cons, k1, k2, k3, Ne.symm k1, Ne.symm k2, Ne.symm k3] at na
        · exact absurd hf.symm h3
    · rcases hin d (by simp) with rfl | hd | rfl
      · rcases hin f (by simp) with rfl | rfl | hf
        · simp [net, List.filter_cons, k1, k2, k3, Ne.symm k1, Ne.symm k2, Ne.symm k3] at nc
        · refine ⟨d, b, f, k2, Ne.symm k3, Ne.symm k1, ?_⟩
          exact List.Perm.cons _ (List.Perm.swap _ _ _)
        · exact absurd hf.symm h3
      · exact absurd hd.symm h2
      · rcases hin f (by simp) with rfl | rfl | hf
        · simp [net, List.filter_cons, k1, k2, k3, Ne.symm k1, Ne.symm k2, Ne.symm k3] at nc
        · simp [net, List.filter_cons, k1, k2, k3, Ne.symm k1, Ne.symm k2, Ne.symm k3] at na
        · exact absurd hf.symm h3
  · rintro ⟨u, v, w, n1, n2, n3, hp⟩
    have hq : [(a, (-1 : Int)), (b, 1), (c, -1), (d, 1), (e, -1), (f, 1)].Perm
        [(u, -1), (v, 1), (v, -1), (w, 1), (w, -1), (u, 1)] :=
      List.Perm.flatMap_right (fun p : Id × Id => [(p.1, (-1 : Int)), (p.2, 1)]) hp
    rw [← checkPairs_true_iff, checkPairs_perm hq, checkPairs_true_iff]
    constructor
    · have n : [u, v, w].Nodup := by simp [n1, n2, Ne.symm n3]
      have hcard := List.toFinset_card_of_nodup n
      have : ([(u, (-1 : Int)), (v, 1), (v, -1), (w, 1), (w, -1), (u, 1)].map
        (fun x : Id × Int => x.1)).toFinset = [u, v, w].toFinset := by
        ext x; simp; tauto
      rw [this, hcard]; rfl
    · intro k hk
      clear hp hq
      simp only [List.map_cons, List.map_nil, List.mem_cons, List.not_mem_nil, or_false] at hk
      rcases hk with rfl | rfl | rfl | rfl | rfl | rfl <;>
        simp [net, List.filter_cons, n1, n2, n3, Ne.symm n1, Ne.symm n2, Ne.symm n3]

/-! ### simplices and their vertices -/

/-- `o` is the oriented simplex with the vertices `l` (up to an even permutation) -/
def OfVertices (t : Topo) : Nat → Id → List Id → Prop
  | 1, o, [a, b] => SegO t o a b
  | 2, o, [a, b, c] => TriO t o a b c
  | 3, o, [a, b, c, d] => TetO t o a b c d
  | _, _, _ => False

/-- the footprint with the vertices `l` -/
def FOfVertices (t : Topo) : Nat → Id → List Id → Prop
  | 1, f, [a, b] => SegF t f a b
  | 2, f, [a, b, c] => TriF t f a b c
  | 3, f, [a, b, c, d] => TetF t f a b c d
  | _, _, _ => False

theorem OfVertices_iff {t : Topo} {n : Nat} {o : Id} {l : List Id} (h : OfVertices t n o l) :
    ∃ l', FOfVertices t n (t.fp n o) l' ∧ permutationSign l l' = some (t.sg n o) := by
  match n, l, h with
  | 1, [a, b], ⟨a', b', h1, h2⟩ => exact ⟨[a', b'], h1, h2⟩
  | 2, [a, b, c], ⟨a', b', c', h1, h2⟩ => exact ⟨[a', b', c'], h1, h2⟩
  | 3, [a, b, c, d], ⟨a', b', c', d', h1, h2⟩ => exact ⟨[a', b', c', d'], h1, h2⟩

theorem OfVertices_mk {t : Topo} {n : Nat} {o : Id} {l l' : List Id}
    (h : FOfVertices t n (t.fp n o) l') (hs : permutationSign l l' = some (t.sg n o)) :
    OfVertices t n o l := by
  have hlen := (perm_of_permutationSign hs).length_eq
  match n, l', h with
  | 1, [a', b'], h =>
    match l, hlen with
    | [a, b], _ => exact ⟨a', b', h, hs⟩
  | 2, [a', b', c'], h =>
    match l, hlen with
    | [a, b, c], _ => exact ⟨a', b', c', h, hs⟩
  | 3, [a', b', c', d'], h =>
    match l, hlen with
    | [a, b, c, d], _ => exact ⟨a', b', c', d', h, hs⟩

theorem FOfVertices_nodup {t : Topo} {n : Nat} {f : Id} {l : List Id}
    (h : FOfVertices t n f l) : l.Nodup := by
  match n, l, h with
  | 1, [a, b], h => simp [h.1]
  | 2, [a, b, c], h => exact h.1
  | 3, [a, b, c, d], h => exact h.1

theorem FOfVertices_VS {t : Topo} {n : Nat} {f : Id} {l : List Id}
    (h : FOfVertices t n f l) : VS t n f = l.toFinset := by
  match n, l, h with
  | 1, [a, b], h => rw [SegF_VS h]; simp
  | 2, [a, b, c], h => rw [TriF_VS h]; simp
  | 3, [a, b, c, d], h => rw [TetF_VS h]; simp

theorem OfVertices_vertices {t : Topo} {n : Nat} {o : Id} {l : List Id} (h : OfVertices t n o l) :
    ∃ l', t.verticesOf n o = some l' ∧ permutationSign l' l = some 1 := by
  match n, l, h with
  | 1, [a, b], h =>
    obtain ⟨a', b', hF, hs⟩ := id h
    refine ⟨[a, b], SegO_vertices h, permutationSign_refl (by simp) ?_⟩
    simp [(SegO_ends h).2.2]
  | 2, [a, b, c], h => exact TriO_vertices h
  | 3, [a, b, c, d], h => exact TetO_vertices h

theorem exists_ofVertices {t : Topo} (hi : Inv t) (hs : Std t) {n : Nat} (hn : n = 1 ∨ n = 2 ∨ n = 3)
    {o : Id} (ho : o ∈ (t.lvl n).ors) : ∃ l, OfVertices t n o l := by
  have key : ∀ l', 2 ≤ l'.length → FOfVertices t n (t.fp n o) l' → ∃ l, OfVertices t n o l := by
    intro l' hl h
    have hnd := FOfVertices_nodup h
    rcases hi.sg n o ho with e | e
    · refine ⟨l', OfVertices_mk h ?_⟩
      rw [e]; exact permutationSign_refl (by rintro rfl; simp at hl) hnd
    · refine ⟨swap01 l', OfVertices_mk h ?_⟩
      rw [e]; exact permutationSign_swap01' hl hnd
  have hf := hi.fp_live n o ho
  rcases hn with rfl | rfl | rfl
  · obtain ⟨a, b, h⟩ := hs.seg _ hf
    exact key [a, b] (by simp) h
  · obtain ⟨a, b, c, h⟩ := hs.tri _ hf
    exact key [a, b, c] (by simp) h
  · obtain ⟨a, b, c, d, h⟩ := hs.tet _ hf
    exact key [a, b, c, d] (by simp) h

theorem fp_unique {t : Topo} (hi : Inv t) (hs : Std t) {n : Nat} (hn : n = 1 ∨ n = 2 ∨ n = 3)
    {f f' : Id} (hf : f ∈ (t.lvl n).fps) (hf' : f' ∈ (t.lvl n).fps) (e : VS t n f = VS t n f') :
    f = f' := by
  rcases hn with rfl | rfl | rfl
  · exact seg_unique hi hs hf hf' e
  · exact tri_unique hi hs hf hf' e
  · exact tet_unique hi hs hf hf' e

/-- the order of the vertices of a footprint is determined up to an even permutation -/
theorem FOfVertices_sign {t : Topo} {n : Nat} {o : Id} (f : Id) {l l' : List Id}
    (h : FOfVertices t n f l) (h' : FOfVertices t n f l') :
    permutationSign l l' = some 1 := by
  -- two lists of vertices of the same footprint
  match n, l, l', h, h' with
  | 1, [a, b], [a', b'], h, h' =>
    obtain ⟨rfl, rfl⟩ := SegF_determines h h'
    exact permutationSign_refl (by simp) (by simp [h.1])
  | 2, [a, b, c], [a', b', c'], h, h' =>
    obtain ⟨n, x, y, z, e, p, q, r⟩ := h
    obtain ⟨n', x', y', z', e', p', q', r'⟩ := h'
    rw [e] at e'
    simp only [List.cons.injEq, and_true] at e'
    obtain ⟨rfl, rfl, rfl⟩ := e'
    have h1 := SegO_ends p
    have h2 := SegO_ends p'
    have h3 := SegO_ends q
    have h4 := SegO_ends q'
    rw [h1.1, h1.2.1] at h2
    rw [h3.1, h3.2.1] at h4
    simp only [Option.some.injEq] at h2 h4
    obtain ⟨rfl, rfl, _⟩ := h2
    obtain ⟨_, rfl, _⟩ := h4
    exact permutationSign_refl (by simp) n
  | 3, [a, b, c, d], [a', b', c', d'], h, h' =>
    have hS : VS t 3 f = {a, b, c, d} := TetF_VS h
    have hS' : VS t 3 f = {a', b', c', d'} := TetF_VS h'
    obtain ⟨n, x, y, z, w, e, p, q, r, s⟩ := h
    obtain ⟨n', x', y', z', w', e', p', q', r', s'⟩ := h'
    rw [e] at e'
    simp only [List.cons.injEq, and_true] at e'
    obtain ⟨rfl, rfl, rfl, rfl⟩ := e'
    have hf := tet_faces n p q r s
    have hf' := tet_faces n' p' q' r' s'
    rw [hf, ← hS, hS'] at hf'
    have hl : [d, a, c, b] = [d', a', c', b'] := by
      have hm : ∀ u ∈ [d, a, c, b], u ∈ ({a', b', c', d'} : Finset Id) := by
        rw [← hS', hS]; intro u hu; simp at hu ⊢; tauto
      have hm' : ∀ u ∈ [d', a', c', b'], u ∈ ({a', b', c', d'} : Finset Id) := by
        intro u hu; simp at hu ⊢; tauto
      simp only [List.map_cons, List.map_nil, List.cons.injEq, and_true] at hf'
      obtain ⟨g1, g2, g3, g4⟩ := hf'
      rw [erase_injOn (hm d (by simp)) (hm' d' (by simp)) g1,
        erase_injOn (hm a (by simp)) (hm' a' (by simp)) g2,
        erase_injOn (hm c (by simp)) (hm' c' (by simp)) g3,
        erase_injOn (hm b (by simp)) (hm' b' (by simp)) g4]
    simp only [List.cons.injEq, and_true] at hl
    obtain ⟨rfl, rfl, rfl, rfl⟩ := hl
    exact permutationSign_refl (by simp) n

/-- two oriented simplices with related vertices -/
theorem OfVertices_related {t : Topo} (hi : Inv t) (hst : Std t) {n : Nat}
    (hn : n = 1 ∨ n = 2 ∨ n = 3) {o o' : Id} (ho : o ∈ (t.lvl n).ors) (ho' : o' ∈ (t.lvl n).ors)
    {l l' : List Id} {s : Int} (h : OfVertices t n o l) (h' : OfVertices t n o' l')
    (hs : permutationSign l' l = some s) : t.fp n o' = t.fp n o ∧ t.sg n o' = s * t.sg n o := by
  obtain ⟨m, hF, hm⟩ := OfVertices_iff h
  obtain ⟨m', hF', hm'⟩ := OfVertices_iff h'
  have hmd := FOfVertices_nodup hF
  have hmd' := FOfVertices_nodup hF'
  have hnd : l.Nodup := (perm_of_permutationSign hm).nodup_iff.mpr hmd
  have hnd' : l'.Nodup := (perm_of_permutationSign hm').nodup_iff.mpr hmd'
  have hff : t.fp n o' = t.fp n o := by
    apply fp_unique hi hst hn (hi.fp_live n o' ho') (hi.fp_live n o ho)
    rw [FOfVertices_VS hF, FOfVertices_VS hF']
    apply finset_eq_of_perm
    exact ((perm_of_permutationSign hm').symm.trans (perm_of_permutationSign hs)).trans
      (perm_of_permutationSign hm)
  refine ⟨hff, ?_⟩
  rw [hff] at hF'
  have h1 := FOfVertices_sign (o := o) _ hF hF'
  have h2 := permutationSign_trans hmd (permutationSign_trans hnd hs hm) h1
  rw [hm'] at h2
  simpa using h2

theorem fromVertices_spec {t t' : Topo} (hok : Ok t) (hst : Std t) {l : List Id} {o : Id}
    (hl : ∀ v ∈ l, v ∈ (t.lvl 0).fps) (h : t.fromVertices l = some (t', o)) :
    ∃ n, (n = 1 ∨ n = 2 ∨ n = 3) ∧ l.length = n + 1 ∧ Ok t' ∧ Std t' ∧ Le t t' ∧
      o ∈ (t'.lvl n).ors ∧ OfVertices t' n o l ∧ l.Nodup := by
  unfold Topo.fromVertices at h
  split at h
  · rename_i a b
    have ha := hl a (by simp)
    have hb := hl b (by simp)
    obtain ⟨h1, h2, h3, _, h4⟩ := segment_ok hok ha hb h
    obtain ⟨h5, h6⟩ := segment_std hok hst ha hb h
    exact ⟨1, by simp, rfl, h1, h5, h2, h3, h6, by simp [h4]⟩
  · rename_i a b c
    have ha := hl a (by simp)
    have hb := hl b (by simp)
    have hc := hl c (by simp)
    obtain ⟨h1, h2, h3, _, h4⟩ := triangle_ok hok ha hb hc h
    obtain ⟨h5, h6⟩ := triangle_std hok hst ha hb hc h
    refine ⟨2, by simp, rfl, h1, h5, h2, h3, h6, ?_⟩
    simp; exact ⟨⟨h4.1, Ne.symm h4.2.2⟩, h4.2.1⟩
  · rename_i a b c d
    have ha := hl a (by simp)
    have hb := hl b (by simp)
    have hc := hl c (by simp)
    have hd := hl d (by simp)
    obtain ⟨h1, h2, h3⟩ := tetrahedron_ok hok ha hb hc hd h
    obtain ⟨h5, h6, h7⟩ := tetrahedron_std hok hst ha hb hc hd h
    exact ⟨3, by simp, rfl, h1, h5, h2, h3, h6, h7⟩
  · simp at h

theorem fromVertices_replay {t t1 t2 : Topo} (hok : Ok t) (hst : Std t) {l : List Id} {o : Id}
    (hl : ∀ v ∈ l, v ∈ (t.lvl 0).fps) (h : t.fromVertices l = some (t1, o)) (hi2 : Inv t2)
    (hle : Le t1 t2) : t2.fromVertices l = some (t2, o) := by
  unfold Topo.fromVertices at h ⊢
  split at h
  · rename_i a b
    exact segment_replay hok (hl a (by simp)) (hl b (by simp)) h hi2 hle
  · rename_i a b c
    exact triangle_replay hok hst (hl a (by simp)) (hl b (by simp)) (hl c (by simp)) h hi2 hle
  · rename_i a b c d
    exact tetrahedron_replay hok hst (hl a (by simp)) (hl b (by simp)) (hl c (by simp))
      (hl d (by simp)) h hi2 hle
  · simp at h

theorem fromVertices_succeeds {t : Topo} (hok : Ok t) (hst : Std t) {l : List Id}
    (hlen : 2 ≤ l.length ∧ l.length ≤ 4) (hl : ∀ v ∈ l, v ∈ (t.lvl 0).fps) (hnd : l.Nodup)
    (hfr : Fresh t 58) : ∃ t' o, t.fromVertices l = some (t', o) := by
  match l, hlen with
  | [a, b], _ =>
    obtain ⟨t', o, h, _⟩ := segment_succeeds hok (k := 0) (hfr.mono (by decide)) (hl a (by simp))
      (hl b (by simp)) (by simpa using hnd)
    exact ⟨t', o, h⟩
  | [a, b, c], _ =>
    obtain ⟨t', o, h, _⟩ := triangle_succeeds hok hst (k := 0) (hfr.mono (by decide))
      (hl a (by simp)) (hl b (by simp)) (hl c (by simp)) hnd
    exact ⟨t', o, h⟩
  | [a, b, c, d], _ =>
    obtain ⟨t', o, h, _⟩ := tetrahedron_succeeds hok hst (k := 0) hfr
      (hl a (by simp)) (hl b (by simp)) (hl c (by simp)) (hl d (by simp)) hnd
    exact ⟨t', o, h⟩

/-! ### subsimplices under erasure -/

theorem composition_shr {t t' : Topo} {K : Nat} (h : Shr K t t') (N : Nat) (o : Id) :
    t'.composition N o = t.composition N o := by
  unfold Topo.composition; rw [h.compF, h.fp, h.sg]

theorem sub_le {t : Topo} {N : Nat} {o : Id} {M : Nat} {x : Id} (h : Sub t N o M x) : M ≤ N := by
  induction h with
  | self => exact le_rfl
  | face _ _ ih => omega

theorem sub_live {t : Topo} (hi : Inv t) {N : Nat} {o : Id} (ho : o ∈ (t.lvl N).ors) {M : Nat}
    {x : Id} (h : Sub t N o M x) : x ∈ (t.lvl M).ors := by
  induction h with
  | self => exact ho
  | face _ hx ih => exact composition_live hi ih _ hx

theorem sub_congr {t t' : Topo} (hc : ∀ N o, t'.composition N o = t.composition N o) {N : Nat}
    {o : Id} {M : Nat} {x : Id} (h : Sub t N o M x) : Sub t' N o M x := by
  induction h with
  | self => exact .self
  | face _ hx ih => exact .face ih (by rw [hc]; exact hx)

/-- a proper subsimplex of a live simplex is referred to -/
theorem sub_refs {t : Topo} (hi : Inv t) {N : Nat} {o : Id} (ho : o ∈ (t.lvl N).ors) {M : Nat}
    {x : Id} (h : Sub t N o M x) (hM : M < N) : 0 < t.refs M x := by
  cases h with
  | self => omega
  | face hy hx =>
    have hyl := sub_live hi ho hy
    have := refs_pos_of_mem (hi.fp_live _ _ hyl) ((composition_perm t _ _).mem_iff.mp hx)
    omega

end Mito.Topology
