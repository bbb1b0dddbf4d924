import Verif.Topology.FlipDiagonal
import Verif.Spec.FlipDiagonal
import Verif.Topology.HistoryLemmas

/-! # Helper lemmas for flipping diagonals -/

set_option linter.unusedSimpArgs false
set_option linter.unusedVariables false

namespace Mito.Topology

open Mito.Combinatorics

/-! ### compositions of triangles -/

/-- the subsimplices of a triangle of orientation `+1` go around it; those of one of orientation `-1`
go around the other way -/
theorem TriO_composition {t : Topo} {o a b c : Id} (h : TriO t o a b c) :
    ∃ p q r, (t.composition 2 o).Perm [p, q, r] ∧
      (t.sg 2 o = 1 ∧ SegO t p a b ∧ SegO t q b c ∧ SegO t r c a ∨
       t.sg 2 o = -1 ∧ SegO t p b a ∧ SegO t q c b ∧ SegO t r a c) := by
  obtain ⟨a', b', c', hF, hs⟩ := h
  obtain ⟨n, x, y, z, e, h1, h2, h3⟩ := hF
  have hc := composition_perm t 2 o
  rw [e] at hc
  rcases permutationSign_values hs with hv | hv
  · rw [hv] at hs
    rcases permutationSign_three n hs with h | h | h <;>
      simp only [List.cons.injEq, and_true] at h <;> obtain ⟨rfl, rfl, rfl⟩ := h
    · exact ⟨x, y, z, hc, Or.inl ⟨hv, h1, h2, h3⟩⟩
    · refine ⟨y, z, x, hc.trans ?_, Or.inl ⟨hv, h2, h3, h1⟩⟩
      exact (List.perm_append_comm (l₁ := [x]) (l₂ := [y, z]))
    · refine ⟨z, x, y, hc.trans ?_, Or.inl ⟨hv, h3, h1, h2⟩⟩
      exact (List.perm_append_comm (l₁ := [x, y]) (l₂ := [z]))
  · rw [hv] at hs
    have hp := perm_of_permutationSign hs
    have hnd : [a, b, c].Nodup := hp.nodup_iff.mpr n
    have hsw : permutationSign [b, a, c] [a, b, c] = some (-1) := permutationSign_swap01 a b [c] hnd
    have := permutationSign_trans hnd hsw hs
    rcases permutationSign_three n (by simpa using this) with h | h | h <;>
      simp only [List.cons.injEq, and_true] at h <;> obtain ⟨rfl, rfl, rfl⟩ := h
    · refine ⟨x, z, y, hc.trans ?_, Or.inr ⟨hv, h1, h3, h2⟩⟩
      exact (List.Perm.swap z y []).cons x
    · refine ⟨y, x, z, hc.trans (List.Perm.swap y x [z]), Or.inr ⟨hv, h2, h1, h3⟩⟩
    · refine ⟨z, y, x, hc.trans ?_, Or.inr ⟨hv, h3, h2, h1⟩⟩
      exact (List.perm_append_comm (l₁ := [x, y]) (l₂ := [z])).trans
        ((List.Perm.swap y x []).cons z)

/-! ### sorted sets -/

theorem mem_rim {t : Topo} {f : Id} {c : List Id} {x : Id} :
    x ∈ t.rim f c ↔ x ∈ c ∧ t.fp 1 x ≠ f := by
  rw [Topo.rim, (List.perm_insertionSort _ _).mem_iff, List.mem_dedup, List.mem_filter]
  simp

theorem rim_nodup (t : Topo) (f : Id) (c : List Id) : (t.rim f c).Nodup :=
  ((List.perm_insertionSort _ _).nodup_iff).mpr (List.nodup_dedup _)

theorem rim_perm {t : Topo} {f : Id} {c l : List Id} (hl : l.Nodup)
    (h : ∀ x, x ∈ l ↔ x ∈ c ∧ t.fp 1 x ≠ f) : (t.rim f c).Perm l :=
  (List.perm_ext_iff_of_nodup (rim_nodup t f c) hl).mpr fun x => by rw [mem_rim, h]

theorem mem_oppositeVertices {t : Topo} {x y f v : Id} :
    v ∈ t.oppositeVertices x y f ↔
      (v ∈ VS t 2 (t.fp 2 x) ∨ v ∈ VS t 2 (t.fp 2 y)) ∧ v ∉ VS t 1 f := by
  rw [Topo.oppositeVertices, List.mem_filter, (List.perm_insertionSort _ _).mem_iff, List.mem_dedup,
    List.mem_append]
  simp [VS]

theorem oppositeVertices_sorted (t : Topo) (x y f : Id) :
    (t.oppositeVertices x y f).Pairwise (· < ·) := by
  have h1 : (t.oppositeVertices x y f).Pairwise (· ≤ ·) :=
    (List.pairwise_insertionSort _ _).filter _
  have h2 : (t.oppositeVertices x y f).Nodup :=
    (((List.perm_insertionSort _ _).nodup_iff).mpr (List.nodup_dedup _)).filter _
  exact (h1.and h2).imp fun h => lt_of_le_of_ne h.1 h.2

/-! ### one loop -/

theorem find?_unique {S : List Id} {p : Id → Bool} {e : Id} (he : e ∈ S) (hp : p e = true)
    (hu : ∀ s ∈ S, p s = true → s = e) : S.find? p = some e := by
  rcases h : S.find? p with _ | s
  · rw [List.find?_eq_none] at h
    exact absurd hp (h e he)
  · rw [hu s (List.mem_of_find?_eq_some h) (List.find?_some h)]

/-- what a successful loop did -/
theorem closeLoop_ok {t : Topo} {n : Nat} {S S2 : List Id} {d er e1 e2 er2 : Id} (hS : S.Nodup)
    (h : t.closeLoop n S d er = .ok (S2, e1, e2, er2)) :
    S.Perm (e1 :: e2 :: S2) ∧ S2.length = n ∧ t.connected d e1 = true ∧ t.connected e1 e2 = true ∧
      t.connected e2 d = true := by
  unfold Topo.closeLoop Topo.takeConnected at h
  split at h
  · simp at h
  · rename_i S1 e1' er1 hm
    split at hm
    · rename_i s hs
      simp only [Prod.mk.injEq, Option.some.injEq] at hm
      obtain ⟨rfl, rfl, rfl⟩ := hm
      have hsm := List.mem_of_find?_eq_some hs
      split at h
      · rename_i S2' e2' er2' hm2
        split at hm2
        · rename_i s2 hs2
          simp only [Prod.mk.injEq] at hm2
          obtain ⟨rfl, rfl, rfl⟩ := hm2
          have hsm2 := List.mem_of_find?_eq_some hs2
          split at h
          · simp at h
          · rename_i hlen
            simp only at h
            split at h
            · rename_i hc
              simp only [Outcome.ok.injEq, Prod.mk.injEq] at h
              obtain ⟨rfl, rfl, rfl, rfl⟩ := h
              refine ⟨?_, by simpa using hlen, List.find?_some hs, List.find?_some hs2, hc⟩
              exact (List.perm_cons_erase hsm).trans ((List.perm_cons_erase hsm2).cons _)
            · simp at h
        · simp only [Prod.mk.injEq] at hm2
          obtain ⟨rfl, rfl, rfl⟩ := hm2
          split at h
          · simp at h
          · simp at h
    · simp at hm

/-- a loop that can be closed in one way only -/
theorem closeLoop_succeeds {t : Topo} {n : Nat} {S : List Id} {d er e1 e2 : Id} (hS : S.Nodup)
    (hlen : S.length = n + 2) (h1 : e1 ∈ S) (h2 : e2 ∈ S) (hne : e2 ≠ e1)
    (u1 : ∀ s ∈ S, t.connected d s = true ↔ s = e1) (u2 : ∀ s ∈ S, t.connected e1 s = true ↔ s = e2)
    (hc : t.connected e2 d = true) :
    t.closeLoop n S d er = .ok ((S.erase e1).erase e2, e1, e2, e2) := by
  have f1 : S.find? (t.connected d) = some e1 :=
    find?_unique h1 ((u1 e1 h1).2 rfl) fun s hs h => (u1 s hs).1 h
  have h2' : e2 ∈ S.erase e1 := (List.mem_erase_of_ne hne).mpr h2
  have f2 : (S.erase e1).find? (t.connected e1) = some e2 :=
    find?_unique h2' ((u2 e2 h2).2 rfl) fun s hs h => (u2 s (List.mem_of_mem_erase hs)).1 h
  have hl : ((S.erase e1).erase e2).length = n := by
    rw [List.length_erase_of_mem h2', List.length_erase_of_mem h1, hlen]
    omega
  simp [Topo.closeLoop, Topo.takeConnected, f1, f2, hl, hc]

/-- a loop that stops after its first step -/
theorem closeLoop_stuck {t : Topo} {n : Nat} {S : List Id} {d er e1 : Id} (hS : S.Nodup)
    (hlen : S.length = n + 2) (h1 : e1 ∈ S) (u1 : ∀ s ∈ S, t.connected d s = true ↔ s = e1)
    (u2 : ∀ s ∈ S, t.connected e1 s ≠ true) : t.closeLoop n S d er = .assertion := by
  have f1 : S.find? (t.connected d) = some e1 :=
    find?_unique h1 ((u1 e1 h1).2 rfl) fun s hs h => (u1 s hs).1 h
  have f2 : (S.erase e1).find? (t.connected e1) = none := by
    rw [List.find?_eq_none]
    exact fun s hs => u2 s (List.mem_of_mem_erase hs)
  have hl : ((S.erase e1).erase e1).length ≠ n := by
    have : e1 ∉ S.erase e1 := by
      rw [hS.mem_erase_iff]; simp
    rw [List.erase_of_not_mem this, List.length_erase_of_mem h1, hlen]
    omega
  simp [Topo.closeLoop, Topo.takeConnected, f1, f2, hl]

theorem SegO_connected {t : Topo} {x y a b c d : Id} (h : SegO t x a b) (h' : SegO t y c d) :
    t.connected x y = true ↔ b = c := by
  simp [Topo.connected, (SegO_ends h).2.1, (SegO_ends h').1]

/-- a segment has one pair of end points -/
theorem SegO_determines {t : Topo} {x a b a' b' : Id} (h : SegO t x a b) (h' : SegO t x a' b') :
    a = a' ∧ b = b' := by
  have h1 := SegO_ends h
  have h2 := SegO_ends h'
  rw [h1.1, h1.2.1] at h2
  exact ⟨Option.some.inj h2.1, Option.some.inj h2.2.1⟩

/-- live segments with the same end points in order are the same -/
theorem SegO_unique {t : Topo} (hi : Inv t) (hs : Std t) {x y a b : Id} (hx : x ∈ (t.lvl 1).ors)
    (hy : y ∈ (t.lvl 1).ors) (h : SegO t x a b) (h' : SegO t y a b) : x = y := by
  have hne := (SegO_ends h).2.2
  obtain ⟨h1, h2⟩ := OfVertices_related hi hs (Or.inl rfl) hx hy (l := [a, b]) (l' := [a, b]) h h'
    (permutationSign_refl (by simp) (by simp [hne]))
  exact (hi.oriented_unique hy hx h1 (by rw [h2, one_mul])).symm

theorem SegO_fp {t : Topo} (hi : Inv t) (hs : Std t) {x y a b c d : Id} (hx : x ∈ (t.lvl 1).ors)
    (hy : y ∈ (t.lvl 1).ors) (h : SegO t x a b) (h' : SegO t y c d) :
    t.fp 1 x = t.fp 1 y ↔ (a = c ∧ b = d) ∨ (a = d ∧ b = c) := by
  have n1 := (SegO_ends h).2.2
  have n2 := (SegO_ends h').2.2
  constructor
  · intro e
    have hv := SegO_VS h
    rw [e, SegO_VS h'] at hv
    have ha := (Finset.ext_iff.mp hv a).2 (by simp)
    have hb := (Finset.ext_iff.mp hv b).2 (by simp)
    simp only [Finset.mem_insert, Finset.mem_singleton] at ha hb
    rcases ha with rfl | rfl <;> rcases hb with rfl | rfl
    · exact absurd rfl n1
    · exact Or.inl ⟨rfl, rfl⟩
    · exact Or.inr ⟨rfl, rfl⟩
    · exact absurd rfl n1
  · rintro (⟨rfl, rfl⟩ | ⟨rfl, rfl⟩)
    · exact seg_unique hi hs (hi.fp_live 1 x hx) (hi.fp_live 1 y hy) (by rw [SegO_VS h, SegO_VS h'])
    · exact seg_unique hi hs (hi.fp_live 1 x hx) (hi.fp_live 1 y hy)
        (by rw [SegO_VS h, SegO_VS h']; exact Finset.pair_comm _ _)

/-- live triangles with the same vertices in order are the same -/
theorem TriO_unique {t : Topo} (hi : Inv t) (hs : Std t) {x y a b c : Id} (hx : x ∈ (t.lvl 2).ors)
    (hy : y ∈ (t.lvl 2).ors) (h : TriO t x a b c) (h' : TriO t y a b c) : x = y := by
  obtain ⟨a', b', c', hF, hsg⟩ := id h
  have hnd : [a, b, c].Nodup := (perm_of_permutationSign hsg).nodup_iff.mpr hF.1
  obtain ⟨h1, h2⟩ := OfVertices_related hi hs (Or.inr (Or.inl rfl)) hx hy (l := [a, b, c])
    (l' := [a, b, c]) h h' (permutationSign_refl (by simp) hnd)
  exact (hi.oriented_unique hy hx h1 (by rw [h2, one_mul])).symm

theorem TriO_rotate {t : Topo} {o a b c : Id} (h : TriO t o a b c) : TriO t o b c a := by
  obtain ⟨a', b', c', hF, hs⟩ := h
  have hnd : [a, b, c].Nodup := (perm_of_permutationSign hs).nodup_iff.mpr hF.1
  have hnd' : [b, c, a].Nodup := by simp at hnd ⊢; tauto
  have h2 : permutationSign [b, c, a] [a, b, c] = some 1 := by
    have := permutationSign_comm hnd' (permutationSign_cycle hnd')
    exact this
  refine ⟨a', b', c', hF, ?_⟩
  simpa using permutationSign_trans hnd h2 hs

/-! ### the whole operation -/

/-- the segments of a triangle, one after the other -/
def Loop (t : Topo) (o a b c : Id) : Prop :=
  ∃ p q r, (t.composition 2 o).Perm [p, q, r] ∧ SegO t p a b ∧ SegO t q b c ∧ SegO t r c a

theorem TriO.nodup {t : Topo} {o a b c : Id} (h : TriO t o a b c) : [a, b, c].Nodup := by
  obtain ⟨a', b', c', hF, hs⟩ := h
  exact (perm_of_permutationSign hs).nodup_iff.mpr hF.1

theorem Loop.of_pos {t : Topo} {o a b c : Id} (h : TriO t o a b c) (hs : t.sg 2 o = 1) :
    Loop t o a b c := by
  obtain ⟨p, q, r, hp, h | h⟩ := TriO_composition h
  · exact ⟨p, q, r, hp, h.2⟩
  · rw [hs] at h; simp at h

theorem Loop.of_neg {t : Topo} {o a b c : Id} (h : TriO t o a b c) (hs : t.sg 2 o = -1) :
    Loop t o b a c := by
  obtain ⟨p, q, r, hp, h | h⟩ := TriO_composition h
  · rw [hs] at h; simp at h
  · exact ⟨p, r, q, hp.trans ((List.Perm.swap r q []).cons p), h.2.1, h.2.2.2, h.2.2.1⟩

theorem Loop.rotate {t : Topo} {o a b c : Id} (h : Loop t o a b c) : Loop t o b c a := by
  obtain ⟨p, q, r, hp, h1, h2, h3⟩ := h
  exact ⟨q, r, p, hp.trans (List.perm_append_comm (l₁ := [p]) (l₂ := [q, r])), h2, h3, h1⟩

theorem Loop.ne {t : Topo} {o a b c : Id} (h : Loop t o a b c) : a ≠ b ∧ b ≠ c ∧ c ≠ a := by
  obtain ⟨p, q, r, hp, h1, h2, h3⟩ := h
  exact ⟨(SegO_ends h1).2.2, (SegO_ends h2).2.2, (SegO_ends h3).2.2⟩

theorem Loop.VS {t : Topo} {o a b c : Id} (h : Loop t o a b c) :
    VS t 2 (t.fp 2 o) = {a, b, c} := by
  obtain ⟨p, q, r, hp, h1, h2, h3⟩ := h
  have hc := (composition_perm t 2 o).symm.trans hp
  ext v
  rw [mem_VS_succ]
  constructor
  · rintro ⟨s, hs, hv⟩
    have hs := hc.mem_iff.mp hs
    simp only [List.mem_cons, List.not_mem_nil, or_false] at hs
    rcases hs with rfl | rfl | rfl
    · rw [SegO_VS h1] at hv; simp at hv ⊢; tauto
    · rw [SegO_VS h2] at hv; simp at hv ⊢; tauto
    · rw [SegO_VS h3] at hv; simp at hv ⊢; tauto
  · intro hv
    simp only [Finset.mem_insert, Finset.mem_singleton] at hv
    rcases hv with rfl | rfl | rfl
    · exact ⟨p, hc.mem_iff.mpr (by simp), by rw [SegO_VS h1]; simp⟩
    · exact ⟨q, hc.mem_iff.mpr (by simp), by rw [SegO_VS h2]; simp⟩
    · exact ⟨r, hc.mem_iff.mpr (by simp), by rw [SegO_VS h3]; simp⟩

theorem Loop.around {t : Topo} {o a b c : Id} (h : Loop t o a b c) : Around t o a b c := by
  obtain ⟨p, q, r, hp, h1, h2, h3⟩ := h
  refine (hp.map _).trans ?_
  simp [(SegO_ends h1).1, (SegO_ends h1).2.1, (SegO_ends h2).1, (SegO_ends h2).2.1,
    (SegO_ends h3).1, (SegO_ends h3).2.1]

theorem exists_loop {t : Topo} (hi : Inv t) (hs : Std t) {o : Id} (ho : o ∈ (t.lvl 2).ors) :
    ∃ a b c, Loop t o a b c := by
  obtain ⟨l, hl⟩ := exists_ofVertices hi hs (Or.inr (Or.inl rfl)) ho
  match l, hl with
  | [a, b, c], h =>
    rcases hi.sg 2 o ho with e | e
    · exact ⟨a, b, c, Loop.of_pos h e⟩
    · exact ⟨b, a, c, Loop.of_neg h e⟩

theorem Around.rotate {t : Topo} {o a b c : Id} (h : Around t o a b c) : Around t o b c a :=
  h.trans (List.perm_append_comm (l₁ := [(some a, some b)]) (l₂ := [(some b, some c), (some c, some a)]))

theorem Loop.of_around {t : Topo} (hi : Inv t) (hs : Std t) {o a b c : Id}
    (ho : o ∈ (t.lvl 2).ors) (h : Around t o a b c) : Loop t o a b c := by
  obtain ⟨a', b', c', hl⟩ := exists_loop hi hs ho
  have hp := hl.around.symm.trans h
  obtain ⟨n1, n2, n3⟩ := hl.ne
  have hm : (some a, some b) ∈ [(some a', some b'), (some b', some c'), (some c', some a')] :=
    hp.mem_iff.mpr (by simp)
  have hm2 : (some b, some c) ∈ [(some a', some b'), (some b', some c'), (some c', some a')] :=
    hp.mem_iff.mpr (by simp)
  simp only [List.mem_cons, Prod.mk.injEq, Option.some.injEq, List.not_mem_nil, or_false] at hm hm2
  rcases hm with ⟨rfl, rfl⟩ | ⟨rfl, rfl⟩ | ⟨rfl, rfl⟩ <;>
    rcases hm2 with ⟨h1, rfl⟩ | ⟨h1, rfl⟩ | ⟨h1, rfl⟩
  · exact absurd h1.symm n1
  · exact hl
  · exact absurd h1 n2
  · exact absurd h1 n3
  · exact absurd h1.symm n2
  · exact hl.rotate
  · exact hl.rotate.rotate
  · exact absurd h1 n1
  · exact absurd h1.symm n3

theorem sorted_pair {l : List Id} {c d : Id} (hl : l.Pairwise (· < ·)) (h : c < d)
    (hm : ∀ v, v ∈ l ↔ v = c ∨ v = d) : l = [c, d] := by
  apply List.Perm.eq_of_pairwise (le := (· < ·)) (fun a b _ _ h1 h2 => absurd h1 (lt_asymm h2)) hl
    (by simpa using h)
  refine (List.perm_ext_iff_of_nodup (hl.imp fun h => ne_of_lt h) (by simp [ne_of_lt h])).mpr
    fun v => ?_
  rw [hm]; simp

theorem findShared_none {t : Topo} {x y : Id} :
    t.findShared (t.composition 2 x) (t.composition 2 y) = none ↔ ¬ ShareEdge t x y := by
  unfold Topo.findShared ShareEdge
  simp

theorem findShared_some {t : Topo} {x y f : Id}
    (h : t.findShared (t.composition 2 x) (t.composition 2 y) = some f) :
    ∃ p ∈ t.composition 2 x, ∃ q ∈ t.composition 2 y, t.fp 1 p = f ∧ t.fp 1 q = f := by
  unfold Topo.findShared at h
  rw [Option.map_eq_some_iff] at h
  obtain ⟨p, hp, rfl⟩ := h
  have h1 := List.find?_some hp
  simp only [List.any_eq_true, beq_iff_eq] at h1
  obtain ⟨q, hq, e⟩ := h1
  exact ⟨p, List.mem_of_find?_eq_some hp, q, hq, rfl, e.symm⟩

/-- a common edge, seen from both loops -/
theorem loops_share {t : Topo} (hi : Inv t) (hs : Std t) {x y f : Id} (hx : x ∈ (t.lvl 2).ors)
    (hy : y ∈ (t.lvl 2).ors)
    (h : ∃ p ∈ t.composition 2 x, ∃ q ∈ t.composition 2 y, t.fp 1 p = f ∧ t.fp 1 q = f) :
    ∃ a b c d, Loop t x a b c ∧ (Loop t y b a d ∨ Loop t y a b d) ∧ VS t 1 f = {a, b} ∧
      f ∈ (t.lvl 1).fps := by
  obtain ⟨p, hp, q, hq, rfl, e⟩ := h
  have lp := composition_live hi hx p hp
  have lq := composition_live hi hy q hq
  -- rotate so that a member is the first segment
  have key : ∀ z ∈ (t.lvl 2).ors, ∀ s ∈ t.composition 2 z, ∃ a b c, Loop t z a b c ∧ SegO t s a b := by
    intro z hz s hsm
    obtain ⟨a, b, c, hl⟩ := exists_loop hi hs hz
    obtain ⟨u, v, w, hpm, h1, h2, h3⟩ := id hl
    have := hpm.mem_iff.mp hsm
    simp only [List.mem_cons, List.not_mem_nil, or_false] at this
    rcases this with rfl | rfl | rfl
    · exact ⟨a, b, c, hl, h1⟩
    · exact ⟨b, c, a, hl.rotate, h2⟩
    · exact ⟨c, a, b, hl.rotate.rotate, h3⟩
  obtain ⟨a, b, c, hl, s1⟩ := key x hx p hp
  obtain ⟨a', b', d, hl', s2⟩ := key y hy q hq
  refine ⟨a, b, c, d, hl, ?_, SegO_VS s1, hi.fp_live 1 p lp⟩
  rcases (SegO_fp hi hs lq lp s2 s1).mp e with ⟨rfl, rfl⟩ | ⟨rfl, rfl⟩
  · exact Or.inr hl'
  · exact Or.inl hl'

theorem oppositeVertices_eq {t : Topo} {x y f a b c d : Id} (h : VS t 2 (t.fp 2 x) = {a, b, c})
    (h' : VS t 2 (t.fp 2 y) = {a, b, d}) (hf : VS t 1 f = {a, b}) (hc : c ∉ ({a, b} : Finset Id))
    (hd : d ∉ ({a, b} : Finset Id)) :
    t.oppositeVertices x y f = if c < d then [c, d] else if d < c then [d, c] else [c] := by
  have hm : ∀ v, v ∈ t.oppositeVertices x y f ↔ v = c ∨ v = d := by
    intro v
    rw [mem_oppositeVertices, h, h', hf]
    simp only [Finset.mem_insert, Finset.mem_singleton] at hc hd ⊢
    constructor
    · rintro ⟨h1 | h1, h2⟩ <;> tauto
    · rintro (rfl | rfl)
      · exact ⟨Or.inl (by simp), hc⟩
      · exact ⟨Or.inr (by simp), hd⟩
  have hsort := oppositeVertices_sorted t x y f
  rcases lt_trichotomy c d with hcd | hcd | hcd
  · rw [if_pos hcd]; exact sorted_pair hsort hcd hm
  · subst hcd
    rw [if_neg (lt_irrefl _), if_neg (lt_irrefl _)]
    have hnd : (t.oppositeVertices x y f).Nodup := hsort.imp fun h => ne_of_lt h
    exact eq_singleton_of_mem hnd fun v => by rw [hm]; simp
  · rw [if_neg (lt_asymm hcd), if_pos hcd]
    exact sorted_pair hsort hcd fun v => by rw [hm]; exact or_comm

/-- the rim of one triangle -/
theorem rim_one {t : Topo} {x f a b c p q r : Id} (hi : Inv t) (hx : x ∈ (t.lvl 2).ors)
    (hf : VS t 1 f = {a, b}) (h : (t.composition 2 x).Perm [p, q, r])
    (h1 : VS t 1 (t.fp 1 p) = {a, b}) (h2 : VS t 1 (t.fp 1 q) = {b, c})
    (h3 : VS t 1 (t.fp 1 r) = {c, a}) (hs : Std t) (hfl : f ∈ (t.lvl 1).fps) (n1 : a ≠ b)
    (n2 : b ≠ c) (n3 : c ≠ a) : ∀ s, (s ∈ t.composition 2 x ∧ t.fp 1 s ≠ f) ↔ s = q ∨ s = r := by
  have lp := composition_live hi hx p (h.mem_iff.mpr (by simp))
  have e1 : t.fp 1 p = f := seg_unique hi hs (hi.fp_live 1 p lp) hfl (by rw [h1, hf])
  have hcab : c ∉ ({a, b} : Finset Id) := by simp [n3, Ne.symm n2]
  have e2 : t.fp 1 q ≠ f := by
    intro e
    rw [e, hf] at h2
    exact hcab (h2 ▸ by simp)
  have e3 : t.fp 1 r ≠ f := by
    intro e
    rw [e, hf] at h3
    exact hcab (h3 ▸ by simp)
  intro s
  rw [h.mem_iff]
  simp only [List.mem_cons, List.not_mem_nil, or_false]
  constructor
  · rintro ⟨rfl | rfl | rfl, hne⟩
    · exact absurd e1 hne
    · exact Or.inl rfl
    · exact Or.inr rfl
  · rintro (rfl | rfl)
    · exact ⟨Or.inr (Or.inl rfl), e2⟩
    · exact ⟨Or.inr (Or.inr rfl), e3⟩

/-- the four segments of the outline and the two diagonals -/
structure Square (t : Topo) (x y f d d' e1 e2 e3 e4 v0 v1 w w' : Id) : Prop where
  rim0 : (t.rim f (t.composition 2 x)).length = 2
  rim : (t.rim f (t.composition 2 x ++ t.composition 2 y)).Perm [e1, e2, e3, e4]
  nodup : [v0, v1, w, w'].Nodup
  live : ∀ s ∈ [d, d', e1, e2, e3, e4], s ∈ (t.lvl 1).ors
  sd : SegO t d v0 v1
  sd' : SegO t d' v1 v0
  s1 : SegO t e1 v1 w
  s2 : SegO t e2 w v0
  s3 : SegO t e3 v0 w'
  s4 : SegO t e4 w' v1

/-- what `flip_diagonal` does with them -/
theorem flipWith_eq {t : Topo} {x y f d d' e1 e2 e3 e4 v0 v1 w w' : Id}
    (h : Square t x y f d d' e1 e2 e3 e4 v0 v1 w w') :
    t.flipWith x y f d d' =
      match t.simplex 1 [d, e1, e2] with
      | none => .fails
      | some (t1, x') =>
        match t1.simplex 1 [d', e3, e4] with
        | none => .fails
        | some (t2, y') => .ok (t2, x', y') := by
  obtain ⟨rim0, rim, nodup, live, sd, sd', s1, s2, s3, s4⟩ := h
  simp only [List.nodup_cons, List.mem_cons, List.not_mem_nil, or_false, not_or, not_false_eq_true,
    List.nodup_nil, and_true] at nodup
  obtain ⟨⟨n1, n2, n3⟩, ⟨n4, n5⟩, n6⟩ := nodup
  have ne : ∀ {p q a b c e : Id}, SegO t p a b → SegO t q c e → a ≠ c → p ≠ q := by
    rintro p q a b c e h h' hn rfl
    exact hn (SegO_determines h h').1
  have hnd := rim_nodup t f (t.composition 2 x ++ t.composition 2 y)
  have hlen := rim.length_eq
  have hmem : ∀ s, s ∈ t.rim f (t.composition 2 x ++ t.composition 2 y) ↔
      s = e1 ∨ s = e2 ∨ s = e3 ∨ s = e4 := by
    intro s; rw [rim.mem_iff]; simp
  unfold Topo.flipWith
  rw [if_neg (by simp [rim0]), if_neg (by simp [hlen])]
  generalize t.rim f (t.composition 2 x ++ t.composition 2 y) = S at *
  have c12 := ne s2 s1 (Ne.symm n4)
  have hl1 : t.closeLoop 2 S d (S.headD 0) = .ok ((S.erase e1).erase e2, e1, e2, e2) := by
    refine closeLoop_succeeds hnd (by simpa using hlen) ((hmem e1).2 (by simp))
      ((hmem e2).2 (by simp)) c12 ?_ ?_ ((SegO_connected s2 sd).2 rfl)
    · intro s hs
      rcases (hmem s).1 hs with rfl | rfl | rfl | rfl
      · simp [SegO_connected sd s1]
      · rw [SegO_connected sd s2]; simp [n4, c12]
      · rw [SegO_connected sd s3]; simp [Ne.symm n1, ne s3 s1 n1]
      · rw [SegO_connected sd s4]; simp [n5, ne s4 s1 (Ne.symm n5)]
    · intro s hs
      rcases (hmem s).1 hs with rfl | rfl | rfl | rfl
      · rw [SegO_connected s1 s1]; simp [Ne.symm n4, Ne.symm c12]
      · simp [SegO_connected s1 s2]
      · rw [SegO_connected s1 s3]; simp [Ne.symm n2, ne s3 s2 n2]
      · rw [SegO_connected s1 s4]; simp [n6, ne s4 s2 (Ne.symm n6)]
  have hp2 : ((S.erase e1).erase e2).Perm [e3, e4] := by
    have := (rim.erase e1).erase e2
    simpa [Ne.symm c12] using this
  have hmem2 : ∀ s, s ∈ (S.erase e1).erase e2 ↔ s = e3 ∨ s = e4 := by
    intro s; rw [hp2.mem_iff]; simp
  have hnd2 : ((S.erase e1).erase e2).Nodup := (hnd.erase _).erase _
  have c34 := ne s4 s3 (Ne.symm n3)
  have hl2 : ∀ er, t.closeLoop 0 ((S.erase e1).erase e2) d' er =
      .ok (((((S.erase e1).erase e2).erase e3).erase e4), e3, e4, e4) := by
    intro er
    refine closeLoop_succeeds hnd2 hp2.length_eq ((hmem2 e3).2 (by simp))
      ((hmem2 e4).2 (by simp)) c34 ?_ ?_ ((SegO_connected s4 sd').2 rfl)
    · intro s hs
      rcases (hmem2 s).1 hs with rfl | rfl
      · simp [SegO_connected sd' s3]
      · rw [SegO_connected sd' s4]; simp [n3, c34]
    · intro s hs
      rcases (hmem2 s).1 hs with rfl | rfl
      · rw [SegO_connected s3 s3]; simp [Ne.symm n3, Ne.symm c34]
      · simp [SegO_connected s3 s4]
  simp only [hl1, hl2]
  rcases t.simplex 1 [d, e1, e2] with _ | ⟨t1, x'⟩
  · rfl
  · rcases h : t1.simplex 1 [d', e3, e4] with _ | ⟨t2, y'⟩ <;> simp [h]

/-- the two new triangles -/
theorem Square.result {t t' : Topo} (hok : Ok t) (hst : Std t)
    {x y f d d' e1 e2 e3 e4 v0 v1 w w' x' y' : Id}
    (h : Square t x y f d d' e1 e2 e3 e4 v0 v1 w w') (hr : t.flipWith x y f d d' = .ok (t', x', y')) :
    Ok t' ∧ Std t' ∧ Le t t' ∧ x' ∈ (t'.lvl 2).ors ∧ y' ∈ (t'.lvl 2).ors ∧ TriO t' x' v0 v1 w ∧
      TriO t' y' v1 v0 w' := by
  rw [flipWith_eq h] at hr
  obtain ⟨rim0, rim, nodup, live, sd, sd', s1, s2, s3, s4⟩ := h
  simp only [List.mem_cons, List.not_mem_nil, or_false, forall_eq_or_imp, forall_eq] at live
  obtain ⟨ld, ld', l1, l2, l3, l4⟩ := live
  simp only [List.nodup_cons, List.mem_cons, List.not_mem_nil, or_false, not_or, not_false_eq_true,
    List.nodup_nil, and_true] at nodup
  obtain ⟨⟨n1, n2, n3⟩, ⟨n4, n5⟩, n6⟩ := nodup
  have ne : ∀ {p q a b c e : Id}, SegO t p a b → SegO t q c e → a ≠ c → p ≠ q := by
    rintro p q a b c e h h' hn rfl
    exact hn (SegO_determines h h').1
  have nd1 : [d, e1, e2].Nodup := by
    simp [ne sd s1 n1, ne sd s2 n2, ne s1 s2 n4]
  have nd2 : [d', e3, e4].Nodup := by
    simp [ne sd' s3 (Ne.symm n1), ne sd' s4 n5, ne s3 s4 n3]
  split at hr
  · simp at hr
  · rename_i t1 x1 hx1
    split at hr
    · simp at hr
    · rename_i t2 y1 hy1
      simp only [Outcome.ok.injEq, Prod.mk.injEq] at hr
      obtain ⟨rfl, rfl, rfl⟩ := hr
      have c1 : ∀ s ∈ [d, e1, e2], s ∈ (t.lvl 1).ors := by simp [ld, l1, l2]
      obtain ⟨i1, le1, ol1, _⟩ := simplex_spec hok.inv c1 rfl nd1 hx1
      have ok1 := simplex_ok hok c1 rfl nd1 hx1
      obtain ⟨st1, tr1⟩ := TriO_of_simplex hok hst (a := v0) (b := v1) (c := w)
        (by simp [n1, n2, n4]) ld l1 l2 sd s1 s2 nd1 hx1
      have c2 : ∀ s ∈ [d', e3, e4], s ∈ (t1.lvl 1).ors := by
        simp [le1.ors 1 ld', le1.ors 1 l3, le1.ors 1 l4]
      obtain ⟨i2, le2, ol2, _⟩ := simplex_spec i1 c2 rfl nd2 hy1
      have ok2 := simplex_ok ok1 c2 rfl nd2 hy1
      obtain ⟨st2, tr2⟩ := TriO_of_simplex ok1 st1 (a := v1) (b := v0) (c := w')
        (by simp [Ne.symm n1, n5, n3]) (le1.ors 1 ld') (le1.ors 1 l3) (le1.ors 1 l4)
        (SegO_le hok.inv le1 ld' sd') (SegO_le hok.inv le1 l3 s3) (SegO_le hok.inv le1 l4 s4) nd2 hy1
      exact ⟨ok2, st2, le1.trans le2, le2.ors 2 ol1, ol2, TriO_le i1 le2 ol1 tr1, tr2⟩

theorem Square.succeeds {t : Topo} (hok : Ok t) (hst : Std t) {k : Nat} (hfr : Fresh t (k + 4))
    {x y f d d' e1 e2 e3 e4 v0 v1 w w' : Id}
    (h : Square t x y f d d' e1 e2 e3 e4 v0 v1 w w') :
    ∃ t' x' y', t.flipWith x y f d d' = .ok (t', x', y') := by
  rw [flipWith_eq h]
  obtain ⟨rim0, rim, nodup, live, sd, sd', s1, s2, s3, s4⟩ := h
  simp only [List.mem_cons, List.not_mem_nil, or_false, forall_eq_or_imp, forall_eq] at live
  obtain ⟨ld, ld', l1, l2, l3, l4⟩ := live
  simp only [List.nodup_cons, List.mem_cons, List.not_mem_nil, or_false, not_or, not_false_eq_true,
    List.nodup_nil, and_true] at nodup
  obtain ⟨⟨n1, n2, n3⟩, ⟨n4, n5⟩, n6⟩ := nodup
  have fpne : ∀ {t : Topo} {p q a b c : Id}, SegO t p a b → SegO t q b c → a ≠ c →
      t.fp 1 p ≠ t.fp 1 q := by
    intro t p q a b c h h' hn e
    have hv := SegO_VS h
    rw [e, SegO_VS h'] at hv
    have ha : a ∈ ({b, c} : Finset Id) := hv ▸ by simp
    have := (SegO_ends h).2.2
    simp [this, hn] at ha
  have key : ∀ {t : Topo} {p q r a b c : Id}, SegO t p a b → SegO t q b c → SegO t r c a →
      [a, b, c].Nodup → ([p, q, r].map (t.fp 1)).Nodup := by
    intro t p q r a b c h1 h2 h3 n
    simp only [List.nodup_cons, List.mem_cons, List.not_mem_nil, or_false, not_or,
      not_false_eq_true, List.nodup_nil, and_true] at n
    simp [fpne h1 h2 n.1.2, fpne h2 h3 (Ne.symm n.1.1), Ne.symm (fpne h3 h1 (Ne.symm n.2))]
  have m1 : [v0, v1, w].Nodup := by simp [n1, n2, n4]
  have m2 : [v1, v0, w'].Nodup := by simp [Ne.symm n1, n5, n3]
  have c1 : ∀ s ∈ [d, e1, e2], s ∈ (t.lvl 1).ors := by simp [ld, l1, l2]
  obtain ⟨t1, x', hx1, fr1⟩ := simplex_succeeds hok.inv (k := k + 2) hfr c1 rfl (key sd s1 s2 m1)
    (triangle_valid m1 sd s1 s2)
  obtain ⟨i1, le1, ol1, _⟩ := simplex_spec hok.inv c1 rfl (List.Nodup.of_map _ (key sd s1 s2 m1)) hx1
  have c2 : ∀ s ∈ [d', e3, e4], s ∈ (t1.lvl 1).ors := by
    simp [le1.ors 1 ld', le1.ors 1 l3, le1.ors 1 l4]
  have q1 := SegO_le hok.inv le1 ld' sd'
  have q2 := SegO_le hok.inv le1 l3 s3
  have q3 := SegO_le hok.inv le1 l4 s4
  obtain ⟨t2, y', hy1, fr2⟩ := simplex_succeeds i1 (k := k) fr1 c2 rfl (key q1 q2 q3 m2)
    (triangle_valid m2 q1 q2 q3)
  exact ⟨t2, x', y', by simp [hx1, hy1]⟩

/-- the shared edge is traversed in the same direction by both: the first loop gets stuck -/
theorem flipWith_stuck {t : Topo} {x y f d d' e1 e2 e3 e4 v0 v1 a b : Id}
    (rim0 : (t.rim f (t.composition 2 x)).length = 2)
    (rim : (t.rim f (t.composition 2 x ++ t.composition 2 y)).Perm [e1, e2, e3, e4])
    (n : [v0, v1, a, b].Nodup) (sd : SegO t d v0 v1) (s1 : SegO t e1 v1 a) (s2 : SegO t e2 b v1)
    (s3 : SegO t e3 v0 a) (s4 : SegO t e4 b v0) : t.flipWith x y f d d' = .assertion := by
  simp only [List.nodup_cons, List.mem_cons, List.not_mem_nil, or_false, not_or, not_false_eq_true,
    List.nodup_nil, and_true] at n
  obtain ⟨⟨n1, n2, n3⟩, ⟨n4, n5⟩, n6⟩ := n
  have ne : ∀ {p q a b c e : Id}, SegO t p a b → SegO t q c e → a ≠ c → p ≠ q := by
    rintro p q a b c e h h' hn rfl
    exact hn (SegO_determines h h').1
  have hnd := rim_nodup t f (t.composition 2 x ++ t.composition 2 y)
  have hlen := rim.length_eq
  have hmem : ∀ s, s ∈ t.rim f (t.composition 2 x ++ t.composition 2 y) ↔
      s = e1 ∨ s = e2 ∨ s = e3 ∨ s = e4 := by
    intro s; rw [rim.mem_iff]; simp
  unfold Topo.flipWith
  rw [if_neg (by simp [rim0]), if_neg (by simp [hlen])]
  generalize t.rim f (t.composition 2 x ++ t.composition 2 y) = S at *
  have hl : t.closeLoop 2 S d (S.headD 0) = .assertion := by
    refine closeLoop_stuck hnd (by simpa using hlen) (e1 := e1) ((hmem e1).2 (by simp)) ?_ ?_
    · intro s hs
      rcases (hmem s).1 hs with rfl | rfl | rfl | rfl
      · simp [SegO_connected sd s1]
      · rw [SegO_connected sd s2]; simp [n5, ne s2 s1 (Ne.symm n5)]
      · rw [SegO_connected sd s3]; simp [Ne.symm n1, ne s3 s1 n1]
      · rw [SegO_connected sd s4]; simp [n5, ne s4 s1 (Ne.symm n5)]
    · intro s hs
      rcases (hmem s).1 hs with rfl | rfl | rfl | rfl
      · rw [ne_eq, SegO_connected s1 s1]; exact Ne.symm n4
      · rw [ne_eq, SegO_connected s1 s2]; exact n6
      · rw [ne_eq, SegO_connected s1 s3]; exact Ne.symm n2
      · rw [ne_eq, SegO_connected s1 s4]; exact n6
  simp only [hl]

/-- the two diagonals -/
theorem diagonals {t : Topo} (hok : Ok t) (hst : Std t) {v0 v1 : Id} (h0 : v0 ∈ (t.lvl 0).fps)
    (h1 : v1 ∈ (t.lvl 0).fps) {t1 t2 : Topo} {d d' : Id} (hd : t.segment v0 v1 = some (t1, d))
    (hd' : t1.segment v1 v0 = some (t2, d')) :
    Ok t2 ∧ Std t2 ∧ Le t t2 ∧ d ∈ (t2.lvl 1).ors ∧ d' ∈ (t2.lvl 1).ors ∧ SegO t2 d v0 v1 ∧
      SegO t2 d' v1 v0 := by
  obtain ⟨ok1, le1, l1, _⟩ := segment_ok hok h0 h1 hd
  obtain ⟨st1, s1⟩ := segment_std hok hst h0 h1 hd
  obtain ⟨ok2, le2, l2, _⟩ := segment_ok ok1 (le1.fps 0 h1) (le1.fps 0 h0) hd'
  obtain ⟨st2, s2⟩ := segment_std ok1 st1 (le1.fps 0 h1) (le1.fps 0 h0) hd'
  exact ⟨ok2, st2, le1.trans le2, le2.ors 1 l1, l2, SegO_le ok1.inv le2 l1 s1, s2⟩

theorem SegO_vertices_live {t : Topo} (hi : Inv t) {s a b : Id} (hs : s ∈ (t.lvl 1).ors)
    (h : SegO t s a b) : a ∈ (t.lvl 0).fps ∧ b ∈ (t.lvl 0).fps := by
  have hF := h
  obtain ⟨a', b', ⟨n, x, y, e, fa, _, fb, _⟩, hsg⟩ := hF
  have hc := hi.comp_live 0 _ (hi.fp_live 1 s hs)
  have e' : t.compF 1 (t.fp 1 s) = [x, y] := e
  rw [e'] at hc
  have hx : a' ∈ (t.lvl 0).fps := fa ▸ hi.fp_live 0 x (hc x (by simp))
  have hy : b' ∈ (t.lvl 0).fps := fb ▸ hi.fp_live 0 y (hc y (by simp))
  have hp := perm_of_permutationSign hsg
  have ha := hp.mem_iff.mp (show a ∈ [a, b] by simp)
  have hb := hp.mem_iff.mp (show b ∈ [a, b] by simp)
  simp only [List.mem_cons, List.not_mem_nil, or_false] at ha hb
  constructor
  · rcases ha with rfl | rfl <;> assumption
  · rcases hb with rfl | rfl <;> assumption

theorem Loop.le {t t' : Topo} (hi : Inv t) (hle : Le t t') {o a b c : Id} (ho : o ∈ (t.lvl 2).ors)
    (h : Loop t o a b c) : Loop t' o a b c := by
  obtain ⟨p, q, r, hp, h1, h2, h3⟩ := h
  have hl := composition_live hi ho
  refine ⟨p, q, r, by rw [composition_le hi hle ho]; exact hp, SegO_le hi hle (hl _ ?_) h1,
    SegO_le hi hle (hl _ ?_) h2, SegO_le hi hle (hl _ ?_) h3⟩ <;> exact hp.mem_iff.mpr (by simp)

theorem Loop.live {t : Topo} (hi : Inv t) {o a b c : Id} (ho : o ∈ (t.lvl 2).ors)
    (h : Loop t o a b c) : a ∈ (t.lvl 0).fps ∧ b ∈ (t.lvl 0).fps ∧ c ∈ (t.lvl 0).fps := by
  obtain ⟨p, q, r, hp, h1, h2, h3⟩ := h
  have hl := composition_live hi ho
  have := SegO_vertices_live hi (hl p (hp.mem_iff.mpr (by simp))) h1
  exact ⟨this.1, this.2, (SegO_vertices_live hi (hl q (hp.mem_iff.mpr (by simp))) h2).2⟩

/-- the rims of two triangles that share `a b` -/
theorem rims {t : Topo} (hi : Inv t) (hs : Std t) {x y f a b c d p q r p' q' r' : Id}
    (hx : x ∈ (t.lvl 2).ors) (hy : y ∈ (t.lvl 2).ors) (hf : VS t 1 f = {a, b})
    (hfl : f ∈ (t.lvl 1).fps) (hp : (t.composition 2 x).Perm [p, q, r])
    (hp' : (t.composition 2 y).Perm [p', q', r'])
    (h1 : VS t 1 (t.fp 1 p) = {a, b}) (h2 : VS t 1 (t.fp 1 q) = {b, c})
    (h3 : VS t 1 (t.fp 1 r) = {c, a}) (h1' : VS t 1 (t.fp 1 p') = {a, b})
    (h2' : VS t 1 (t.fp 1 q') = {b, d}) (h3' : VS t 1 (t.fp 1 r') = {d, a})
    (n : [a, b, c, d].Nodup) :
    (t.rim f (t.composition 2 x)).length = 2 ∧
      (t.rim f (t.composition 2 x ++ t.composition 2 y)).Perm [q, r, q', r'] := by
  simp only [List.nodup_cons, List.mem_cons, List.not_mem_nil, or_false, not_or, not_false_eq_true,
    List.nodup_nil, and_true] at n
  obtain ⟨⟨n1, n2, n3⟩, ⟨n4, n5⟩, n6⟩ := n
  have k1 := rim_one hi hx hf hp h1 h2 h3 hs hfl n1 n4 (Ne.symm n2)
  have k2 := rim_one hi hy hf hp' h1' h2' h3' hs hfl n1 n5 (Ne.symm n3)
  have ne : ∀ {u v : Id} {S T : Finset Id} (k : Id), VS t 1 (t.fp 1 u) = S → VS t 1 (t.fp 1 v) = T →
      k ∈ S → k ∉ T → u ≠ v := by
    rintro u v S T k hS hT h h' rfl
    rw [hS] at hT
    exact h' (hT ▸ h)
  have e1 : q ≠ r := ne b h2 h3 (by simp) (by simp [n4, Ne.symm n1])
  have e2 : q ≠ q' := ne c h2 h2' (by simp) (by simp [Ne.symm n4, n6])
  have e3 : q ≠ r' := ne c h2 h3' (by simp) (by simp [Ne.symm n2, n6])
  have e4 : r ≠ q' := ne c h3 h2' (by simp) (by simp [Ne.symm n4, n6])
  have e5 : r ≠ r' := ne c h3 h3' (by simp) (by simp [Ne.symm n2, n6])
  have e6 : q' ≠ r' := ne b h2' h3' (by simp) (by simp [n5, Ne.symm n1])
  constructor
  · exact (rim_perm (l := [q, r]) (by simp [e1]) fun s => by rw [k1]; simp).length_eq
  · refine rim_perm (by simp [e1, e2, e3, e4, e5, e6]) fun s => ?_
    rw [List.mem_append, or_and_right, k1, k2]
    simp [or_assoc]

/-- the new triangles, in the order in which they are returned -/
structure Flipped (t' : Topo) (a b c d x' y' : Id) : Prop where
  lt : c < d → TriO t' x' c d b ∧ TriO t' y' d c a
  gt : d < c → TriO t' x' d c a ∧ TriO t' y' c d b

theorem perm4 {q r q' r' : Id} : [q, r, q', r'].Perm [r', q, r, q'] :=
  List.perm_append_comm (l₁ := [q, r, q']) (l₂ := [r'])

theorem perm4' {q r q' r' : Id} : [q, r, q', r'].Perm [r, q', r', q] :=
  List.perm_append_comm (l₁ := [q]) (l₂ := [r, q', r'])

/-- Two triangles whose compositions traverse their common edge in opposite directions. -/
theorem flipDiagonal_opposite {t : Topo} (hok : Ok t) (hst : Std t) {x y a b c d : Id}
    (hx : x ∈ (t.lvl 2).ors) (hy : y ∈ (t.lvl 2).ors) (hlx : Loop t x a b c) (hly : Loop t y b a d)
    (hcd : c ≠ d) :
    (∀ {k : Nat}, Fresh t (k + 12) → ∃ t' x' y', t.flipDiagonal x y = .ok (t', x', y')) ∧
    ∀ t' x' y', t.flipDiagonal x y = .ok (t', x', y') →
      Ok t' ∧ Std t' ∧ Le t t' ∧ x' ∈ (t'.lvl 2).ors ∧ y' ∈ (t'.lvl 2).ors ∧
        Flipped t' a b c d x' y' := by
  obtain ⟨n1, n2, n3⟩ := hlx.ne
  obtain ⟨_, n4, n5⟩ := hly.ne
  have hi := hok.inv
  -- the shared edge
  obtain ⟨f, hsh⟩ : ∃ f, t.findShared (t.composition 2 x) (t.composition 2 y) = some f := by
    rw [← Option.ne_none_iff_exists']
    intro e
    refine findShared_none.mp e ?_
    obtain ⟨p, q, r, hp, h1, h2, h3⟩ := hlx
    obtain ⟨p', q', r', hp', h1', h2', h3'⟩ := hly
    have m1 := hp.mem_iff.mpr (show p ∈ [p, q, r] by simp)
    have m2 := hp'.mem_iff.mpr (show p' ∈ [p', q', r'] by simp)
    exact ⟨p, m1, p', m2, (SegO_fp hi hst (composition_live hi hx p m1)
      (composition_live hi hy p' m2) h1 h1').2 (Or.inr ⟨rfl, rfl⟩)⟩
  have hf : VS t 1 f = {a, b} ∧ f ∈ (t.lvl 1).fps := by
    obtain ⟨u, hu, v, hv, e1, e2⟩ := findShared_some hsh
    obtain ⟨p, q, r, hp, h1, h2, h3⟩ := hlx
    obtain ⟨p', q', r', hp', h1', h2', h3'⟩ := hly
    refine ⟨?_, e1 ▸ hi.fp_live 1 u (composition_live hi hx u hu)⟩
    have hu' := hp.mem_iff.mp hu
    have hv' := hp'.mem_iff.mp hv
    simp only [List.mem_cons, List.not_mem_nil, or_false] at hu' hv'
    have hcm : c ∉ VS t 1 f := by
      intro hc
      rw [← e2] at hc
      rcases hv' with rfl | rfl | rfl
      · rw [SegO_VS h1'] at hc; simp [Ne.symm n2, n3] at hc
      · rw [SegO_VS h2'] at hc; simp [n3, hcd] at hc
      · rw [SegO_VS h3'] at hc; simp [Ne.symm n2, hcd] at hc
    rcases hu' with rfl | rfl | rfl
    · rw [← e1, SegO_VS h1]
    · exact absurd (by rw [← e1, SegO_VS h2]; simp) hcm
    · exact absurd (by rw [← e1, SegO_VS h3]; simp) hcm
  have hopp := oppositeVertices_eq (t := t) (x := x) (y := y) (f := f) hlx.VS
    (by rw [hly.VS, Finset.insert_comm]) hf.1 (by simp [n3, Ne.symm n2]) (by simp [n5, Ne.symm n4])
  have hall : ∀ v0 v1, t.oppositeVertices x y f = [v0, v1] →
      v0 ∈ (t.lvl 0).fps → v1 ∈ (t.lvl 0).fps → v0 ≠ v1 → ∀ w w' : Id,
      (∀ t2 d0 d1, Ok t2 → Std t2 → Le t t2 → d0 ∈ (t2.lvl 1).ors → d1 ∈ (t2.lvl 1).ors →
        SegO t2 d0 v0 v1 → SegO t2 d1 v1 v0 →
        ∃ e1 e2 e3 e4, Square t2 x y f d0 d1 e1 e2 e3 e4 v0 v1 w w') →
      (∀ {k : Nat}, Fresh t (k + 12) → ∃ t' x' y', t.flipDiagonal x y = .ok (t', x', y')) ∧
      ∀ t' x' y', t.flipDiagonal x y = .ok (t', x', y') →
        Ok t' ∧ Std t' ∧ Le t t' ∧ x' ∈ (t'.lvl 2).ors ∧ y' ∈ (t'.lvl 2).ors ∧
          TriO t' x' v0 v1 w ∧ TriO t' y' v1 v0 w' := by
    intro v0 v1 hov l0 l1 hne w w' hsq
    constructor
    · intro k hfr
      obtain ⟨t1, d0, hd0, fr1⟩ := segment_succeeds hok (k := k + 8) hfr l0 l1 hne
      obtain ⟨ok1, le1, _⟩ := segment_ok hok l0 l1 hd0
      obtain ⟨t2, d1, hd1, fr2⟩ := segment_succeeds ok1 (k := k + 4) fr1 (le1.fps 0 l1)
        (le1.fps 0 l0) (Ne.symm hne)
      obtain ⟨ok2, st2, le2, ld0, ld1, s0, s1⟩ := diagonals hok hst l0 l1 hd0 hd1
      obtain ⟨e1, e2, e3, e4, sq⟩ := hsq t2 d0 d1 ok2 st2 le2 ld0 ld1 s0 s1
      obtain ⟨t', x', y', hr⟩ := sq.succeeds ok2 st2 fr2
      exact ⟨t', x', y', by simp [Topo.flipDiagonal, hsh, hov, hd0, hd1, hr]⟩
    · intro t' x' y' hr
      simp only [Topo.flipDiagonal, hsh, hov] at hr
      split at hr
      · simp at hr
      · rename_i t1 d0 hd0
        split at hr
        · simp at hr
        · rename_i t2 d1 hd1
          obtain ⟨ok2, st2, le2, ld0, ld1, s0, s1⟩ := diagonals hok hst l0 l1 hd0 hd1
          obtain ⟨e1, e2, e3, e4, sq⟩ := hsq t2 d0 d1 ok2 st2 le2 ld0 ld1 s0 s1
          obtain ⟨r1, r2, r3, r4, r5, r6, r7⟩ := sq.result ok2 st2 hr
          exact ⟨r1, r2, le2.trans r3, r4, r5, r6, r7⟩
  have hnd : [a, b, c, d].Nodup := by
    simp [n1, n2, Ne.symm n3, Ne.symm n5, hcd]
    exact fun e => n4 e
  have lc := (hlx.live hi hx).2.2
  have ld := (hly.live hi hy).2.2
  have sq : ∀ t2, Ok t2 → Std t2 → Le t t2 → ∃ q r q' r',
      (t2.rim f (t2.composition 2 x)).length = 2 ∧
      (t2.rim f (t2.composition 2 x ++ t2.composition 2 y)).Perm [q, r, q', r'] ∧
      (∀ s ∈ [q, r, q', r'], s ∈ (t2.lvl 1).ors) ∧
      SegO t2 q b c ∧ SegO t2 r c a ∧ SegO t2 q' a d ∧ SegO t2 r' d b := by
    intro t2 ok2 st2 le2
    obtain ⟨p, q, r, hp, h1, h2, h3⟩ := hlx.le hi le2 hx
    obtain ⟨p', q', r', hp', h1', h2', h3'⟩ := hly.le hi le2 hy
    have lx := le2.ors 2 hx
    have ly := le2.ors 2 hy
    have hf2 : VS t2 1 f = {a, b} := by
      obtain ⟨u, hu, v, hv, e1, e2⟩ := findShared_some hsh
      have hul := composition_live hi hx u hu
      obtain ⟨a', b', hs'⟩ := SegO_of_live hi hst hul
      have := SegO_VS (SegO_le hi le2 hul hs')
      rw [le2.ofp 1 u hul, e1] at this
      rw [this, ← hf.1, ← e1, SegO_VS hs']
    have hrev : (t2.composition 2 y).Perm [p', r', q'] := hp'.trans ((List.Perm.swap _ _ _).cons _)
    obtain ⟨k1, k2⟩ := rims ok2.inv st2 lx ly hf2 (le2.fps 1 hf.2) hp hrev (SegO_VS h1) (SegO_VS h2)
      (SegO_VS h3) (by rw [SegO_VS h1', Finset.pair_comm]) (by rw [SegO_VS h3', Finset.pair_comm])
      (by rw [SegO_VS h2', Finset.pair_comm]) hnd
    refine ⟨q, r, q', r', k1, k2.trans (((List.Perm.swap _ _ _).cons _).cons _), ?_, h2, h3, h2', h3'⟩
    have c1 := composition_live ok2.inv lx
    have c2 := composition_live ok2.inv ly
    simp only [List.mem_cons, List.not_mem_nil, or_false, forall_eq_or_imp, forall_eq]
    exact ⟨c1 q (hp.mem_iff.mpr (by simp)), c1 r (hp.mem_iff.mpr (by simp)),
      c2 q' (hp'.mem_iff.mpr (by simp)), c2 r' (hp'.mem_iff.mpr (by simp))⟩
  simp only [List.nodup_cons, List.mem_cons, List.not_mem_nil, or_false, not_or, not_false_eq_true,
    List.nodup_nil, and_true] at hnd
  rcases lt_or_gt_of_ne hcd with hlt | hgt
  · rw [if_pos hlt] at hopp
    obtain ⟨A, B⟩ := hall c d hopp lc ld hcd b a (fun t2 d0 d1 ok2 st2 le2 ld0 ld1 s0 s1 => by
      obtain ⟨q, r, q', r', k1, k2, k3, h2, h3, h2', h3'⟩ := sq t2 ok2 st2 le2
      simp only [List.mem_cons, List.not_mem_nil, or_false, forall_eq_or_imp, forall_eq] at k3
      exact ⟨r', q, r, q', k1, k2.trans perm4, by
        simp [hcd, n2.symm, n3, n5, n4.symm, n1.symm, eq_comm] <;> tauto,
        by simp [ld0, ld1, k3.1, k3.2.1, k3.2.2.1, k3.2.2.2], s0, s1, h3', h2, h3, h2'⟩)
    refine ⟨A, fun t' x' y' hr => ?_⟩
    obtain ⟨r1, r2, r3, r4, r5, r6, r7⟩ := B t' x' y' hr
    exact ⟨r1, r2, r3, r4, r5, fun _ => ⟨r6, r7⟩, fun h => absurd hlt (lt_asymm h)⟩
  · rw [if_neg (lt_asymm hgt), if_pos hgt] at hopp
    obtain ⟨A, B⟩ := hall d c hopp ld lc (Ne.symm hcd) a b
      (fun t2 d0 d1 ok2 st2 le2 ld0 ld1 s0 s1 => by
      obtain ⟨q, r, q', r', k1, k2, k3, h2, h3, h2', h3'⟩ := sq t2 ok2 st2 le2
      simp only [List.mem_cons, List.not_mem_nil, or_false, forall_eq_or_imp, forall_eq] at k3
      exact ⟨r, q', r', q, k1, k2.trans perm4', by
        simp [hcd, n2.symm, n3, n5, n4.symm, n1.symm, eq_comm] <;> tauto,
        by simp [ld0, ld1, k3.1, k3.2.1, k3.2.2.1, k3.2.2.2], s0, s1, h3, h2', h3', h2⟩)
    refine ⟨A, fun t' x' y' hr => ?_⟩
    obtain ⟨r1, r2, r3, r4, r5, r6, r7⟩ := B t' x' y' hr
    exact ⟨r1, r2, r3, r4, r5, fun h => absurd hgt (lt_asymm h), fun _ => ⟨r6, r7⟩⟩

/-- Two triangles whose compositions traverse their common edge in the same direction. -/
theorem flipDiagonal_same {t : Topo} (hok : Ok t) (hst : Std t) {x y f a b c d : Id} {k : Nat}
    (hfr : Fresh t (k + 8)) (hsh : t.findShared (t.composition 2 x) (t.composition 2 y) = some f)
    (hx : x ∈ (t.lvl 2).ors) (hy : y ∈ (t.lvl 2).ors) (hlx : Loop t x a b c) (hly : Loop t y a b d)
    (hf : VS t 1 f = {a, b}) (hfl : f ∈ (t.lvl 1).fps) (hcd : c ≠ d) :
    t.flipDiagonal x y = .assertion := by
  obtain ⟨n1, n2, n3⟩ := hlx.ne
  obtain ⟨_, n4, n5⟩ := hly.ne
  have hi := hok.inv
  have hopp := oppositeVertices_eq (t := t) (x := x) (y := y) (f := f) hlx.VS hly.VS hf
    (by simp [n3, Ne.symm n2]) (by simp [n5, Ne.symm n4])
  have lc := (hlx.live hi hx).2.2
  have ld := (hly.live hi hy).2.2
  have hnd : [a, b, c, d].Nodup := by
    simp [n1, n2, Ne.symm n3, Ne.symm n5, hcd]
    exact fun e => n4 e
  have sq : ∀ t2, Ok t2 → Std t2 → Le t t2 → ∃ q r q' r',
      (t2.rim f (t2.composition 2 x)).length = 2 ∧
      (t2.rim f (t2.composition 2 x ++ t2.composition 2 y)).Perm [q, r, q', r'] ∧
      SegO t2 q b c ∧ SegO t2 r c a ∧ SegO t2 q' b d ∧ SegO t2 r' d a := by
    intro t2 ok2 st2 le2
    obtain ⟨p, q, r, hp, h1, h2, h3⟩ := hlx.le hi le2 hx
    obtain ⟨p', q', r', hp', h1', h2', h3'⟩ := hly.le hi le2 hy
    have hf2 : VS t2 1 f = {a, b} := by
      obtain ⟨u, hu, v, hv, e1, e2⟩ := findShared_some hsh
      have hul := composition_live hi hx u hu
      obtain ⟨a', b', hs'⟩ := SegO_of_live hi hst hul
      have := SegO_VS (SegO_le hi le2 hul hs')
      rw [le2.ofp 1 u hul, e1] at this
      rw [this, ← hf, ← e1, SegO_VS hs']
    obtain ⟨k1, k2⟩ := rims ok2.inv st2 (le2.ors 2 hx) (le2.ors 2 hy) hf2 (le2.fps 1 hfl) hp hp'
      (SegO_VS h1) (SegO_VS h2) (SegO_VS h3) (SegO_VS h1') (SegO_VS h2') (SegO_VS h3') hnd
    exact ⟨q, r, q', r', k1, k2, h2, h3, h2', h3'⟩
  have hall : ∀ v0 v1, t.oppositeVertices x y f = [v0, v1] →
      v0 ∈ (t.lvl 0).fps → v1 ∈ (t.lvl 0).fps → v0 ≠ v1 →
      (∀ t2 d0 d1, Ok t2 → Std t2 → Le t t2 → SegO t2 d0 v0 v1 →
        t2.flipWith x y f d0 d1 = .assertion) → t.flipDiagonal x y = .assertion := by
    intro v0 v1 hov l0 l1 hne hw
    obtain ⟨t1, d0, hd0, fr1⟩ := segment_succeeds hok (k := k + 4) hfr l0 l1 hne
    obtain ⟨ok1, le1, _⟩ := segment_ok hok l0 l1 hd0
    obtain ⟨t2, d1, hd1, fr2⟩ := segment_succeeds ok1 (k := k) fr1 (le1.fps 0 l1)
      (le1.fps 0 l0) (Ne.symm hne)
    obtain ⟨ok2, st2, le2, ld0, ld1, s0, s1⟩ := diagonals hok hst l0 l1 hd0 hd1
    have hr := hw t2 d0 d1 ok2 st2 le2 s0
    simp [Topo.flipDiagonal, hsh, hov, hd0, hd1, hr]
  simp only [List.nodup_cons, List.mem_cons, List.not_mem_nil, or_false, not_or, not_false_eq_true,
    List.nodup_nil, and_true] at hnd
  rcases lt_or_gt_of_ne hcd with hlt | hgt
  · rw [if_pos hlt] at hopp
    refine hall c d hopp lc ld hcd fun t2 d0 d1 ok2 st2 le2 s0 => ?_
    obtain ⟨q, r, q', r', k1, k2, h2, h3, h2', h3'⟩ := sq t2 ok2 st2 le2
    refine flipWith_stuck (e1 := r') (e2 := q') (e3 := r) (e4 := q) (a := a) (b := b) k1 ?_ ?_ s0 h3'
      h2' h3 h2
    · exact k2.trans (List.reverse_perm [q, r, q', r']).symm
    · simp [hcd, n2.symm, n3, n5, n4.symm, n1, eq_comm] <;> tauto
  · rw [if_neg (lt_asymm hgt), if_pos hgt] at hopp
    refine hall d c hopp ld lc (Ne.symm hcd) fun t2 d0 d1 ok2 st2 le2 s0 => ?_
    obtain ⟨q, r, q', r', k1, k2, h2, h3, h2', h3'⟩ := sq t2 ok2 st2 le2
    refine flipWith_stuck (e1 := r) (e2 := q) (e3 := r') (e4 := q') (a := a) (b := b) k1 ?_ ?_ s0 h3
      h2 h3' h2'
    · exact k2.trans ((List.Perm.swap _ _ _).trans (((List.Perm.swap _ _ _).cons _).cons _))
    · simp [Ne.symm hcd, n2.symm, n3, n5, n4.symm, n1, eq_comm] <;> tauto

/-- Two triangles with the same vertices. -/
theorem flipDiagonal_degenerate {t : Topo} {x y f a b c : Id}
    (hsh : t.findShared (t.composition 2 x) (t.composition 2 y) = some f)
    (hlx : VS t 2 (t.fp 2 x) = {a, b, c}) (hly : VS t 2 (t.fp 2 y) = {a, b, c})
    (hf : VS t 1 f = {a, b}) (hc : c ∉ ({a, b} : Finset Id)) :
    t.flipDiagonal x y = .assertion := by
  have hopp := oppositeVertices_eq (t := t) (x := x) (y := y) (f := f) hlx hly hf hc hc
  rw [if_neg (lt_irrefl _), if_neg (lt_irrefl _)] at hopp
  simp [Topo.flipDiagonal, hsh, hopp]

theorem TriO_of_isTriangle {t : Topo} (hi : Inv t) (hs : Std t) {o a b c : Id}
    (ho : o ∈ (t.lvl 2).ors) (h : IsTriangle t o a b c) : TriO t o a b c := by
  obtain ⟨l, hl, hp⟩ := h
  obtain ⟨m, hm⟩ := exists_ofVertices hi hs (Or.inr (Or.inl rfl)) ho
  obtain ⟨l', hl', hp'⟩ := OfVertices_vertices hm
  rw [hl] at hl'
  obtain rfl := Option.some.inj hl'
  obtain ⟨f, hF, hsg⟩ := OfVertices_iff hm
  have nf := FOfVertices_nodup hF
  have nm : m.Nodup := (perm_of_permutationSign hsg).nodup_iff.mpr nf
  have nl : l.Nodup := (perm_of_permutationSign hp').nodup_iff.mpr nm
  have na : [a, b, c].Nodup := (perm_of_permutationSign hp).nodup_iff.mp nl
  have h1 := permutationSign_trans nl (permutationSign_comm na hp) hp'
  have h2 := permutationSign_trans nm h1 hsg
  exact OfVertices_mk (n := 2) (l := [a, b, c]) hF (by simpa using h2)

theorem IsTriangle_of_TriO {t : Topo} {o a b c : Id} (h : TriO t o a b c) : IsTriangle t o a b c :=
  TriO_vertices h

end Mito.Topology
