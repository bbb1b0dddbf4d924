import Verif.Topology.FlipDiagonalLemmas
import Verif.Mesh.BoundaryLemmas
import Mathlib.Data.Fin.VecNotation
import Mathlib.Data.Finset.Powerset
import Mathlib.Tactic.FinCases

/-! # Lemmas for the validity of compositions of tetrahedra (C83) -/

namespace Mito.Topology

open Mito.Combinatorics

/-! ### four triangles on four vertices -/

/-- the eight oriented triangles on four vertices: the faces of the tetrahedron `0 1 2 3`, and those of `1 0 2 3` -/
def face4 : Fin 8 → Fin 4 × Fin 4 × Fin 4 :=
  ![(0, 1, 2), (1, 3, 2), (3, 1, 0), (3, 0, 2), (1, 0, 2), (0, 3, 2), (3, 0, 1), (3, 1, 2)]

def dir4 (p : Fin 4 × Fin 4 × Fin 4) : List (Fin 4 × Fin 4) := [(p.1, p.2.1), (p.2.1, p.2.2), (p.2.2, p.1)]

theorem face4_exists : ∀ i j k : Fin 4, i ≠ j → j ≠ k → k ≠ i →
    ∃ n, face4 n = (i, j, k) ∨ face4 n = (j, k, i) ∨ face4 n = (k, i, j) := by decide +kernel

theorem face4_all : ∀ a b c d : Fin 8,
    (∀ u v : Fin 4, u ≠ v → (u, v) ∈ dir4 (face4 a) ++ (dir4 (face4 b) ++ (dir4 (face4 c) ++ dir4 (face4 d)))) →
    [a, b, c, d].Perm [0, 1, 2, 3] ∨ [a, b, c, d].Perm [4, 5, 6, 7] := by decide +kernel

/-- the six pairs of four vertices -/
theorem pairs4 (s : Finset (Finset Id)) {V : Finset Id} (hV : V.card = 4) (hs : ∀ e ∈ s, e ⊆ V ∧ e.card = 2) (h6 : s.card = 6)
    {u v : Id} (hu : u ∈ V) (hv : v ∈ V) (huv : u ≠ v) : {u, v} ∈ s := by
  have hsub : s ⊆ V.powersetCard 2 := fun e he => Finset.mem_powersetCard.mpr (hs e he)
  have hc : (V.powersetCard 2).card ≤ s.card := by
    rw [Finset.card_powersetCard, hV, h6]; decide
  rw [Finset.eq_of_subset_of_card_le hsub hc, Finset.mem_powersetCard]
  refine ⟨?_, Finset.card_pair huv⟩
  intro w hw
  simp only [Finset.mem_insert, Finset.mem_singleton] at hw
  rcases hw with rfl | rfl <;> assumption

/-! ### the pairs of `isValid` as directed edges -/

/-- a segment with the same key has the same or the opposite direction -/
theorem EP_same {t : Topo} (hi : Inv t) (hs : Std t) {e e' : Id × Int} {a b c d : Id} (h : EP t e a b) (h' : EP t e' c d)
    (hk : e.1 = e'.1) : (c = a ∧ d = b ∧ e' = e) ∨ (c = b ∧ d = a ∧ e' = (e.1, -e.2)) := by
  have hV := EP_VS h
  rw [hk, EP_VS h'] at hV
  have hne := EP_ne h'
  have hc : c = a ∨ c = b := by
    have := Finset.ext_iff.mp hV c
    simpa using this
  have hd : d = a ∨ d = b := by
    have := Finset.ext_iff.mp hV d
    simpa using this
  rcases hc with rfl | rfl <;> rcases hd with rfl | rfl
  · exact absurd rfl hne
  · exact Or.inl ⟨rfl, rfl, EP_unique hi hs h' h⟩
  · exact Or.inr ⟨rfl, rfl, EP_unique hi hs h' (EP_neg h)⟩
  · exact absurd rfl hne

/-- net orientations count directed edges -/
theorem net_edges {t : Topo} (hi : Inv t) (hs : Std t) {P : List (Id × Int)} {D : List (Id × Id)}
    (h : List.Forall₂ (fun e d => EP t e d.1 d.2) P D) {e : Id × Int} {u v : Id} (he : EP t e u v) :
    net P e.1 = e.2 * ((D.count (u, v) : Int) - D.count (v, u)) := by
  have hne := EP_ne he
  induction h with
  | nil => simp [net]
  | @cons e' d P D hd _ ih =>
    have hcons : net (e' :: P) e.1 = (if e'.1 = e.1 then e'.2 else 0) + net P e.1 := by
      unfold net
      by_cases hk : e'.1 = e.1 <;> simp [hk]
    rw [hcons, ih, List.count_cons, List.count_cons]
    by_cases hk : e'.1 = e.1
    · rcases EP_same hi hs he hd hk.symm with ⟨h1, h2, rfl⟩ | ⟨h1, h2, rfl⟩
      · have e1 : d = (u, v) := Prod.ext h1 h2
        subst e1
        simp [hne]
        ring
      · have e1 : d = (v, u) := Prod.ext h1 h2
        subst e1
        simp [hne]
        ring
    · have h1 : d ≠ (u, v) := by
        rintro rfl
        exact hk (congrArg Prod.fst (EP_unique hi hs hd he))
      have h2 : d ≠ (v, u) := by
        rintro rfl
        have := EP_unique hi hs hd (EP_neg he)
        exact hk (by rw [this])
      simp [hk, h1, h2]

/-- the keys of the pairs are as many as the undirected edges -/
theorem keys_edges {t : Topo} (hi : Inv t) (hs : Std t) {P : List (Id × Int)} {D : List (Id × Id)}
    (h : List.Forall₂ (fun e d => EP t e d.1 d.2) P D) :
    (P.map (·.1)).toFinset.card = (D.map fun d => ({d.1, d.2} : Finset Id)).toFinset.card := by
  have himg : (D.map fun d => ({d.1, d.2} : Finset Id)).toFinset = (P.map (·.1)).toFinset.image (VS t 1) := by
    induction h with
    | nil => simp
    | cons hd _ ih => simp only [List.map_cons, List.toFinset_cons, Finset.image_insert, ih, EP_VS hd]
  rw [himg, Finset.card_image_of_injOn]
  have hlive : ∀ f ∈ (P.map (·.1)).toFinset, f ∈ (t.lvl 1).fps := by
    clear himg
    induction h with
    | nil => simp
    | cons hd _ ih =>
      intro f hf
      simp only [List.map_cons, List.toFinset_cons, Finset.mem_insert] at hf
      rcases hf with rfl | hf
      · exact hd.1
      · exact ih f hf
  intro f hf f' hf' e
  exact seg_unique hi hs (hlive f hf) (hlive f' hf') e

/-- a directed edge is among the edges of the list exactly if its segment is among the keys -/
theorem net_zero_edges {t : Topo} (hi : Inv t) (hs : Std t) {P : List (Id × Int)} {D : List (Id × Id)}
    (h : List.Forall₂ (fun e d => EP t e d.1 d.2) P D) (h0 : ∀ k ∈ P.map (·.1), net P k = 0) {d : Id × Id} (hd : d ∈ D) :
    (d.2, d.1) ∈ D := by
  have hex : ∃ e ∈ P, EP t e d.1 d.2 := by
    clear h0
    induction h with
    | nil => simp at hd
    | cons h1 _ ih =>
      rcases List.mem_cons.mp hd with rfl | hd
      · exact ⟨_, by simp, h1⟩
      · obtain ⟨e, he, h2⟩ := ih hd
        exact ⟨e, List.mem_cons_of_mem _ he, h2⟩
  obtain ⟨e, he, hep⟩ := hex
  have hn := h0 e.1 (List.mem_map_of_mem he)
  rw [net_edges hi hs h hep] at hn
  have hs2 : e.2 ≠ 0 := by
    obtain ⟨_, p, q, _, hsg⟩ := hep
    rcases permutationSign_values hsg with h | h <;> rw [h] <;> decide
  have hc : (D.count (d.1, d.2) : Int) = D.count (d.2, d.1) := by
    rcases mul_eq_zero.mp hn with h | h
    · exact absurd h hs2
    · omega
  have hpos : 0 < D.count (d.1, d.2) := List.count_pos_iff.mpr hd
  exact List.count_pos_iff.mp (by omega)

/-- four triangles with the twelve directed edges of four vertices are the faces of a tetrahedron -/
theorem tetra_of_edges {t : Topo} {V : Finset Id} (hV : V.card = 4) {T : Fin 4 → Id} {p : Fin 4 → Id × Id × Id}
    (hT : ∀ i, TriO t (T i) (p i).1 (p i).2.1 (p i).2.2) (hp : ∀ i, (p i).1 ∈ V ∧ (p i).2.1 ∈ V ∧ (p i).2.2 ∈ V)
    (hall : ∀ u ∈ V, ∀ v ∈ V, u ≠ v → ∃ i, (u, v) ∈ [((p i).1, (p i).2.1), ((p i).2.1, (p i).2.2), ((p i).2.2, (p i).1)]) :
    ∃ a b c d, [a, b, c, d].Nodup ∧ ∃ x y z w, [T 0, T 1, T 2, T 3].Perm [x, y, z, w] ∧ TriO t x a b c ∧ TriO t y b d c ∧
      TriO t z d b a ∧ TriO t w d a c := by
  obtain ⟨f⟩ : Nonempty (Fin 4 ≃ V) := by
    refine ⟨Fintype.equivOfCardEq ?_⟩
    simp [hV]
  let g : Fin 4 → Id := fun i => (f i).1
  have gi : Function.Injective g := fun i j h => f.injective (Subtype.ext h)
  have gs : ∀ v ∈ V, ∃ i, g i = v := fun v hv => ⟨f.symm ⟨v, hv⟩, by simp [g]⟩
  -- each triangle is one of the eight
  have hn : ∀ i, ∃ n, TriO t (T i) (g (face4 n).1) (g (face4 n).2.1) (g (face4 n).2.2) ∧
      ∀ u v, (g u, g v) ∈ [((p i).1, (p i).2.1), ((p i).2.1, (p i).2.2), ((p i).2.2, (p i).1)] → (u, v) ∈ dir4 (face4 n) := by
    intro i
    obtain ⟨a, ha⟩ := gs _ (hp i).1
    obtain ⟨b, hb⟩ := gs _ (hp i).2.1
    obtain ⟨c, hc⟩ := gs _ (hp i).2.2
    have h := hT i
    have hnd := h.nodup
    rw [← ha, ← hb, ← hc] at h hnd ⊢
    simp only [List.nodup_cons, List.mem_cons, List.not_mem_nil, or_false, not_or, not_false_eq_true, List.nodup_nil,
      and_true] at hnd
    have n1 : a ≠ b := fun e => hnd.1.1 (congrArg g e)
    have n2 : b ≠ c := fun e => hnd.2 (congrArg g e)
    have n3 : c ≠ a := fun e => hnd.1.2 (congrArg g e.symm)
    obtain ⟨n, hn | hn | hn⟩ := face4_exists a b c n1 n2 n3
    · refine ⟨n, by rw [hn]; exact h, fun u v huv => ?_⟩
      simp only [List.mem_cons, Prod.mk.injEq, gi.eq_iff, List.not_mem_nil, or_false] at huv
      simp only [hn, dir4, List.mem_cons, Prod.mk.injEq, List.not_mem_nil, or_false]
      tauto
    · refine ⟨n, by rw [hn]; exact TriO_rotate h, fun u v huv => ?_⟩
      simp only [List.mem_cons, Prod.mk.injEq, gi.eq_iff, List.not_mem_nil, or_false] at huv
      simp only [hn, dir4, List.mem_cons, Prod.mk.injEq, List.not_mem_nil, or_false]
      tauto
    · refine ⟨n, by rw [hn]; exact TriO_rotate (TriO_rotate h), fun u v huv => ?_⟩
      simp only [List.mem_cons, Prod.mk.injEq, gi.eq_iff, List.not_mem_nil, or_false] at huv
      simp only [hn, dir4, List.mem_cons, Prod.mk.injEq, List.not_mem_nil, or_false]
      tauto
  choose n hn1 hn2 using hn
  have hperm := face4_all (n 0) (n 1) (n 2) (n 3) (by
    intro u v huv
    obtain ⟨i, hi⟩ := hall (g u) (f u).2 (g v) (f v).2 (fun e => huv (gi e))
    have := hn2 i u v hi
    simp only [List.mem_append]
    fin_cases i <;> simp_all)
  -- carry the triangles along the permutation
  have hlist : List.Forall₂ (fun x m => TriO t x (g (face4 m).1) (g (face4 m).2.1) (g (face4 m).2.2))
      [T 0, T 1, T 2, T 3] [n 0, n 1, n 2, n 3] := by
    simp [hn1]
  have key : ∀ m0 m1 m2 m3 : Fin 8, [n 0, n 1, n 2, n 3].Perm [m0, m1, m2, m3] →
      ∃ x y z w, [T 0, T 1, T 2, T 3].Perm [x, y, z, w] ∧
        TriO t x (g (face4 m0).1) (g (face4 m0).2.1) (g (face4 m0).2.2) ∧
        TriO t y (g (face4 m1).1) (g (face4 m1).2.1) (g (face4 m1).2.2) ∧
        TriO t z (g (face4 m2).1) (g (face4 m2).2.1) (g (face4 m2).2.2) ∧
        TriO t w (g (face4 m3).1) (g (face4 m3).2.1) (g (face4 m3).2.2) := by
    intro m0 m1 m2 m3 hm
    have hlist' : List.Forall₂ (fun m x => TriO t x (g (face4 m).1) (g (face4 m).2.1) (g (face4 m).2.2))
        [n 0, n 1, n 2, n 3] [T 0, T 1, T 2, T 3] := List.Forall₂.flip hlist
    obtain ⟨l, h1, h2⟩ := List.perm_comp_forall₂ hm.symm hlist'
    match l, h1 with
    | [x, y, z, w], h1 =>
      simp only [List.forall₂_cons, List.forall₂_nil_left_iff, and_true] at h1
      exact ⟨x, y, z, w, h2.symm, h1.1, h1.2.1, h1.2.2.1, h1.2.2.2⟩
  have hnd : ∀ i j k l : Fin 4, [i, j, k, l].Nodup → [g i, g j, g k, g l].Nodup := fun i j k l h => h.map gi
  rcases hperm with h | h
  · obtain ⟨x, y, z, w, hP, h0, h1, h2, h3⟩ := key _ _ _ _ h
    exact ⟨g 0, g 1, g 2, g 3, hnd _ _ _ _ (by decide), x, y, z, w, hP, h0, h1, h2, h3⟩
  · obtain ⟨x, y, z, w, hP, h0, h1, h2, h3⟩ := key _ _ _ _ h
    exact ⟨g 1, g 0, g 2, g 3, hnd _ _ _ _ (by decide), x, y, z, w, hP, h0, h1, h2, h3⟩

/-- growing the topology does not change the sanity check of simplices alive -/
theorem sanityCheck_le {t t' : Topo} (hi : Inv t) (hle : Le t t') {N : Nat} {o : Id} (ho : o ∈ (t.lvl N).ors) :
    t'.sanityCheck N o = t.sanityCheck N o := by
  induction N generalizing o with
  | zero => rfl
  | succ N ih =>
    have hf := hi.fp_live (N + 1) o ho
    have h1 : t'.fp (N + 1) o = t.fp (N + 1) o := hle.ofp _ o ho
    have hc : t'.compF (N + 1) (t.fp (N + 1) o) = t.compF (N + 1) (t.fp (N + 1) o) := hle.comp _ _ hf
    simp only [Topo.sanityCheck, h1, hc, vertexSet_le hi hle hf]
    congr 1
    rw [Bool.eq_iff_iff, List.all_eq_true, List.all_eq_true]
    refine forall_congr' fun u => forall_congr' fun hu => ?_
    rw [ih (hi.comp_live N _ hf u hu)]

end Mito.Topology
