import Verif.Mesh.BoundaryLemmas

/-! # Helper lemmas for filters of filtered meshes -/

namespace Mito.Meshes

open Mito.Topology Mito.Combinatorics

variable {t : Topo}

theorem subcells_live (hi : Inv t) {I d : Nat} {o : Id} (ho : o ∈ (t.lvl (I + d)).ors) : ∀ x ∈ subcells t I d o, x ∈ (t.lvl I).ors := by
  induction d generalizing o with
  | zero => simpa [subcells] using ho
  | succ d ih =>
    intro x hx
    obtain ⟨y, hy, hx⟩ := List.mem_flatMap.mp hx
    exact ih (composition_live hi ho y hy) x hx

theorem subcells_le (hi : Inv t) {t' : Topo} (hle : Le t t') {I d : Nat} {o : Id} (ho : o ∈ (t.lvl (I + d)).ors) :
    subcells t' I d o = subcells t I d o := by
  induction d generalizing o with
  | zero => rfl
  | succ d ih =>
    have h : subcells t' I (d + 1) o = (t'.composition (I + (d + 1)) o).flatMap (subcells t' I d) := rfl
    rw [h, composition_le hi hle ho]
    exact List.flatMap_congr fun y hy => ih (composition_live hi ho y hy)

/-- the chains of length `e + k` are the chains of length `e` continued -/
theorem subcells_add (I k e : Nat) (o : Id) : subcells t I (k + e) o = (subcells t (I + k) e o).flatMap (subcells t I k) := by
  induction e generalizing o with
  | zero => simp [subcells]
  | succ e ih =>
    have h : subcells t I (k + (e + 1)) o = (t.composition (I + (k + e) + 1) o).flatMap (subcells t I (k + e)) := rfl
    rw [h]
    simp only [subcells, List.flatMap_assoc]
    rw [show I + (k + e) + 1 = I + k + e + 1 by omega]
    exact List.flatMap_congr fun y _ => ih y

/-- the vertices of the nodes of a cell are distinct -/
theorem CellOk.nodup (hi : Inv t) (hs : Std t) {N : Nat} (hN : N ≤ 3) {c : GCell} (hc : CellOk t N c) :
    (c.nodes.map (·.vertex)).Nodup := by
  obtain ⟨l, hl, hnd, _, _⟩ := verticesOf_spec hi hs hN hc.1
  have := hc.2
  simp only [GCell.sanityCheck, hl, beq_iff_eq] at this
  exact (perm_of_permutationSign this).nodup_iff.mp hnd

/-- the cell on a simplex with nodes of another cell is unique -/
theorem places_unique {N : Nat} {x : Id} {nodes nodes' : List Node} (hnd : (nodes.map (·.vertex)).Nodup)
    (hsub : ∀ n ∈ nodes', n ∈ nodes) {a b : GCell} (ha : Places t N (x, nodes) a) (hb : Places t N (x, nodes') b) : a = b := by
  obtain ⟨a1, a2⟩ := a
  obtain ⟨b1, b2⟩ := b
  obtain ⟨h1, h2, h3⟩ := ha
  obtain ⟨h4, h5, h6⟩ := hb
  simp only at h1 h2 h3 h4 h5 h6
  rw [h3] at h6
  have hm := Option.some.inj h6
  have : a2 = b2 := by
    have h2' : ∀ n ∈ a2, n ∈ nodes := h2
    have h5' : ∀ n ∈ b2, n ∈ nodes := fun n hn => hsub n (h5 n hn)
    clear h3 h6 h2 h5
    induction a2 generalizing b2 with
    | nil => simpa using hm.symm
    | cons n a2 ih =>
      cases b2 with
      | nil => simp at hm
      | cons n' b2 =>
        simp only [List.map_cons, List.cons.injEq] at hm
        rw [List.inj_on_of_nodup_map hnd (h2' n (by simp)) (h5' n' (by simp)) hm.1,
          ih b2 hm.2 (fun k hk => h2' k (by simp [hk])) (fun k hk => h5' k (by simp [hk]))]
  rw [h1, h4, this]

theorem forall₂_unique {α β γ : Type} {Q : α → β → Prop} {P : α → γ → Prop} {P' : β → γ → Prop} {X : List α} {Y : List β}
    (hQ : List.Forall₂ Q X Y) (h : ∀ x y a b, Q x y → P x a → P' y b → a = b) {A B : List γ} (hA : List.Forall₂ P X A)
    (hB : List.Forall₂ P' Y B) : A = B := by
  induction hQ generalizing A B with
  | nil => cases hA; cases hB; rfl
  | cons hq _ ih =>
    cases hA with
    | cons ha hA =>
      cases hB with
      | cons hb hB => rw [h _ _ _ _ hq ha hb, ih hA hB]

/-- the cells collected by a filter satisfy the assertion of the constructor -/
theorem places_ok {t' : Topo} (hi : Inv t) (hs : Std t) (hle : Le t t') {N : Nat} (hN : N ≤ 3) {x : Id × List Node} {c : GCell}
    (hx : x.1 ∈ (t.lvl N).ors) (hp : Places t N x c) : CellOk t' N c := by
  have hl0 : c.simplex ∈ (t.lvl N).ors := hp.1 ▸ hx
  obtain ⟨l, hl, hnd, _, hlen⟩ := verticesOf_spec hi hs hN hl0
  refine ⟨hle.ors _ hl0, ?_⟩
  have e := hp.2.2
  rw [← hp.1, hl] at e
  simp only [GCell.sanityCheck, verticesOf_le hi hle hl0, hl]
  rw [← Option.some.inj e, permutationSign_refl (by intro h0; simp [h0] at hlen) hnd]
  rfl

end Mito.Meshes
