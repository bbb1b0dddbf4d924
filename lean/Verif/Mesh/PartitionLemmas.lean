import Verif.Spec.Partition
import Verif.Mesh.BoundaryLemmas

/-! # Helper lemmas for partitions -/

set_option linter.unusedSimpArgs false
set_option linter.unusedVariables false

namespace Mito.Topology

open Mito.Combinatorics

/-- asking for a simplex alive by an even rearrangement of its vertices gives that simplex -/
theorem fromVertices_even_same {t t' : Topo} (ok : Ok t) (st : Std t) {n : Nat} {o o' : Id}
    {l l' : List Id} (hn : n = 1 ∨ n = 2 ∨ n = 3) (ho : o ∈ (t.lvl n).ors)
    (hl : t.verticesOf n o = some l) (hs : permutationSign l l' = some 1)
    (h : t.fromVertices l' = some (t', o')) :
    o' = o ∧ Ok t' ∧ Std t' ∧ Le t t' := by
  obtain ⟨l2, hl2, hnd2, hV, hlen⟩ := verticesOf_spec ok.inv st (by omega : n ≤ 3) ho
  rw [hl] at hl2
  obtain rfl := by simpa using hl2
  have hp := perm_of_permutationSign hs
  have hnd' : l'.Nodup := hp.nodup_iff.mp hnd2
  have hlive : ∀ v ∈ l', v ∈ (t.lvl 0).fps := by
    intro v hv
    have : v ∈ VS t n (t.fp n o) := by rw [← hV]; simpa using hp.mem_iff.mpr hv
    exact vertexSet_live ok.inv (ok.inv.fp_live n o ho) (by simpa [VS] using this)
  obtain ⟨k, hk, hlen', ok', st', le, ol', hO', _⟩ := fromVertices_spec ok st hlive h
  have hkn : k = n := by rw [hp.length_eq] at hlen; omega
  subst hkn
  refine ⟨?_, ok', st', le⟩
  obtain ⟨m, hO⟩ := exists_ofVertices ok'.inv st' hn (le.ors k ho)
  obtain ⟨l3, hl3, hs3⟩ := OfVertices_vertices hO
  rw [verticesOf_le ok.inv le ho, hl] at hl3
  obtain rfl := by simpa using hl3
  have hs4 := permutationSign_trans hnd2 (permutationSign_comm hnd' hs) hs3
  obtain ⟨h1, h2⟩ := OfVertices_related ok'.inv st' hn (le.ors k ho) ol' hO hO' hs4
  exact ok'.inv.oriented_unique ol' (le.ors k ho) h1 (by rw [h2]; ring)

end Mito.Topology

namespace Mito.Meshes

open Mito.Topology Mito.Combinatorics

theorem createPartitioned_eq {β : Type} (rank : Int) (painting : List Int) (cells : List β)
    (h : cells.length ≤ painting.length) :
    createPartitioned rank painting cells = some (colored painting rank cells) := by
  induction cells generalizing painting with
  | nil => cases painting <;> rfl
  | cons c cs ih =>
    match painting with
    | [] => simp at h
    | p :: ps =>
      rw [createPartitioned, ih ps (by simpa using h)]
      simp only [colored, List.zip_cons_cons, List.filter_cons]
      by_cases e : p = rank <;> simp [e]

theorem createPartitioned_none {β : Type} (rank : Int) (painting : List Int) (cells : List β)
    (h : painting.length < cells.length) : createPartitioned rank painting cells = none := by
  induction cells generalizing painting with
  | nil => simp at h
  | cons c cs ih =>
    match painting with
    | [] => rfl
    | p :: ps => rw [createPartitioned, ih ps (by simpa using h)]

theorem collect_eq {β γ : Type} (f : β → Option γ) (g : β → γ) (l : List β)
    (h : ∀ x ∈ l, f x = some (g x)) : collect f l = some (l.map g) := by
  induction l with
  | nil => rfl
  | cons x xs ih =>
    rw [collect, h x (by simp), ih fun y hy => h y (by simp [hy])]
    rfl

theorem verticesMap_nodup (t : Topo) (N : Nat) (cells : List GCell) :
    (verticesMap t N cells).Nodup :=
  ((List.perm_insertionSort _ _).nodup_iff).mpr (List.nodup_dedup _)

theorem mem_verticesMap {t : Topo} {N : Nat} {cells : List GCell} {v : Id} :
    v ∈ verticesMap t N cells ↔ ∃ c ∈ cells, v ∈ t.vertexSet N (t.fp N c.simplex) := by
  rw [verticesMap, (List.perm_insertionSort _ _).mem_iff, List.mem_dedup, List.mem_flatMap]

theorem verticesMap_sorted (t : Topo) (N : Nat) (cells : List GCell) :
    (verticesMap t N cells).Pairwise (· ≤ ·) := List.pairwise_insertionSort _ _

theorem vertexToId_mem {ids : List Id} {v : Id} (h : v ∈ ids) :
    vertexToId ids v = some (ids.idxOf v) := by
  simp [vertexToId, h]

/-- the nodes of a cell sit on its vertices only -/
theorem CellOk.vertices {t : Topo} (hi : Inv t) (hs : Std t) {n : Nat} (hn : n ≤ 3) {c : GCell}
    (h : CellOk t n c) : ∀ m ∈ c.nodes, m.vertex ∈ t.vertexSet n (t.fp n c.simplex) := by
  obtain ⟨ho, hc⟩ := h
  obtain ⟨l, hl, _, hV, _⟩ := verticesOf_spec hi hs hn ho
  simp only [GCell.sanityCheck, hl, beq_iff_eq] at hc
  intro m hm
  have : m.vertex ∈ l :=
    (perm_of_permutationSign hc).mem_iff.mpr (List.mem_map.mpr ⟨m, hm, rfl⟩)
  have : m.vertex ∈ l.toFinset := by simpa using this
  rw [hV] at this
  simpa [VS] using this

theorem CellOk.length {t : Topo} (hi : Inv t) (hs : Std t) {n : Nat} (hn : n ≤ 3) {c : GCell}
    (h : CellOk t n c) : c.nodes.length = n + 1 := by
  obtain ⟨ho, hc⟩ := h
  obtain ⟨l, hl, _, hV, hlen⟩ := verticesOf_spec hi hs hn ho
  simp only [GCell.sanityCheck, hl, beq_iff_eq] at hc
  have := (perm_of_permutationSign hc).length_eq
  simpa [hlen] using this.symm

/-- making a cell again from its nodes -/
theorem mkCell_again {t t1 : Topo} (h0 : Inv t) (hs0 : Std t) (hg : Good t t1) {n : Nat} (hpos : 1 ≤ n)
    (hn : n ≤ 3) {c : GCell} (hc : CellOk t n c) :
    (∀ t2 d, mkCell t1 c.nodes = some (t2, d) → Good t t2 ∧ d = c) ∧
    (∀ k, Fresh t1 (k + 58) → ∃ t2 d, mkCell t1 c.nodes = some (t2, d) ∧ Fresh t2 k) := by
  have hlen := hc.length h0 hs0 hn
  have hvert := hc.vertices h0 hs0 hn
  obtain ⟨ho, hc⟩ := hc
  have ho1 := hg.le.ors n ho
  obtain ⟨l, hl, hnd, hV, hlen'⟩ := verticesOf_spec h0 hs0 hn ho
  simp only [GCell.sanityCheck, hl, beq_iff_eq] at hc
  have hl1 : t1.verticesOf n c.simplex = some l := by rw [verticesOf_le h0 hg.le ho, hl]
  constructor
  · intro t2 d h
    simp only [mkCell] at h
    split at h
    · simp at h
    · rename_i t3 o' hv
      simp only [Option.some.injEq, Prod.mk.injEq] at h
      obtain ⟨rfl, rfl⟩ := h
      obtain ⟨rfl, ok', st', le'⟩ :=
        fromVertices_even_same hg.ok hg.std (by omega : n = 1 ∨ n = 2 ∨ n = 3) ho1 hl1 hc hv
      exact ⟨⟨ok', st', hg.le.trans le'⟩, rfl⟩
  · intro k hk
    obtain ⟨t2, o', h1, h2⟩ := fromVertices_fresh (l := c.nodes.map (·.vertex)) hg.ok hg.std
      (by rw [List.length_map]; omega)
      (by
        intro v hv
        obtain ⟨m, hm, rfl⟩ := List.mem_map.mp hv
        exact hg.le.fps 0 (vertexSet_live h0 (h0.fp_live _ _ ho) (hvert m hm)))
      ((perm_of_permutationSign hc).nodup_iff.mp hnd) hk
    exact ⟨t2, ⟨o', c.nodes⟩, by simp only [mkCell, h1], h2⟩

theorem copyCells_spec {t : Topo} (hok : Ok t) (hst : Std t) {n : Nat} (hpos : 1 ≤ n) (hn : n ≤ 3)
    {cells : List GCell} (hc : ∀ c ∈ cells, CellOk t n c) :
    (∀ t2 r, copyCells t cells = some (t2, r) → Good t t2 ∧ r = cells) ∧
    (Fresh t (58 * cells.length) → ∃ t2 r, copyCells t cells = some (t2, r)) := by
  have hround : ∀ c ∈ cells, RoundSpec t (fun x y : GCell => x = y) (fun t c =>
      match mkCell t c.nodes with
      | none => none
      | some (t1, d) => some (t1, [d])) (fun c => [c]) (fun _ => 58) c := by
    intro c h t1 hg
    obtain ⟨h1, h2⟩ := mkCell_again hok.inv hst hg hpos hn (hc c h)
    constructor
    · intro t2 r hr
      dsimp only at hr
      split at hr
      · simp at hr
      · rename_i t3 d e
        simp only [Option.some.injEq, Prod.mk.injEq] at hr
        obtain ⟨rfl, rfl⟩ := hr
        obtain ⟨hg3, hp⟩ := h1 _ _ e
        exact ⟨hg3, by simp [hp]⟩
    · intro k hk
      obtain ⟨t2, d, e1, e2⟩ := h2 k hk
      exact ⟨t2, [d], by simp only [e1], e2⟩
  obtain ⟨g1, g2⟩ := loop_spec hround t (Good.refl hok hst)
  constructor
  · intro t2 r h
    obtain ⟨h1, h2⟩ := g1 t2 r h
    refine ⟨h1, ?_⟩
    rw [List.forall₂_eq_eq_eq] at h2
    simpa using h2.symm
  · intro hf
    obtain ⟨t2, r, h, _⟩ := g2 0 (by simpa [mul_comm] using hf)
    exact ⟨t2, r, h⟩

/-- with painting in range, the parts contain every cell once -/
theorem colored_perm {β : Type} (n : Nat) (painting : List Int) (cells : List β)
    (hl : cells.length ≤ painting.length) (hp : ∀ p ∈ painting, 0 ≤ p ∧ p < n) :
    ((List.range n).flatMap fun r : Nat => colored painting (r : Int) cells).Perm cells := by
  induction cells generalizing painting with
  | nil => simp [colored]
  | cons c cs ih =>
    match painting with
    | [] => simp at hl
    | p :: ps =>
      have ih' := ih ps (by simpa using hl) fun q hq => hp q (by simp [hq])
      obtain ⟨h0, h1⟩ := hp p (by simp)
      obtain ⟨k, rfl⟩ := Int.eq_ofNat_of_zero_le h0
      have hk : k < n := by exact_mod_cast h1
      have hstep : ∀ r : Nat, colored ((k : Int) :: ps) (r : Int) (c :: cs) =
          (if k = r then [c] else []) ++ colored ps r cs := by
        intro r
        simp only [colored, List.zip_cons_cons, List.filter_cons]
        by_cases e : k = r
        · simp [e]
        · have : ¬ ((k : Int) = r) := by exact_mod_cast e
          simp [e, this]
      rw [show (fun r : Nat => colored ((k : Int) :: ps) (r : Int) (c :: cs)) = fun r : Nat =>
        (if k = r then [c] else []) ++ colored ps (r : Int) cs from funext hstep]
      refine (List.flatMap_append_perm (List.range n) _ _).symm.trans ?_
      have h1 : ((List.range n).flatMap fun r => if k = r then [c] else []) = [c] := by
        have : ∀ l : List Nat, l.Nodup → k ∈ l → (l.flatMap fun r => if k = r then [c] else []) = [c] := by
          intro l hnd hm
          induction l with
          | nil => simp at hm
          | cons x xs ihx =>
            rw [List.flatMap_cons]
            obtain ⟨hx, hxs⟩ := List.nodup_cons.mp hnd
            by_cases e : k = x
            · subst e
              have : (xs.flatMap fun r => if k = r then [c] else []) = [] := by
                rw [List.flatMap_eq_nil_iff]
                intro y hy
                have : k ≠ y := fun h => hx (h ▸ hy)
                simp [this]
              simp [this]
            · have hm' : k ∈ xs := by
                rcases List.mem_cons.mp hm with h | h
                · exact absurd h e
                · exact h
              simp [e, ihx hxs hm']
        exact this _ List.nodup_range (List.mem_range.mpr hk)
      rw [h1]
      exact ih'.cons c

end Mito.Meshes
