import Verif.Props.Topology
import Verif.Mesh.BoundaryLemmas

/-!
# C83: the sanity check of simplices

It passes exactly if the simplex and all its subsimplices of order `M` have `M + 1` vertices; so for all simplices built from vertices,
but not for all that `isValid` accepts.
-/

namespace Mito.Topology

/-- **C83.**  What the sanity check tests. -/
theorem sanityCheck_iff (t : Topo) (N : Nat) (o : Id) :
    t.sanityCheck N o = true ↔ ∀ M x, Sub t N o M x → (t.vertexSet M (t.fp M x)).toFinset.card = M + 1 := by
  induction N generalizing o with
  | zero =>
    refine ⟨fun _ M x h => ?_, fun _ => rfl⟩
    have hM : M = 0 := by
      have : ∀ M x, Sub t 0 o M x → M ≤ 0 := by
        intro M x h
        induction h with
        | self => exact le_refl _
        | face _ _ ih => omega
      exact Nat.le_zero.mp (this M x h)
    subst hM
    simp [Topo.vertexSet]
  | succ N ih =>
    have hc : ∀ x, x ∈ t.compF (N + 1) (t.fp (N + 1) o) ↔ x ∈ t.composition (N + 1) o :=
      fun x => (composition_perm t (N + 1) o).mem_iff.symm
    have htrans : ∀ x ∈ t.composition (N + 1) o, ∀ M z, Sub t N x M z → Sub t (N + 1) o M z := by
      intro x hx M z h
      induction h with
      | self => exact .face .self hx
      | face _ hz ih => exact .face ih hz
    have hsplit : ∀ M z, Sub t (N + 1) o M z → (M = N + 1 ∧ z = o) ∨ ∃ x ∈ t.composition (N + 1) o, Sub t N x M z := by
      intro M z h
      induction h with
      | self => exact Or.inl ⟨rfl, rfl⟩
      | face hy hz ih =>
        rcases ih with ⟨h1, rfl⟩ | ⟨x, hx, hs⟩
        · cases h1
          exact Or.inr ⟨_, hz, .self⟩
        · exact Or.inr ⟨x, hx, .face hs hz⟩
    simp only [Topo.sanityCheck, Bool.and_eq_true, List.all_eq_true, hc, ih, beq_iff_eq]
    rw [← List.toFinset_card_of_nodup (vertexSet_nodup t (N + 1) _)]
    constructor
    · rintro ⟨h1, h2⟩ M z hz
      rcases hsplit M z hz with ⟨rfl, rfl⟩ | ⟨x, hx, hs⟩
      · exact h2
      · exact h1 x hx M z hs
    · intro h
      exact ⟨fun x hx M z hz => h M z (htrans x hx M z hz), h _ _ .self⟩

/-- **C83.**  In a topology built from vertices all simplices pass. -/
theorem sanityCheck_of_vertices {t : Topo} (ht : VReachable t) {N : Nat} (hN : N ≤ 3) {o : Id} (ho : o ∈ (t.lvl N).ors) :
    t.sanityCheck N o = true := by
  obtain ⟨ok, st⟩ := ht.ok
  rw [sanityCheck_iff]
  have hlive : ∀ M x, Sub t N o M x → M ≤ N ∧ x ∈ (t.lvl M).ors := by
    intro M x h
    induction h with
    | self => exact ⟨le_refl _, ho⟩
    | face _ hz ih => exact ⟨by omega, composition_live ok.inv ih.2 _ hz⟩
  intro M x h
  obtain ⟨l, -, hnd, hl, hlen⟩ := verticesOf_spec ok.inv st ((hlive M x h).1.trans hN) (hlive M x h).2
  rw [← hlen, ← List.toFinset_card_of_nodup hnd, hl, VS]

/-- **C83.**  Simplices accepted by `isValid` can fail: the pillow of two triangles `T, -T, S, -S` has six vertices. -/
theorem sanityCheck_fails : ∃ (t : Topo) (o : Id), Reachable t ∧ o ∈ (t.lvl 3).ors ∧ t.sanityCheck 3 o = false := by
  refine ⟨((run (.init (List.range 80)) [.vertex, .vertex, .vertex, .vertex, .vertex, .vertex, .triangle 0 1 2, .triangle 3 4 5,
      .flip 2 19, .flip 2 33, .simplex 2 [19, 34, 33, 35]]).getD (.init [])), 37,
    ⟨List.range 80, [.vertex, .vertex, .vertex, .vertex, .vertex, .vertex, .triangle 0 1 2, .triangle 3 4 5, .flip 2 19, .flip 2 33,
      .simplex 2 [19, 34, 33, 35]], ?_⟩, ?_⟩
  · exact run_eq_some _ (by decide +kernel)
  · decide +kernel

/-- a triangle that passes -/
example : ∃ t, VReachable t ∧ 16 ∈ (t.lvl 2).ors := by
  refine ⟨((run (.init (List.range 80)) [.vertex, .vertex, .vertex, .triangle 0 1 2]).getD (.init [])),
    ⟨List.range 80, [.vertex, .vertex, .vertex, .triangle 0 1 2], by decide, run_eq_some _ (by decide +kernel)⟩, ?_⟩
  decide +kernel

end Mito.Topology
