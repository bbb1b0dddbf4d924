import Verif.Spec.Tetrahedron
import Verif.Topology.TetraLemmas
import Verif.Props.Sanity

/-!
# C83: validity and the sanity check together characterise tetrahedra

Neither test is enough: `isValid` accepts pillows (`isValid_tetrahedron_accepts_pillow`), four vertices alone say nothing about
orientations.
-/

namespace Mito.Topology

open Mito.Combinatorics

/-- **C83.**  In a topology built from vertices, four oriented triangles are a valid composition with four vertices in total
exactly if they are the coherently oriented faces of a tetrahedron. -/
theorem isValid_tetrahedron_iff (t : Topo) (ht : VReachable t) (x y z w : Id) (hl : ∀ o ∈ [x, y, z, w], o ∈ (t.lvl 2).ors) :
    t.isValid 3 [x, y, z, w] = some true ∧ ([x, y, z, w].flatMap fun o => t.vertexSet 2 (t.fp 2 o)).toFinset.card = 4 ↔
      BoundsTetrahedron t [x, y, z, w] := by
  obtain ⟨ok, st⟩ := ht.ok
  constructor
  · rintro ⟨hv, hc⟩
    have htri : ∀ o ∈ [x, y, z, w], ∃ p : Id × Id × Id, TriO t o p.1 p.2.1 p.2.2 := by
      intro o ho
      obtain ⟨l, hl⟩ := exists_ofVertices ok.inv st (Or.inr (Or.inl rfl)) (hl o ho)
      match l, hl with
      | [a, b, c], hl => exact ⟨(a, b, c), hl⟩
    let T : Fin 4 → Id := ![x, y, z, w]
    have hT : ∀ i, T i ∈ [x, y, z, w] := by intro i; fin_cases i <;> simp [T]
    choose p hp using fun i => htri (T i) (hT i)
    let D : Fin 4 → List (Id × Id) := fun i => [((p i).1, (p i).2.1), ((p i).2.1, (p i).2.2), ((p i).2.2, (p i).1)]
    have hpairs : ∀ i, ∃ P, ((t.composition 2 (T i)).map fun x => (t.fp 1 x, t.sg 1 x * t.sg 2 (T i))).Perm P ∧
        List.Forall₂ (fun e d => EP t e d.1 d.2) P (D i) := by
      intro i
      obtain ⟨e1, e2, e3, h1, h2, h3, hP⟩ := TriO_pairs ok.inv (hl _ (hT i)) (hp i)
      exact ⟨_, hP, .cons h1 (.cons h2 (.cons h3 .nil))⟩
    choose P hP hD using hpairs
    have hperm : (t.netPairs 1 [x, y, z, w]).Perm (P 0 ++ (P 1 ++ (P 2 ++ P 3))) := by
      simp only [Topo.netPairs, List.flatMap_cons, List.flatMap_nil, List.append_nil]
      exact (hP 0).append ((hP 1).append ((hP 2).append (hP 3)))
    have hF : List.Forall₂ (fun e d => EP t e d.1 d.2) (P 0 ++ (P 1 ++ (P 2 ++ P 3))) (D 0 ++ (D 1 ++ (D 2 ++ D 3))) :=
      List.rel_append (hD 0) (List.rel_append (hD 1) (List.rel_append (hD 2) (hD 3)))
    rw [isValid_eq, checkPairs_perm hperm, checkPairs_true_iff] at hv
    obtain ⟨h6, h0⟩ := hv
    rw [keys_edges ok.inv st hF] at h6
    set V := ([x, y, z, w].flatMap fun o => t.vertexSet 2 (t.fp 2 o)).toFinset with hVdef
    have hpV : ∀ i, (p i).1 ∈ V ∧ (p i).2.1 ∈ V ∧ (p i).2.2 ∈ V := by
      intro i
      have hsub : VS t 2 (t.fp 2 (T i)) ⊆ V := by
        intro v hv
        rw [hVdef, List.mem_toFinset, List.mem_flatMap]
        exact ⟨_, hT i, by simpa [VS] using hv⟩
      have := TriO_VS (hp i)
      refine ⟨hsub ?_, hsub ?_, hsub ?_⟩ <;> rw [this] <;> simp
    have hDi : ∀ i, ∀ d ∈ D i, d ∈ D 0 ++ (D 1 ++ (D 2 ++ D 3)) := by
      intro i d hd
      simp only [List.mem_append]
      fin_cases i <;> simp_all
    have hDi' : ∀ d ∈ D 0 ++ (D 1 ++ (D 2 ++ D 3)), ∃ i, d ∈ D i := by
      intro d hd
      simp only [List.mem_append] at hd
      rcases hd with h | h | h | h
      exacts [⟨0, h⟩, ⟨1, h⟩, ⟨2, h⟩, ⟨3, h⟩]
    obtain ⟨a, b, c, d, hnd, x', y', z', w', hP', h1, h2, h3, h4⟩ := tetra_of_edges (t := t) hc hp hpV (by
      intro u hu v hv huv
      have := pairs4 _ hc (fun e he => ?_) h6 hu hv huv
      · rw [List.mem_toFinset, List.mem_map] at this
        obtain ⟨d, hd, he⟩ := this
        obtain ⟨i, hi⟩ := hDi' d hd
        have hu' : d.1 ∈ ({u, v} : Finset Id) := by rw [← he]; simp
        have hv' : d.2 ∈ ({u, v} : Finset Id) := by rw [← he]; simp
        have hu2 : u ∈ ({d.1, d.2} : Finset Id) := by rw [he]; simp
        have hv2 : v ∈ ({d.1, d.2} : Finset Id) := by rw [he]; simp
        simp only [Finset.mem_insert, Finset.mem_singleton] at hu' hv' hu2 hv2
        have hcase : d = (u, v) ∨ d = (v, u) := by
          rcases hu2 with h | h
          · rcases hv2 with h' | h'
            · exact absurd (h.trans h'.symm) huv
            · exact Or.inl (Prod.ext h.symm h'.symm)
          · rcases hv2 with h' | h'
            · exact Or.inr (Prod.ext h'.symm h.symm)
            · exact absurd (h.trans h'.symm) huv
        rcases hcase with rfl | rfl
        · exact ⟨i, hi⟩
        · exact hDi' _ (net_zero_edges ok.inv st hF h0 hd)
      · rw [List.mem_toFinset, List.mem_map] at he
        obtain ⟨d, hd, rfl⟩ := he
        obtain ⟨i, hi⟩ := hDi' d hd
        have hn := (hp i).nodup
        simp only [List.nodup_cons, List.mem_cons, List.not_mem_nil, or_false, not_or, not_false_eq_true, List.nodup_nil,
          and_true] at hn
        simp only [D, List.mem_cons, List.not_mem_nil, or_false] at hi
        have hsub : ∀ {u v : Id}, u ∈ V → v ∈ V → ({u, v} : Finset Id) ⊆ V := by
          intro u v hu hv r hr
          simp only [Finset.mem_insert, Finset.mem_singleton] at hr
          rcases hr with rfl | rfl <;> assumption
        rcases hi with rfl | rfl | rfl
        · exact ⟨hsub (hpV i).1 (hpV i).2.1, Finset.card_pair hn.1.1⟩
        · exact ⟨hsub (hpV i).2.1 (hpV i).2.2, Finset.card_pair hn.2⟩
        · exact ⟨hsub (hpV i).2.2 (hpV i).1, Finset.card_pair (Ne.symm hn.1.2)⟩)
    exact ⟨a, b, c, d, hnd, x', y', z', w', hP', IsTriangle_of_TriO h1, IsTriangle_of_TriO h2, IsTriangle_of_TriO h3,
      IsTriangle_of_TriO h4⟩
  · rintro ⟨a, b, c, d, hnd, x', y', z', w', hP, h1, h2, h3, h4⟩
    have hl' : ∀ o ∈ [x', y', z', w'], o ∈ (t.lvl 2).ors := fun o ho => hl o (hP.mem_iff.mpr ho)
    have g1 := TriO_of_isTriangle ok.inv st (hl' x' (by simp)) h1
    have g2 := TriO_of_isTriangle ok.inv st (hl' y' (by simp)) h2
    have g3 := TriO_of_isTriangle ok.inv st (hl' z' (by simp)) h3
    have g4 := TriO_of_isTriangle ok.inv st (hl' w' (by simp)) h4
    refine ⟨?_, ?_⟩
    · rw [isValid_perm t 3 _ _ hP]
      exact tetrahedron_valid ok.inv st hnd (hl' x' (by simp)) (hl' y' (by simp)) (hl' z' (by simp)) (hl' w' (by simp)) g1 g2 g3 g4
    · have : ([x, y, z, w].flatMap fun o => t.vertexSet 2 (t.fp 2 o)).toFinset = [a, b, c, d].toFinset := by
        ext v
        rw [List.mem_toFinset, List.mem_flatMap]
        have hm : ∀ o, (∃ r s u, TriO t o r s u ∧ (v = r ∨ v = s ∨ v = u)) → v ∈ t.vertexSet 2 (t.fp 2 o) := by
          rintro o ⟨r, s, u, h, hv⟩
          have := TriO_VS h
          have h2 : v ∈ VS t 2 (t.fp 2 o) := by rw [this]; simpa using hv
          simpa [VS] using h2
        have hm' : ∀ o r s u, TriO t o r s u → v ∈ t.vertexSet 2 (t.fp 2 o) → v = r ∨ v = s ∨ v = u := by
          intro o r s u h hv
          have h2 : v ∈ VS t 2 (t.fp 2 o) := by simpa [VS] using hv
          rw [TriO_VS h] at h2
          simpa using h2
        constructor
        · rintro ⟨o, ho, hv⟩
          have ho' := hP.mem_iff.mp ho
          simp only [List.mem_cons, List.not_mem_nil, or_false] at ho'
          rcases ho' with rfl | rfl | rfl | rfl
          · have := hm' _ _ _ _ g1 hv; simp; tauto
          · have := hm' _ _ _ _ g2 hv; simp; tauto
          · have := hm' _ _ _ _ g3 hv; simp; tauto
          · have := hm' _ _ _ _ g4 hv; simp; tauto
        · intro hv
          simp only [List.mem_toFinset, List.mem_cons, List.not_mem_nil, or_false] at hv
          by_cases hd : v = d
          · exact ⟨y', hP.mem_iff.mpr (by simp), hm _ ⟨_, _, _, g2, by tauto⟩⟩
          · exact ⟨x', hP.mem_iff.mpr (by simp), hm _ ⟨_, _, _, g1, by tauto⟩⟩
      rw [this, List.toFinset_card_of_nodup hnd]
      rfl

/-- **C83.**  So the sanity check of a simplex that was composed of four triangles tells whether it is a tetrahedron. -/
theorem sanityCheck_tetrahedron (t t' : Topo) (ht : VReachable t) (x y z w o : Id) (hl : ∀ o ∈ [x, y, z, w], o ∈ (t.lvl 2).ors)
    (hnd : [x, y, z, w].Nodup) (h : t.simplex 2 [x, y, z, w] = some (t', o)) :
    t'.sanityCheck 3 o = true ↔ BoundsTetrahedron t [x, y, z, w] := by
  obtain ⟨ok, st⟩ := ht.ok
  obtain ⟨hi', hle, ho, hv, hp, -, -, hfp⟩ := simplex_spec ok.inv hl rfl hnd h
  rw [← isValid_tetrahedron_iff t ht x y z w hl]
  have hVS : ∀ u ∈ [x, y, z, w], t'.vertexSet 2 (t'.fp 2 u) = t.vertexSet 2 (t.fp 2 u) := by
    intro u hu
    rw [hfp u hu, vertexSet_le ok.inv hle (ok.inv.fp_live 2 u (hl u hu))]
  have hmem : ∀ f, f ∈ (t'.compF 3 (t'.fp 3 o)).map (t'.fp 2) ↔ f ∈ [x, y, z, w].map (t.fp 2) := fun f => hp.mem_iff.symm
  have hset : (t'.vertexSet 3 (t'.fp 3 o)).toFinset = ([x, y, z, w].flatMap fun o => t.vertexSet 2 (t.fp 2 o)).toFinset := by
    ext v
    rw [List.mem_toFinset, mem_vertexSet_succ, List.mem_toFinset, List.mem_flatMap]
    constructor
    · rintro ⟨u, hu, hv⟩
      obtain ⟨u', hu', e⟩ := List.mem_map.mp ((hmem _).mp (List.mem_map_of_mem hu))
      refine ⟨u', hu', ?_⟩
      rw [← hVS u' hu', hfp u' hu', e]
      exact hv
    · rintro ⟨u, hu, hv⟩
      obtain ⟨u', hu', e⟩ := List.mem_map.mp ((hmem _).mpr (List.mem_map_of_mem hu))
      refine ⟨u', hu', ?_⟩
      rw [e, ← hfp u hu, hVS u hu]
      exact hv
  constructor
  · intro hs
    refine ⟨hv, ?_⟩
    rw [← hset]
    exact (sanityCheck_iff t' 3 o).mp hs 3 o .self
  · rintro ⟨-, h4⟩
    have hfaces : (t'.compF 3 (t'.fp 3 o)).all (fun x => t'.sanityCheck 2 x) = true := by
      rw [List.all_eq_true]
      intro u hu
      -- the sanity check of a triangle only looks at its footprint
      obtain ⟨u', hu', e⟩ := List.mem_map.mp ((hmem _).mp (List.mem_map_of_mem hu))
      have hcheck : t'.sanityCheck 2 u = t'.sanityCheck 2 u' := by
        simp only [Topo.sanityCheck, ← e, hfp u' hu']
      rw [hcheck, sanityCheck_le ok.inv hle (hl u' hu')]
      exact sanityCheck_of_vertices ht (by decide) (hl u' hu')
    simp only [Topo.sanityCheck, Bool.and_eq_true, beq_iff_eq] at hfaces ⊢
    refine ⟨hfaces, ?_⟩
    rw [← List.toFinset_card_of_nodup (vertexSet_nodup t' 3 _), hset, h4]

/-- the four faces of a tetrahedron, made one by one -/
@[irreducible] def tetraExample : Topo := (run (.init (List.range 60)) [.vertex, .vertex, .vertex, .vertex, .triangle 0 1 2,
  .triangle 1 3 2, .triangle 3 1 0, .triangle 3 0 2]).getD (.init [])

/-- two triangles and their flips -/
@[irreducible] def pillowExample : Topo := (run (.init (List.range 60)) [.vertex, .vertex, .vertex, .vertex, .vertex, .vertex,
  .triangle 0 1 2, .triangle 3 4 5, .flip 2 19, .flip 2 33]).getD (.init [])

/-- the hypotheses can be met -/
example : VReachable tetraExample ∧ (∀ o ∈ [32, 17, 26, 37], o ∈ (tetraExample.lvl 2).ors) ∧
    (∃ t' o, tetraExample.simplex 2 [32, 17, 26, 37] = some (t', o)) ∧ BoundsTetrahedron tetraExample [32, 17, 26, 37] := by
  have ht : VReachable tetraExample := ⟨List.range 60, [.vertex, .vertex, .vertex, .vertex, .triangle 0 1 2,
    .triangle 1 3 2, .triangle 3 1 0, .triangle 3 0 2], by decide, by unfold tetraExample; exact run_eq_some _ (by decide +kernel)⟩
  have hl : ∀ o ∈ [32, 17, 26, 37], o ∈ (tetraExample.lvl 2).ors := by decide +kernel
  obtain ⟨⟨t', o⟩, h⟩ : ∃ r, tetraExample.simplex 2 [32, 17, 26, 37] = some r :=
    Option.isSome_iff_exists.mp (by decide +kernel)
  exact ⟨ht, hl, ⟨t', o, h⟩, (isValid_tetrahedron_iff _ ht _ _ _ _ hl).mp (by decide +kernel)⟩

/-- the pillow is valid but does not bound a tetrahedron -/
example : VReachable pillowExample ∧ (∀ o ∈ [19, 34, 33, 35], o ∈ (pillowExample.lvl 2).ors) ∧
    pillowExample.isValid 3 [19, 34, 33, 35] = some true ∧ ¬ BoundsTetrahedron pillowExample [19, 34, 33, 35] := by
  have ht : VReachable pillowExample := ⟨List.range 60, [.vertex, .vertex, .vertex, .vertex, .vertex, .vertex,
    .triangle 0 1 2, .triangle 3 4 5, .flip 2 19, .flip 2 33], by decide, by unfold pillowExample; exact run_eq_some _ (by decide +kernel)⟩
  have hl : ∀ o ∈ [19, 34, 33, 35], o ∈ (pillowExample.lvl 2).ors := by decide +kernel
  refine ⟨ht, hl, by decide +kernel, fun h => ?_⟩
  have := ((isValid_tetrahedron_iff _ ht _ _ _ _ hl).mpr h).2
  revert this
  decide +kernel

end Mito.Topology
