import Verif.Props.Mesh
import Verif.Topology.HistoryLemmas
import Verif.Spec.Boundary

/-! # Helper lemmas for boundaries and filters -/

set_option linter.unusedSimpArgs false
set_option linter.unusedVariables false

namespace Mito.Topology

open Mito.Combinatorics

theorem vertexSet_live {t : Topo} (hi : Inv t) {N : Nat} {f v : Id} (hf : f ∈ (t.lvl N).fps)
    (hv : v ∈ t.vertexSet N f) : v ∈ (t.lvl 0).fps := by
  induction N generalizing f with
  | zero => simp [Topo.vertexSet] at hv; exact hv ▸ hf
  | succ N ih =>
    rw [mem_vertexSet_succ] at hv
    obtain ⟨o, ho, hv⟩ := hv
    exact ih (hi.fp_live N o (hi.comp_live N f hf o ho)) hv

theorem vertexSet_le {t t' : Topo} (hi : Inv t) (hle : Le t t') {N : Nat} {f : Id}
    (hf : f ∈ (t.lvl N).fps) : t'.vertexSet N f = t.vertexSet N f := by
  induction N generalizing f with
  | zero => rfl
  | succ N ih =>
    simp only [Topo.vertexSet]
    rw [hle.comp _ f hf]
    congr 2
    apply List.flatMap_congr
    intro o ho
    have hol := hi.comp_live N f hf o ho
    rw [hle.ofp N o hol, ih (hi.fp_live N o hol)]

theorem verticesOf_le {t t' : Topo} (hi : Inv t) (hle : Le t t') {N : Nat} {o : Id}
    (ho : o ∈ (t.lvl N).ors) : t'.verticesOf N o = t.verticesOf N o := by
  induction N generalizing o with
  | zero => simp [Topo.verticesOf, hle.ofp 0 o ho]
  | succ N ih =>
    have hf := hi.fp_live _ o ho
    have hl := hi.comp_live N _ hf
    cases N with
    | zero =>
      simp only [Topo.verticesOf, hle.ofp _ o ho, hle.comp _ _ hf, hle.osg _ o ho]
      rcases hc : t.compF 1 (t.fp 1 o) with _ | ⟨x, _ | ⟨y, l⟩⟩
      · rfl
      · rfl
      · rw [zero_add, hc] at hl
        simp only [hle.ofp 0 x (hl x (by simp)), hle.ofp 0 y (hl y (by simp))]
    | succ N =>
      simp only [Topo.verticesOf, hle.ofp _ o ho, hle.comp _ _ hf, hle.osg _ o ho]
      rcases hc : t.compF (N + 2) (t.fp (N + 2) o) with _ | ⟨x, _ | ⟨y, l⟩⟩
      · rfl
      · rfl
      · rw [hc] at hl
        have hy := hl y (by simp)
        simp only [ih (hl x (by simp)), hle.ofp _ y hy, vertexSet_le hi hle (hi.fp_live _ y hy)]

/-- the vertices of a simplex alive -/
theorem verticesOf_spec {t : Topo} (hi : Inv t) (hs : Std t) {n : Nat} (hn : n ≤ 3)
    {o : Id} (ho : o ∈ (t.lvl n).ors) :
    ∃ l, t.verticesOf n o = some l ∧ l.Nodup ∧ l.toFinset = VS t n (t.fp n o) ∧
      l.length = n + 1 := by
  rcases Nat.eq_zero_or_pos n with rfl | hpos
  · exact ⟨[t.fp 0 o], rfl, by simp, by simp [VS, Topo.vertexSet], rfl⟩
  · obtain ⟨m, hO⟩ := exists_ofVertices hi hs (by omega : n = 1 ∨ n = 2 ∨ n = 3) ho
    obtain ⟨l, hl, hsg⟩ := OfVertices_vertices hO
    obtain ⟨l', hF, hs'⟩ := OfVertices_iff hO
    have h1 := perm_of_permutationSign hsg
    have h2 := perm_of_permutationSign hs'
    have hlen : m.length = n + 1 := by
      match n, m, hO with
      | 1, [_, _], _ => rfl
      | 2, [_, _, _], _ => rfl
      | 3, [_, _, _, _], _ => rfl
    refine ⟨l, hl, ?_, ?_, by rw [h1.length_eq, hlen]⟩
    · exact (h1.trans h2).nodup_iff.mpr (FOfVertices_nodup hF)
    · rw [FOfVertices_VS hF]
      exact finset_eq_of_perm (h1.trans h2)

/-- asking for a simplex alive by its own vertices gives that simplex -/
theorem fromVertices_same {t t' : Topo} (ok : Ok t) (st : Std t) {n : Nat} {o o' : Id} {l : List Id}
    (hn : n = 1 ∨ n = 2 ∨ n = 3) (ho : o ∈ (t.lvl n).ors) (hl : t.verticesOf n o = some l)
    (h : t.fromVertices l = some (t', o')) :
    o' = o ∧ Ok t' ∧ Std t' ∧ Le t t' := by
  obtain ⟨l2, hl2, hnd2, hV, hlen⟩ := verticesOf_spec ok.inv st (by omega : n ≤ 3) ho
  rw [hl] at hl2
  obtain rfl := by simpa using hl2
  have hlive : ∀ v ∈ l, v ∈ (t.lvl 0).fps := by
    intro v hv
    have : v ∈ VS t n (t.fp n o) := by rw [← hV]; simpa using hv
    exact vertexSet_live ok.inv (ok.inv.fp_live n o ho) (by simpa [VS] using this)
  obtain ⟨k, hk, hlen', ok', st', le, ol', hO', _⟩ := fromVertices_spec ok st hlive h
  have hkn : k = n := by omega
  subst hkn
  refine ⟨?_, ok', st', le⟩
  obtain ⟨m, hO⟩ := exists_ofVertices ok'.inv st' hn (le.ors k ho)
  obtain ⟨l3, hl3, hs3⟩ := OfVertices_vertices hO
  rw [verticesOf_le ok.inv le ho, hl] at hl3
  obtain rfl := by simpa using hl3
  obtain ⟨h1, h2⟩ := OfVertices_related ok'.inv st' hn (le.ors k ho) ol' hO hO' hs3
  exact ok'.inv.oriented_unique ol' (le.ors k ho) h1 (by rw [h2, one_mul])

/-- the vertices of a triangle, in order -/
theorem TriF_vertices {t : Topo} {o a b c : Id} (h : TriF t (t.fp 2 o) a b c) :
    t.verticesOf 2 o = some (if t.sg 2 o = -1 then [b, a, c] else [a, b, c]) := by
  obtain ⟨n, x, y, z, e, p, q, r⟩ := h
  simp only [List.nodup_cons, List.mem_cons, List.not_mem_nil, or_false, not_or, not_false_eq_true,
    List.nodup_nil, and_true] at n
  have hfil : (t.vertexSet 1 (t.fp 1 y)).filter (· ∉ [a, b]) = [c] := by
    apply eq_singleton_of_mem ((vertexSet_nodup t 1 _).filter _)
    intro v
    have hv : v ∈ t.vertexSet 1 (t.fp 1 y) ↔ v = b ∨ v = c := by
      have := Finset.ext_iff.mp (SegO_VS q) v
      simpa [VS] using this
    simp only [List.mem_filter, hv, decide_eq_true_eq, List.mem_cons, List.not_mem_nil, or_false,
      not_or]
    constructor
    · rintro ⟨h1 | h1, h2, h3⟩
      · exact absurd h1 h3
      · exact h1
    · rintro rfl; exact ⟨Or.inr rfl, Ne.symm n.1.2, Ne.symm n.2⟩
  simp only [Topo.verticesOf, e]
  have e2 := SegO_vertices p
  simp only [Topo.verticesOf] at e2
  rw [e2]
  simp only [hfil]
  simp [swap01]

/-- `fromVertices_succeeds`, keeping track of the supply -/
theorem fromVertices_fresh {t : Topo} (hok : Ok t) (hst : Std t) {k : Nat} {l : List Id}
    (hlen : 2 ≤ l.length ∧ l.length ≤ 4) (hl : ∀ v ∈ l, v ∈ (t.lvl 0).fps) (hnd : l.Nodup)
    (hfr : Fresh t (k + 58)) : ∃ t' o, t.fromVertices l = some (t', o) ∧ Fresh t' k := by
  match l, hlen with
  | [a, b], _ =>
    simp only [List.mem_cons, List.not_mem_nil, or_false, forall_eq_or_imp, forall_eq] at hl
    exact segment_succeeds hok (hfr.mono (by omega)) hl.1 hl.2 (by simpa using hnd)
  | [a, b, c], _ =>
    simp only [List.mem_cons, List.not_mem_nil, or_false, forall_eq_or_imp, forall_eq] at hl
    exact triangle_succeeds hok hst (hfr.mono (by omega)) hl.1 hl.2.1 hl.2.2 hnd
  | [a, b, c, d], _ =>
    simp only [List.mem_cons, List.not_mem_nil, or_false, forall_eq_or_imp, forall_eq] at hl
    exact tetrahedron_succeeds hok hst hfr hl.1 hl.2.1 hl.2.2.1 hl.2.2.2 hnd
  | [], h => simp at h
  | [_], h => simp at h
  | _ :: _ :: _ :: _ :: _ :: _, h => simp at h

/-- the composition of a simplex alive is valid -/
theorem composition_valid {t : Topo} (h : Ok t) {N : Nat} {o : Id}
    (ho : o ∈ (t.lvl (N + 1)).ors) : t.isValid (N + 1) (t.composition (N + 1) o) = some true := by
  rw [← h.valid N _ (h.inv.fp_live _ o ho)]
  apply isValid_perm'
  unfold Topo.composition
  split
  · rcases t.compF (N + 1) (t.fp (N + 1) o) with _ | ⟨x, _ | ⟨y, l⟩⟩
    · exact List.Perm.refl _
    · exact List.Perm.refl _
    · exact List.Perm.swap _ _ _
  · exact List.Perm.refl _

end Mito.Topology

namespace Mito.Meshes

open Mito.Topology Mito.Combinatorics

/-! ### geometric simplices -/

theorem findNodes_spec {nodes : List Node} {vs : List Id} (h : ∀ v ∈ vs, ∃ n ∈ nodes, n.vertex = v) :
    ∃ ns, findNodes nodes vs = some ns ∧ ns.map (·.vertex) = vs ∧ ∀ n ∈ ns, n ∈ nodes := by
  induction vs with
  | nil => exact ⟨[], rfl, rfl, by simp⟩
  | cons v vs ih =>
    obtain ⟨ns, e1, e2, e3⟩ := ih fun w hw => h w (by simp [hw])
    obtain ⟨n, hn, hv⟩ := h v (by simp)
    rcases hf : nodes.find? (fun n => n.vertex = v) with _ | m
    · rw [List.find?_eq_none] at hf
      exact absurd hv (by simpa using hf n hn)
    · refine ⟨m :: ns, by simp [findNodes, hf, e1], ?_, ?_⟩
      · have := List.find?_some hf
        simp at this
        simp [this, e2]
      · intro k hk
        rcases List.mem_cons.mp hk with rfl | hk
        · exact List.mem_of_find?_eq_some hf
        · exact e3 k hk

/-- `t1` extends the well-formed topology `t` -/
structure Good (t t1 : Topo) : Prop where
  ok : Ok t1
  std : Std t1
  le : Le t t1

theorem Good.refl {t : Topo} (h : Ok t) (h' : Std t) : Good t t := ⟨h, h', Le.refl t⟩

theorem geometricSimplex_spec {t t1 : Topo} (h0 : Inv t) (hg : Good t t1) {n : Nat} (hn : n ≤ 3)
    {o : Id} (ho : o ∈ (t.lvl n).ors) {nodes : List Node}
    (hcov : ∀ v ∈ t.vertexSet n (t.fp n o), ∃ m ∈ nodes, m.vertex = v) :
    (∀ t2 d, geometricSimplex t1 n o nodes = some (t2, d) →
      Good t t2 ∧ Places t n (o, nodes) d) ∧
    (∀ k, Fresh t1 (k + 58) →
      ∃ t2 d, geometricSimplex t1 n o nodes = some (t2, d) ∧ Fresh t2 k) := by
  have ho1 := hg.le.ors n ho
  obtain ⟨l, hl, hnd, hV, hlen⟩ := verticesOf_spec hg.ok.inv hg.std hn ho1
  have hVt : ∀ v ∈ l, v ∈ t.vertexSet n (t.fp n o) := by
    intro v hv
    have hv' : v ∈ VS t1 n (t1.fp n o) := by rw [← hV]; simpa using hv
    rw [hg.le.ofp n o ho] at hv'
    have := vertexSet_le h0 hg.le (h0.fp_live n o ho)
    simpa [VS, this] using hv'
  have hl0 : t.verticesOf n o = some l := by rw [← verticesOf_le h0 hg.le ho, hl]
  obtain ⟨ns, e1, e2, e3⟩ := findNodes_spec fun v hv => hcov v (hVt v hv)
  cases n with
  | zero =>
    have hl1 : l = [t1.fp 0 o] := by simpa [Topo.verticesOf] using hl.symm
    obtain ⟨m, hm, hmv⟩ := hcov (t1.fp 0 o) (hVt _ (by simp [hl1]))
    rcases hf : nodes.find? (fun n => n.vertex = t1.fp 0 o) with _ | m'
    · rw [List.find?_eq_none] at hf
      exact absurd hmv (by simpa using hf m hm)
    · have hv : m'.vertex = t1.fp 0 o := by simpa using List.find?_some hf
      constructor
      · intro t2 d h
        simp only [geometricSimplex, hf, Option.some.injEq, Prod.mk.injEq] at h
        obtain ⟨rfl, rfl⟩ := h
        refine ⟨hg, rfl, ?_, ?_⟩
        · intro k hk
          simp at hk
          exact hk ▸ List.mem_of_find?_eq_some hf
        · change t.verticesOf 0 o = some [m'.vertex]
          rw [hl0, hl1, hv]
      · intro k hk
        exact ⟨t1, ⟨o, [m']⟩, by simp only [geometricSimplex, hf], hk.mono (by omega)⟩
  | succ n =>
    have hlive : ∀ v ∈ l, v ∈ (t1.lvl 0).fps := fun v hv =>
      hg.le.fps 0 (vertexSet_live h0 (h0.fp_live _ o ho) (hVt v hv))
    constructor
    · intro t2 d h
      simp only [geometricSimplex, hl, e1, mkCell, e2] at h
      split at h
      · simp at h
      · rename_i t3 o' hv
        simp only [Option.some.injEq, Prod.mk.injEq] at h
        obtain ⟨rfl, rfl⟩ := h
        obtain ⟨rfl, ok', st', le'⟩ :=
          fromVertices_same hg.ok hg.std (by omega : n + 1 = 1 ∨ n + 1 = 2 ∨ n + 1 = 3) ho1 hl hv
        exact ⟨⟨ok', st', hg.le.trans le'⟩, rfl, e3, by rw [hl0, e2]⟩
    · intro k hk
      obtain ⟨t2, o', h1, h2⟩ := fromVertices_fresh hg.ok hg.std (by omega) hlive hnd hk
      exact ⟨t2, ⟨o', ns⟩, by simp only [geometricSimplex, hl, e1, mkCell, e2, h1], h2⟩

/-! ### flips -/

theorem flip_cell_aux {t t' : Topo} (ok : Ok t) (st : Std t) {N : Nat} (hN : 1 ≤ N ∧ N ≤ 3)
    {c d : GCell} (hc : CellOk t N c) (h : c.flip t N = some (t', d)) :
    Good t t' ∧ CellOk t' N d ∧ t'.fp N d.simplex = t.fp N c.simplex ∧
      t'.sg N d.simplex = - t.sg N c.simplex ∧ d.nodes.Perm c.nodes ∧
      permutationSign (d.nodes.map (·.vertex)) (c.nodes.map (·.vertex)) = some (-1) := by
  obtain ⟨ho, hsane⟩ := hc
  unfold GCell.flip at h
  split at h
  · simp at h
  rename_i t1 o hf
  unfold Topo.flip at hf
  have hsv : - t.sg N c.simplex = 1 ∨ - t.sg N c.simplex = -1 := by
    rcases ok.inv.sg N _ ho with e | e <;> rw [e] <;> simp
  have hfp := ok.inv.fp_live N _ ho
  obtain ⟨ok1, le1, lo, f1, s1⟩ := orientedF_ok ok hfp hsv hf
  have st1 := orientedF_std ok st hfp hsv hf
  -- the vertices of the two simplices
  have hn : N = 1 ∨ N = 2 ∨ N = 3 := by omega
  obtain ⟨m, hO⟩ := exists_ofVertices ok1.inv st1 hn (le1.ors N ho)
  obtain ⟨m1, hO1⟩ := exists_ofVertices ok1.inv st1 hn lo
  obtain ⟨l, hl, hs⟩ := OfVertices_vertices hO
  obtain ⟨l1, hl1, hs1⟩ := OfVertices_vertices hO1
  obtain ⟨l', hl', hnd, hV, hlen⟩ := verticesOf_spec ok1.inv st1 hN.2 (le1.ors N ho)
  obtain ⟨l1', hl1', hnd1, hV1, hlen1⟩ := verticesOf_spec ok1.inv st1 hN.2 lo
  rw [hl] at hl'
  obtain rfl := by simpa using hl'
  rw [hl1] at hl1'
  obtain rfl := by simpa using hl1'
  have hfeq : t1.fp N o = t1.fp N c.simplex := by rw [f1, le1.ofp N _ ho]
  have hperm : l1.Perm l := by
    rw [List.perm_ext_iff_of_nodup hnd1 hnd]
    intro a
    rw [← List.mem_toFinset, ← List.mem_toFinset, hV, hV1, hfeq]
  obtain ⟨s, hsgn⟩ := permutationSign_some (a := l1) (b := l) (by rintro rfl; simp at hlen1) hnd hperm
  have hndm := (perm_of_permutationSign hs).nodup_iff.mp hnd
  have hrel := permutationSign_trans hnd
    (permutationSign_trans hnd1 (permutationSign_comm ((perm_of_permutationSign hs1).nodup_iff.mp hnd1) hs1)
      hsgn) hs
  have hsg := (OfVertices_related ok1.inv st1 hn (le1.ors N ho) lo hO hO1 hrel).2
  have hs' : s = -1 := by
    rw [s1, le1.osg N _ ho] at hsg
    rcases ok.inv.sg N _ ho with e | e <;> rw [e] at hsg <;> omega
  subst hs'
  -- the nodes cover the vertices
  have hl0 : t.verticesOf N c.simplex = some l := by rw [← verticesOf_le ok.inv le1 ho, hl]
  unfold GCell.sanityCheck at hsane
  rw [hl0] at hsane
  have hsane' : permutationSign l (c.nodes.map (·.vertex)) = some 1 := by simpa using hsane
  have hpn := perm_of_permutationSign hsane'
  have hcov : ∀ v ∈ t1.vertexSet N (t1.fp N o), ∃ m ∈ c.nodes, m.vertex = v := by
    intro v hv
    have : v ∈ l1 := by
      rw [← List.mem_toFinset, hV1]
      simpa [VS] using hv
    have := hpn.mem_iff.mp (hperm.mem_iff.mp this)
    simpa using this
  obtain ⟨g, h1, h2, h3⟩ := (geometricSimplex_spec ok1.inv (Good.refl ok1 st1) hN.2 lo hcov).1 _ _ h
  dsimp only at h1 h2 h3
  rw [hl1] at h3
  have hdn : d.nodes.map (·.vertex) = l1 := by simpa using h3.symm
  have hne : l1 ≠ [] := by rintro rfl; simp at hlen1
  refine ⟨⟨g.ok, g.std, le1.trans g.le⟩, ⟨by rw [h1]; exact g.le.ors N lo, ?_⟩, ?_, ?_, ?_, ?_⟩
  · unfold GCell.sanityCheck
    rw [h1, verticesOf_le ok1.inv g.le lo, hl1, hdn]
    simp [permutationSign_refl hne hnd1]
  · rw [h1, g.le.ofp N _ lo, f1]
  · rw [h1, g.le.osg N _ lo, s1]
  · have hd : d.nodes.Nodup := List.Nodup.of_map _ (hdn ▸ hnd1)
    refine (List.subperm_of_subset hd h2).perm_of_length_le ?_
    have e1 := congrArg List.length hdn
    have e2 := hpn.length_eq
    simp only [List.length_map] at e1 e2
    omega
  · rw [hdn]
    have := permutationSign_trans hnd hsgn hsane'
    simpa using this

theorem flip_cell_defined_aux {t : Topo} (ok : Ok t) (st : Std t) {N : Nat} (hN : 1 ≤ N ∧ N ≤ 3)
    {c : GCell} (hc : CellOk t N c) (hfr : Fresh t 59) : ∃ t' d, c.flip t N = some (t', d) := by
  obtain ⟨ho, hsane⟩ := hc
  have hsv : - t.sg N c.simplex = 1 ∨ - t.sg N c.simplex = -1 := by
    rcases ok.inv.sg N _ ho with e | e <;> rw [e] <;> simp
  have hfp := ok.inv.fp_live N _ ho
  obtain ⟨t1, o, hf, hfr1⟩ := orientedF_succeeds (k := 58) hfr N (t.fp N c.simplex) (- t.sg N c.simplex)
  obtain ⟨ok1, le1, lo, f1, s1⟩ := orientedF_ok ok hfp hsv hf
  have st1 := orientedF_std ok st hfp hsv hf
  obtain ⟨l, hl, hnd, hV, hlen⟩ := verticesOf_spec ok.inv st hN.2 ho
  unfold GCell.sanityCheck at hsane
  rw [hl] at hsane
  have hsane' : permutationSign l (c.nodes.map (·.vertex)) = some 1 := by simpa using hsane
  have hpn := perm_of_permutationSign hsane'
  have hcov : ∀ v ∈ t1.vertexSet N (t1.fp N o), ∃ m ∈ c.nodes, m.vertex = v := by
    intro v hv
    rw [f1, vertexSet_le ok.inv le1 hfp] at hv
    have : v ∈ l := by
      rw [← List.mem_toFinset, hV]
      simpa [VS] using hv
    simpa using hpn.mem_iff.mp this
  obtain ⟨t2, d, h2, _⟩ :=
    (geometricSimplex_spec ok1.inv (Good.refl ok1 st1) hN.2 lo hcov).2 0 (hfr1.mono (by omega))
  refine ⟨t2, d, ?_⟩
  unfold GCell.flip Topo.flip
  rw [hf]
  exact h2

/-! ### loops -/

/-- what a round does: it extends the topology and inserts cells related to `g x`; it succeeds when
there are `cost x` fresh addresses -/
def RoundSpec {β γ δ : Type} (t : Topo) (R : δ → γ → Prop) (f : Topo → β → Option (Topo × List γ))
    (g : β → List δ) (cost : β → Nat) (x : β) : Prop :=
  ∀ t1, Good t t1 →
    (∀ t2 r, f t1 x = some (t2, r) → Good t t2 ∧ List.Forall₂ R (g x) r) ∧
    (∀ k, Fresh t1 (k + cost x) → ∃ t2 r, f t1 x = some (t2, r) ∧ Fresh t2 k)

theorem loop_spec {β γ δ : Type} {t : Topo} {R : δ → γ → Prop}
    {f : Topo → β → Option (Topo × List γ)} {g : β → List δ} {cost : β → Nat} {l : List β}
    (h : ∀ x ∈ l, RoundSpec t R f g cost x) :
    ∀ t1, Good t t1 →
    (∀ t2 r, loop f t1 l = some (t2, r) → Good t t2 ∧ List.Forall₂ R (l.flatMap g) r) ∧
    (∀ k, Fresh t1 (k + (l.map cost).sum) → ∃ t2 r, loop f t1 l = some (t2, r) ∧ Fresh t2 k) := by
  induction l with
  | nil =>
    intro t1 hg
    constructor
    · intro t2 r hr
      simp only [loop, Option.some.injEq, Prod.mk.injEq] at hr
      obtain ⟨rfl, rfl⟩ := hr
      exact ⟨hg, by simp⟩
    · intro k hk
      exact ⟨t1, [], rfl, by simpa using hk⟩
  | cons x xs ih =>
    intro t1 hg
    obtain ⟨h1, h2⟩ := h x (by simp) t1 hg
    have ih' := ih fun y hy => h y (by simp [hy])
    constructor
    · intro t2 r hr
      simp only [loop] at hr
      split at hr
      · simp at hr
      · rename_i t3 r1 e1
        obtain ⟨hg3, hR⟩ := h1 _ _ e1
        split at hr
        · simp at hr
        · rename_i t4 r2 e2
          simp only [Option.some.injEq, Prod.mk.injEq] at hr
          obtain ⟨rfl, rfl⟩ := hr
          obtain ⟨hg4, hR'⟩ := (ih' t3 hg3).1 _ _ e2
          exact ⟨hg4, by rw [List.flatMap_cons]; exact List.rel_append hR hR'⟩
    · intro k hk
      simp only [List.map_cons, List.sum_cons] at hk
      obtain ⟨t2, r, e1, e2⟩ := h2 (k + (xs.map cost).sum)
        (by rw [show k + (xs.map cost).sum + cost x = k + (cost x + (xs.map cost).sum) by omega]
            exact hk)
      obtain ⟨hg2, _⟩ := h1 _ _ e1
      obtain ⟨t3, r', e3, e4⟩ := (ih' t2 hg2).2 k e2
      exact ⟨t3, r ++ r', by simp [loop, e1, e3], e4⟩

/-- the round that builds one geometric simplex -/
theorem round_geometricSimplex {t : Topo} (h0 : Inv t) {n : Nat} (hn : n ≤ 3) {nodes : List Node}
    {x : Id} (hx : x ∈ (t.lvl n).ors)
    (hcov : ∀ v ∈ t.vertexSet n (t.fp n x), ∃ m ∈ nodes, m.vertex = v) :
    RoundSpec t (Places t n) (fun t1 x =>
      match geometricSimplex t1 n x nodes with
      | none => none
      | some (t1, d) => some (t1, [d])) (fun x => [(x, nodes)]) (fun _ => 58) x := by
  intro t1 hg
  obtain ⟨h1, h2⟩ := geometricSimplex_spec h0 hg hn hx hcov
  constructor
  · intro t2 r hr
    dsimp only at hr
    split at hr
    · simp at hr
    · rename_i t3 d e
      simp only [Option.some.injEq, Prod.mk.injEq] at hr
      obtain ⟨rfl, rfl⟩ := hr
      obtain ⟨hg3, hp⟩ := h1 _ _ e
      exact ⟨hg3, by simp [hp]⟩
  · intro k hk
    obtain ⟨t2, d, e1, e2⟩ := h2 k hk
    exact ⟨t2, [d], by simp only [e1], e2⟩

/-! ### cells and their subcells -/

/-- the nodes of a cell sit on all its vertices -/
theorem CellOk.cover {t : Topo} (hi : Inv t) (hs : Std t) {n : Nat} (hn : n ≤ 3) {c : GCell}
    (h : CellOk t n c) : ∀ v ∈ t.vertexSet n (t.fp n c.simplex), ∃ m ∈ c.nodes, m.vertex = v := by
  obtain ⟨ho, hc⟩ := h
  obtain ⟨l, hl, _, hV, _⟩ := verticesOf_spec hi hs hn ho
  simp only [GCell.sanityCheck, hl, beq_iff_eq] at hc
  intro v hv
  have : v ∈ l := by
    have : v ∈ l.toFinset := by rw [hV]; simpa [VS] using hv
    simpa using this
  have := (perm_of_permutationSign hc).mem_iff.mp this
  simpa using this

theorem cover_sub {t : Topo} (hi : Inv t) {n : Nat} {o : Id} {nodes : List Node}
    (h : ∀ v ∈ t.vertexSet (n + 1) (t.fp (n + 1) o), ∃ m ∈ nodes, m.vertex = v) {x : Id}
    (hx : x ∈ t.composition (n + 1) o) :
    ∀ v ∈ t.vertexSet n (t.fp n x), ∃ m ∈ nodes, m.vertex = v := by
  intro v hv
  refine h v ?_
  rw [mem_vertexSet_succ]
  refine ⟨x, ?_, hv⟩
  unfold Topo.composition at hx
  split at hx
  · rcases hc : t.compF (n + 1) (t.fp (n + 1) o) with _ | ⟨a, _ | ⟨b, l⟩⟩ <;>
      rw [hc] at hx <;> simp [swap01] at hx ⊢ <;> tauto
  · exact hx

theorem mem_facets {t : Topo} {N : Nat} {c : GCell} {f : Nat × Int} :
    f ∈ facets t N c ↔ ∃ x ∈ t.composition (N + 1) c.simplex, (t.fp N x, t.sg N x) = f := by
  simp [facets]

/-! ### the boundary -/

theorem facets_sign {t : Topo} (hi : Inv t) {N : Nat} {c : GCell} (hc : c.simplex ∈ (t.lvl (N + 1)).ors) :
    ∀ f ∈ facets t N c, f.2 = 1 ∨ f.2 = -1 := by
  intro f hf
  obtain ⟨x, hx, rfl⟩ := mem_facets.mp hf
  exact hi.sg N x (composition_live hi hc x hx)

section boundary

variable {t : Topo} {N : Nat} {m : Mesh GCell} {s : SegVec.Abs GCell} {known : Finset Nat}
  {cells : List GCell}

theorem isOnBoundary_facet (hi : Inv t) (hm : Reachable (facets t N) m s known)
    (hcl : m.cellList = some cells) (hlive : ∀ c ∈ cells, c.simplex ∈ (t.lvl (N + 1)).ors)
    {c : GCell} (hc : c ∈ cells) {x : Id} (hx : x ∈ t.composition (N + 1) c.simplex) :
    m.isOnBoundary (t.fp N x, t.sg N x) = some (decide (Unpaired t N cells x)) := by
  have hxl := composition_live hi (hlive c hc) x hx
  obtain ⟨h1, h2⟩ := isOnBoundary_iff hm cells hcl (fun c hc => facets_sign hi (hlive c hc))
    (t.fp N x) (t.sg N x) (hi.sg N x hxl)
  have hocc : ∃ c ∈ cells, ∃ f ∈ facets t N c, f.1 = t.fp N x :=
    ⟨c, hc, _, mem_facets.mpr ⟨x, hx, rfl⟩, rfl⟩
  rcases hb : m.isOnBoundary (t.fp N x, t.sg N x) with _ | b
  · obtain ⟨c', hc', f, hf, e⟩ := hocc
    exact absurd e (h1.mp hb c' hc' f hf)
  · congr 1
    cases b with
    | true => exact (decide_eq_true (p := Unpaired t N cells x) (h2.mp hb).2).symm
    | false =>
      symm
      rw [decide_eq_false_iff_not]
      intro hu
      have := h2.mpr ⟨hocc, hu⟩
      rw [hb] at this
      simp at this

theorem filterOnBoundary_spec {t1 : Topo} (hi : Inv t) (hg : Good t t1)
    (hm : Reachable (facets t N) m s known)
    (hcl : m.cellList = some cells) (hlive : ∀ c ∈ cells, c.simplex ∈ (t.lvl (N + 1)).ors)
    {c : GCell} (hc : c ∈ cells) {l : List Id} (hl : ∀ x ∈ l, x ∈ t.composition (N + 1) c.simplex) :
    filterOnBoundary m t1 N l = some (l.filter fun x => Unpaired t N cells x) := by
  induction l with
  | nil => rfl
  | cons x xs ih =>
    have hx := hl x (by simp)
    have hxl := composition_live hi (hlive c hc) x hx
    simp only [filterOnBoundary, hg.le.ofp N x hxl, hg.le.osg N x hxl,
      isOnBoundary_facet hi hm hcl hlive hc hx, ih fun y hy => hl y (by simp [hy])]
    by_cases hu : Unpaired t N cells x <;> simp [hu]

theorem boundaryFacets_eq (t : Topo) (N : Nat) (cells : List GCell) :
    boundaryFacets t N cells = cells.flatMap fun c =>
      ((t.composition (N + 1) c.simplex).filter fun x => Unpaired t N cells x).map
        fun x => (x, c.nodes) := by
  unfold boundaryFacets occurrences
  rw [List.filter_flatMap]
  apply List.flatMap_congr
  intro c _
  rw [List.filter_map]
  rfl

theorem boundarySize_spec (hok : Ok t) (hst : Std t) (hm : Reachable (facets t N) m s known)
    (hcl : m.cellList = some cells) (hlive : ∀ c ∈ cells, c.simplex ∈ (t.lvl (N + 1)).ors) :
    boundarySize t N m = some (boundaryFacets t N cells).length := by
  have h : ∀ cs : List GCell, (∀ c ∈ cs, c ∈ cells) →
      (cs.mapM fun c => filterOnBoundary m t N (t.composition (N + 1) c.simplex)) =
        some (cs.map fun c =>
          (t.composition (N + 1) c.simplex).filter fun x => Unpaired t N cells x) := by
    intro cs
    induction cs with
    | nil => intro _; rfl
    | cons c cs ih =>
      intro hcs
      rw [List.mapM_cons, ih fun d hd => hcs d (by simp [hd]),
        filterOnBoundary_spec hok.inv (Good.refl hok hst) hm hcl hlive (hcs c (by simp))
          fun x hx => hx]
      rfl
  simp only [boundarySize, hcl, h cells fun _ h => h]
  rw [boundaryFacets_eq, List.length_flatMap, List.map_map]
  simp [Function.comp_def]

theorem round_boundaryOfCell (hok : Ok t) (hst : Std t) (hN : N ≤ 2)
    (hm : Reachable (facets t N) m s known)
    (hcl : m.cellList = some cells) (hcell : ∀ c ∈ cells, CellOk t (N + 1) c)
    {c : GCell} (hc : c ∈ cells) :
    RoundSpec t (Places t N) (boundaryOfCell N m)
      (fun c => ((t.composition (N + 1) c.simplex).filter fun x => Unpaired t N cells x).map
        fun x => (x, c.nodes)) (fun _ => 58 * (N + 2)) c := by
  intro t1 hg
  have hcl' := (hcell c hc).1
  have hcomp : t1.composition (N + 1) c.simplex = t.composition (N + 1) c.simplex :=
    composition_le hok.inv hg.le hcl'
  have hlen : (t.composition (N + 1) c.simplex).length = N + 2 := by
    have := hok.inv.comp_len N _ (hok.inv.fp_live _ _ hcl')
    rw [← this]
    unfold Topo.composition
    split
    · rcases t.compF (N + 1) (t.fp (N + 1) c.simplex) with _ | ⟨x, _ | ⟨y, l⟩⟩ <;> rfl
    · rfl
  have hf := filterOnBoundary_spec hok.inv hg hm hcl (fun c hc => (hcell c hc).1) hc
    (l := t.composition (N + 1) c.simplex) fun x hx => hx
  have hround := loop_spec (t := t) (R := Places t N)
    (g := fun x => [(x, c.nodes)]) (cost := fun _ => 58)
    (l := (t.composition (N + 1) c.simplex).filter fun x => Unpaired t N cells x)
    (fun x hx => round_geometricSimplex (n := N) hok.inv (by omega)
      (composition_live hok.inv hcl' x (List.mem_filter.mp hx).1)
      (cover_sub hok.inv ((hcell c hc).cover hok.inv hst (by omega)) (List.mem_filter.mp hx).1)) t1 hg
  simp only [boundaryOfCell, hcomp, hf]
  constructor
  · intro t2 r hr
    have := hround.1 t2 r hr
    rwa [← List.map_eq_flatMap] at this
  · intro k hk
    apply hround.2 k
    apply hk.mono
    have : ((t.composition (N + 1) c.simplex).filter fun x => Unpaired t N cells x).length ≤ N + 2 := by
      rw [← hlen]; exact List.length_filter_le _ _
    simp only [List.map_const', List.sum_replicate, smul_eq_mul]
    omega

theorem boundary_spec' (hok : Ok t) (hst : Std t) (hN : N ≤ 2)
    (hm : Reachable (facets t N) m s known)
    (hcl : m.cellList = some cells) (hcell : ∀ c ∈ cells, CellOk t (N + 1) c) :
    (∀ t' B, boundary t N m = some (t', B) →
      Good t t' ∧ List.Forall₂ (Places t N) (boundaryFacets t N cells) B) ∧
    (∀ k, Fresh t (k + 58 * (N + 2) * cells.length) →
      ∃ t' B, boundary t N m = some (t', B) ∧ Fresh t' k) := by
  have h := loop_spec (l := cells)
    (fun c hc => round_boundaryOfCell hok hst hN hm hcl hcell hc) t (Good.refl hok hst)
  simp only [boundary, hcl]
  rw [boundaryFacets_eq]
  refine ⟨h.1, fun k hk => h.2 k ?_⟩
  simp only [List.map_const', List.sum_replicate, smul_eq_mul]
  rwa [Nat.mul_comm cells.length]

end boundary

/-! ### filters -/

theorem sum_mul_left {β : Type} (l : List β) (a : Nat) (f : β → Nat) :
    (l.map fun x => a * f x).sum = a * (l.map f).sum := by
  induction l with
  | nil => simp
  | cons x xs ih => simp [ih, mul_add]

theorem sum_mul_right {β : Type} (l : List β) (a : Nat) (f : β → Nat) :
    (l.map fun x => f x * a).sum = (l.map f).sum * a := by
  induction l with
  | nil => simp
  | cons x xs ih => simp [ih, add_mul]

theorem composition_length {t : Topo} (hi : Inv t) {N : Nat} {o : Id}
    (ho : o ∈ (t.lvl (N + 1)).ors) : (t.composition (N + 1) o).length = N + 2 := by
  have := hi.comp_len N _ (hi.fp_live _ _ ho)
  rw [← this]
  unfold Topo.composition
  split
  · rcases t.compF (N + 1) (t.fp (N + 1) o) with _ | ⟨x, _ | ⟨y, l⟩⟩ <;> rfl
  · rfl

theorem subcells_length {t : Topo} (hi : Inv t) {I d : Nat} {o : Id} (ho : o ∈ (t.lvl (I + d)).ors) :
    (subcells t I d o).length * (I + 1).factorial = (I + d + 1).factorial := by
  induction d generalizing o with
  | zero => simp [subcells]
  | succ d ih =>
    have hl := composition_live hi (N := I + d) ho
    have hlen := composition_length hi (N := I + d) ho
    simp only [subcells, List.length_flatMap]
    rw [← sum_mul_right,
      List.map_congr_left (g := fun _ => (I + d + 1).factorial) fun x hx => ih (hl x hx)]
    simp only [List.map_const', List.sum_replicate, smul_eq_mul]
    rw [hlen]
    exact (Nat.factorial_succ (I + d + 1)).symm

theorem round_filterSub {t : Topo} (hok : Ok t) {I d : Nat} (hd : I + d ≤ 3) {nodes : List Node}
    {o : Id} (ho : o ∈ (t.lvl (I + d)).ors)
    (hcov : ∀ v ∈ t.vertexSet (I + d) (t.fp (I + d) o), ∃ m ∈ nodes, m.vertex = v) :
    RoundSpec t (Places t I) (filterSub I nodes d)
      (fun o => (subcells t I d o).map fun x => (x, nodes))
      (fun o => 58 * (subcells t I d o).length) o := by
  induction d generalizing o with
  | zero =>
    intro t1 hg
    obtain ⟨h1, h2⟩ := geometricSimplex_spec hok.inv hg (by omega) ho hcov
    constructor
    · intro t2 r hr
      simp only [filterSub] at hr
      split at hr
      · simp at hr
      · rename_i t3 d e
        simp only [Option.some.injEq, Prod.mk.injEq] at hr
        obtain ⟨rfl, rfl⟩ := hr
        obtain ⟨hg3, hp⟩ := h1 _ _ e
        exact ⟨hg3, by simpa [subcells] using hp⟩
    · intro k hk
      obtain ⟨t2, d, e1, e2⟩ := h2 k hk
      rw [Nat.add_zero] at e1
      exact ⟨t2, [d], by simp only [filterSub, e1], e2⟩
  | succ d ih =>
    intro t1 hg
    have hcomp : t1.composition (I + d + 1) o = t.composition (I + d + 1) o :=
      composition_le hok.inv hg.le ho
    have h := loop_spec (l := t.composition (I + d + 1) o)
      (fun x hx => ih (by omega) (composition_live hok.inv (N := I + d) ho x hx)
        (cover_sub hok.inv (n := I + d) hcov hx)) t1 hg
    simp only [filterSub, hcomp]
    constructor
    · intro t2 r hr
      have := h.1 t2 r hr
      simp only [subcells, List.map_flatMap]
      exact this
    · intro k hk
      apply h.2 k
      convert hk using 2
      simp only [subcells, List.length_flatMap]
      rw [sum_mul_left]

theorem filter_spec' {t : Topo} (hok : Ok t) (hst : Std t) {I d : Nat} (hd : I + d + 1 ≤ 3)
    {m : Mesh GCell} {cells : List GCell} (hcl : m.cellList = some cells)
    (hcell : ∀ c ∈ cells, CellOk t (I + d + 1) c) :
    (∀ t' L, filter t I d m = some (t', L) → Good t t' ∧
      List.Forall₂ (Places t I)
        (cells.flatMap fun c => (subcells t I (d + 1) c.simplex).map fun x => (x, c.nodes)) L) ∧
    (∀ k, Fresh t (k + 58 * (cells.map fun c => (subcells t I (d + 1) c.simplex).length).sum) →
      ∃ t' L, filter t I d m = some (t', L) ∧ Fresh t' k) := by
  have hr : ∀ c ∈ cells, RoundSpec t (Places t I)
      (fun t c => filterSub I c.nodes (d + 1) t c.simplex)
      (fun c => (subcells t I (d + 1) c.simplex).map fun x => (x, c.nodes))
      (fun c => 58 * (subcells t I (d + 1) c.simplex).length) c := by
    intro c hc
    have h1 := hcell c hc
    exact round_filterSub hok (d := d + 1) (by omega) h1.1 (h1.cover hok.inv hst (by omega))
  have h := loop_spec hr t (Good.refl hok hst)
  simp only [filter, hcl]
  refine ⟨h.1, fun k hk => h.2 k ?_⟩
  rwa [sum_mul_left]

/-! ### the boundary of the boundary -/

theorem net_nil (k : Id) : net [] k = 0 := rfl

theorem net_append (l l' : List (Id × Int)) (k : Id) : net (l ++ l') k = net l k + net l' k := by
  simp [net]

theorem net_flatMap {β : Type} (l : List β) (f : β → List (Id × Int)) (k : Id) :
    net (l.flatMap f) k = (l.map fun x => net (f x) k).sum := by
  induction l with
  | nil => rfl
  | cons x xs ih => rw [List.flatMap_cons, net_append, ih]; rfl

theorem net_eq_zero_of_not_mem {l : List (Id × Int)} {k : Id} (h : k ∉ l.map (·.1)) :
    net l k = 0 := by
  unfold net
  have : l.filter (·.1 = k) = [] := by
    rw [List.filter_eq_nil_iff]
    intro a ha
    simp only [decide_eq_true_eq]
    rintro rfl
    exact h (List.mem_map.mpr ⟨a, ha, rfl⟩)
  rw [this]; rfl

theorem isValid_net {t : Topo} {M : Nat} {c : List Id} (h : t.isValid (M + 2) c = some true) (k : Id) :
    net (t.netPairs M c) k = 0 := by
  rw [isValid_eq, checkPairs_true_iff] at h
  by_cases hk : k ∈ (t.netPairs M c).map (·.1)
  · exact h.2 k hk
  · exact net_eq_zero_of_not_mem hk

/-- what the facet with footprint `f`, taken positively, contributes at `k` -/
def weight (t : Topo) (M : Nat) (k f : Id) : Int :=
  net ((t.compF (M + 1) f).map fun y => (t.fp M y, t.sg M y)) k

theorem net_smul {β : Type} (l : List β) (f : β → Id) (g : β → Int) (a : Int) (k : Id) :
    net (l.map fun y => (f y, g y * a)) k = a * net (l.map fun y => (f y, g y)) k := by
  induction l with
  | nil => simp [net]
  | cons x xs ih =>
    have e1 : ∀ h : β → Int, net ((x :: xs).map fun y => (f y, h y)) k =
        (if f x = k then h x else 0) + net (xs.map fun y => (f y, h y)) k := by
      intro h
      simp only [net, List.map_cons, List.filter_cons]
      by_cases hx : f x = k <;> simp [hx]
    rw [e1 fun y => g y * a, ih, e1 g]
    by_cases hx : f x = k <;> simp [hx, mul_add, mul_comm]

theorem net_contribution (t : Topo) (M : Nat) (k x : Id) :
    net ((t.composition (M + 1) x).map fun y => (t.fp M y, t.sg M y * t.sg (M + 1) x)) k =
      t.sg (M + 1) x * weight t M k (t.fp (M + 1) x) := by
  rw [net_smul]
  congr 1
  apply net_perm
  apply List.Perm.map
  unfold Topo.composition
  split
  · rcases t.compF (M + 1) (t.fp (M + 1) x) with _ | ⟨a, _ | ⟨b, l⟩⟩
    · exact List.Perm.refl _
    · exact List.Perm.refl _
    · exact List.Perm.swap _ _ _
  · exact List.Perm.refl _

theorem net_netPairs (t : Topo) (M : Nat) (l : List Id) (k : Id) :
    net (t.netPairs M l) k =
      ((l.map fun x => (t.fp (M + 1) x, t.sg (M + 1) x)).map fun f => f.2 * weight t M k f.1).sum := by
  unfold Topo.netPairs
  rw [net_flatMap, List.map_map]
  congr 1
  apply List.map_congr_left
  intro x _
  exact net_contribution t M k x

/-- oriented facets that occur with both orientations cancel, if none occurs twice -/
theorem paired_cancel {F : List (Nat × Int)} (hnd : F.Nodup) (hs : ∀ f ∈ F, f.2 = 1 ∨ f.2 = -1)
    (w : Nat → Int) :
    ((F.filter fun f => (f.1, -f.2) ∈ F).map fun f => f.2 * w f.1).sum = 0 := by
  have hnd' : (F.filter fun f => (f.1, -f.2) ∈ F).Nodup := hnd.filter _
  rw [← List.sum_toFinset _ hnd']
  refine Finset.sum_involution (fun f _ => (f.1, -f.2)) ?_ ?_ ?_ ?_
  · intro f hf; simp
  · intro f hf h0 e
    have h1 := congrArg Prod.snd e
    simp only at h1
    simp only [List.mem_toFinset, List.mem_filter] at hf
    rcases hs f hf.1 with h2 | h2 <;> omega
  · intro f hf
    simp only [List.mem_toFinset, List.mem_filter, decide_eq_true_eq, neg_neg] at hf ⊢
    exact ⟨hf.2, hf.1⟩
  · intro f hf; simp

theorem sum_filter_split {β : Type} (l : List β) (p : β → Bool) (v : β → Int) :
    (l.map v).sum = ((l.filter p).map v).sum + ((l.filter fun x => !p x).map v).sum := by
  induction l with
  | nil => simp
  | cons x xs ih =>
    by_cases hx : p x <;> simp [hx, ih] <;> ring

/-- a facet without opposite has non-zero net orientation -/
theorem net_ne_zero {F : List (Nat × Int)} (hs : ∀ f ∈ F, f.2 = 1 ∨ f.2 = -1) {k : Nat} {σ : Int}
    (h : (k, σ) ∈ F) (hn : (k, -σ) ∉ F) : net F k ≠ 0 := by
  have hσ := hs _ h
  simp only at hσ
  have hall : ∀ f ∈ F.filter (·.1 = k), f = (k, σ) := by
    rintro ⟨f1, f2⟩ hf
    simp only [List.mem_filter, decide_eq_true_eq] at hf
    obtain ⟨hf, rfl⟩ := hf
    have h2 := hs _ hf
    simp only at h2
    have : f2 ≠ -σ := by rintro rfl; exact hn hf
    have : f2 = σ := by omega
    rw [this]
  have e : F.filter (·.1 = k) = List.replicate (F.filter (·.1 = k)).length (k, σ) :=
    List.eq_replicate_of_mem hall
  have hpos : 0 < (F.filter (·.1 = k)).length :=
    List.length_pos_of_mem (List.mem_filter.mpr ⟨h, by simp⟩)
  unfold net
  rw [e, List.map_replicate, List.sum_replicate]
  simp only [nsmul_eq_mul, ne_eq, mul_eq_zero, not_or]
  omega

theorem places_simplex {t : Topo} {N : Nat} {X : List (Id × List Node)} {B : List GCell}
    (h : List.Forall₂ (Places t N) X B) : B.map (·.simplex) = X.map (·.1) := by
  induction h with
  | nil => rfl
  | cons h _ ih => simp [ih, h.1]

theorem forall₂_mem {β γ : Type} {R : β → γ → Prop} {X : List β} {B : List γ}
    (h : List.Forall₂ R X B) {d : γ} (hd : d ∈ B) : ∃ x ∈ X, R x d := by
  induction h with
  | nil => simp at hd
  | cons h _ ih =>
    rcases List.mem_cons.mp hd with rfl | hd
    · exact ⟨_, by simp, h⟩
    · obtain ⟨x, h1, h2⟩ := ih hd
      exact ⟨x, by simp [h1], h2⟩

/-- `boundary` looks at the cells and the orientation map only -/
theorem boundary_congr {t : Topo} {N : Nat} {m m' : Mesh GCell} (h1 : m.cellList = m'.cellList)
    (h2 : m.orient = m'.orient) : boundary t N m = boundary t N m' := by
  have e : ∀ (t : Topo) l, filterOnBoundary m t N l = filterOnBoundary m' t N l := by
    intro t l
    induction l with
    | nil => rfl
    | cons x xs ih => simp only [filterOnBoundary, ih, Mesh.isOnBoundary, h2]
  have e2 : boundaryOfCell N m = boundaryOfCell N m' := by
    funext t c
    simp only [boundaryOfCell, e]
  simp only [boundary, h1, e2]

theorem boundarySize_congr {t : Topo} {N : Nat} {m m' : Mesh GCell} (h1 : m.cellList = m'.cellList)
    (h2 : m.orient = m'.orient) : boundarySize t N m = boundarySize t N m' := by
  have e : ∀ (t : Topo) l, filterOnBoundary m t N l = filterOnBoundary m' t N l := by
    intro t l
    induction l with
    | nil => rfl
    | cons x xs ih => simp only [filterOnBoundary, ih, Mesh.isOnBoundary, h2]
  simp only [boundarySize, h1, e]

theorem filter_congr {t : Topo} {I d : Nat} {m m' : Mesh GCell} (h1 : m.cellList = m'.cellList) :
    filter t I d m = filter t I d m' := by
  simp only [filter, h1]

/-- for the examples: a mesh of given cells, in any topology -/
theorem exists_mesh (t : Topo) (N : Nat) (l : List GCell) :
    ∃ m s known, Reachable (facets t N) m s known ∧ m.cellList = some l ∧
      m.orient = recount (l.flatMap (facets t N)) := by
  obtain ⟨bs, hbs⟩ := freshBlocks_exist (fac := facets t N) l MInv.init
  obtain ⟨m, s, known, _, h2, h3, h4⟩ := insertAll_cells l bs hbs
  exact ⟨m, s, known, h2, h3, h4⟩

end Mito.Meshes
