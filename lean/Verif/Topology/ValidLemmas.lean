import Verif.Topology.VertexLemmas

/-! # Helper lemmas for the topology: when a composition is valid -/

set_option linter.unusedSimpArgs false
set_option linter.unusedVariables false

namespace Mito.Topology

open Mito.Combinatorics

/-- the test at the end of `isValid` -/
def checkPairs (n : Nat) (l : List (Id × Int)) : Option Bool :=
  if ((l.map (·.1)).dedup).length ≠ n then none
  else some (((l.map (·.1)).dedup).all fun k => net l k == 0)

theorem isValid_eq (t : Topo) (N : Nat) (c : List Id) :
    t.isValid (N + 2) c = checkPairs ((N + 3) * (N + 2) / 2) (t.netPairs N c) := by
  simp only [Topo.isValid, checkPairs]

theorem net_perm {l l' : List (Id × Int)} (h : l.Perm l') (k : Id) : net l k = net l' k :=
  ((h.filter _).map _).sum_eq

theorem checkPairs_perm {l l' : List (Id × Int)} (h : l.Perm l') (n : Nat) :
    checkPairs n l = checkPairs n l' := by
  have h1 : ((l.map (·.1)).dedup).Perm ((l'.map (·.1)).dedup) := (h.map _).dedup
  unfold checkPairs
  rw [h1.length_eq]
  have h2 : (fun k => net l k == 0) = fun k => net l' k == 0 := by
    funext k; rw [net_perm h k]
  rw [h2]
  split
  · rfl
  · rw [Option.some.injEq, Bool.eq_iff_iff, List.all_eq_true, List.all_eq_true]
    constructor <;> intro hh x hx
    · exact hh x (h1.mem_iff.mpr hx)
    · exact hh x (h1.mem_iff.mp hx)

theorem checkPairs_true_iff (n : Nat) (l : List (Id × Int)) :
    checkPairs n l = some true ↔
      (l.map (·.1)).toFinset.card = n ∧ ∀ k ∈ l.map (·.1), net l k = 0 := by
  unfold checkPairs
  rw [List.card_toFinset]
  split
  · rename_i h
    simp [h]
  · rename_i h
    simp only [ne_eq, not_not] at h
    rw [Option.some.injEq, List.all_eq_true]
    simp only [h, true_and, List.mem_dedup, beq_iff_eq]

theorem isValid_perm' (t : Topo) (N : Nat) {c c' : List Id} (h : c.Perm c') :
    t.isValid N c = t.isValid N c' := by
  match N with
  | 0 => rfl
  | 1 =>
    match c, c', h.length_eq with
    | [], [], _ => rfl
    | [x], [y], _ => rfl
    | [x, y], [x', y'], _ =>
      rcases perm_two h with ⟨rfl, rfl⟩ | ⟨rfl, rfl⟩
      · rfl
      · simp only [Topo.isValid]
        rw [bne_comm, Bool.and_comm, bne_comm, Bool.and_comm]
    | x :: y :: z :: l, x' :: y' :: z' :: l', _ => rfl
  | N + 2 =>
    rw [isValid_eq, isValid_eq]
    exact checkPairs_perm (List.Perm.flatMap_right _ h) _

/-! ### segments and their end points -/

/-- a segment whose two end points are distinct and marked `-1`, `+1` in this order -/
theorem SegF_pairs {t : Topo} {o p q : Id} (hF : SegF t (t.fp 1 o) p q)
    (hsg : t.sg 1 o = 1 ∨ t.sg 1 o = -1) :
    ((t.composition 1 o).map fun x => (t.fp 0 x, t.sg 0 x * t.sg 1 o)) =
      if t.sg 1 o = -1 then [(q, -1), (p, 1)] else [(p, -1), (q, 1)] := by
  obtain ⟨n, x, y, e, a, b, c, d⟩ := hF
  unfold Topo.composition
  rcases hsg with h | h <;> simp [h, e, swap01, a, b, c, d]

theorem SegO_pairs {t : Topo} {o a b : Id} (h : SegO t o a b) :
    ((t.composition 1 o).map fun x => (t.fp 0 x, t.sg 0 x * t.sg 1 o)) = [(a, -1), (b, 1)] := by
  obtain ⟨p, q, hF, hs⟩ := h
  rw [SegF_pairs hF (permutationSign_values hs)]
  rcases sign_two hF.1 hs with ⟨e, rfl, rfl⟩ | ⟨e, rfl, rfl⟩ <;> simp [e]

/-- the standard composition of a triangle is valid -/
theorem triangle_valid {t : Topo} {a b c x y z : Id} (n : [a, b, c].Nodup) (p : SegO t x a b)
    (q : SegO t y b c) (r : SegO t z c a) : t.isValid 2 [x, y, z] = some true := by
  have hp : t.netPairs 0 [x, y, z] = [(a, -1), (b, 1), (b, -1), (c, 1), (c, -1), (a, 1)] := by
    simp only [Topo.netPairs, List.flatMap_cons, List.flatMap_nil]
    have h1 := SegO_pairs p
    have h2 := SegO_pairs q
    have h3 := SegO_pairs r
    simp only [Nat.zero_add]
    rw [h1, h2, h3]; rfl
  rw [isValid_eq, hp, checkPairs_true_iff]
  have hcard := List.toFinset_card_of_nodup n
  simp only [List.nodup_cons, List.mem_cons, List.not_mem_nil, or_false, not_or, not_false_eq_true,
    List.nodup_nil, and_true] at n
  obtain ⟨⟨n1, n2⟩, n3⟩ := n
  constructor
  · have : ([(a, -1), (b, 1), (b, -1), (c, 1), (c, -1), (a, 1)].map
        (fun x : Id × Int => x.1)).toFinset = [a, b, c].toFinset := by
      ext v; simp; tauto
    rw [this, hcard]; rfl
  · intro k hk
    simp at hk
    have hk' : k = a ∨ k = b ∨ k = c := by tauto
    rcases hk' with rfl | rfl | rfl <;>
      simp [net, List.filter_cons, n1, n2, n3, Ne.symm n1, Ne.symm n2, Ne.symm n3]

/-- the pair contributed by the edge `a → b` of a face -/
def EP (t : Topo) (e : Id × Int) (a b : Id) : Prop :=
  e.1 ∈ (t.lvl 1).fps ∧ ∃ p q, SegF t e.1 p q ∧ permutationSign [a, b] [p, q] = some e.2

theorem EP_VS {t : Topo} {e : Id × Int} {a b : Id} (h : EP t e a b) : VS t 1 e.1 = {a, b} := by
  obtain ⟨_, p, q, hF, hs⟩ := h
  rw [SegF_VS hF]
  have := finset_eq_of_perm (perm_of_permutationSign hs)
  simpa using this.symm

theorem EP_ne {t : Topo} {e : Id × Int} {a b : Id} (h : EP t e a b) : a ≠ b := by
  obtain ⟨_, p, q, hF, hs⟩ := h
  rintro rfl
  rcases sign_two hF.1 hs with ⟨_, h1, h2⟩ | ⟨_, h1, h2⟩
  · exact hF.1 (h1.symm.trans h2)
  · exact hF.1 (h2.symm.trans h1)

theorem EP_neg {t : Topo} {e : Id × Int} {a b : Id} (h : EP t e a b) : EP t (e.1, -e.2) b a := by
  have hne := EP_ne h
  obtain ⟨hl, p, q, hF, hs⟩ := h
  refine ⟨hl, p, q, hF, ?_⟩
  have := permutationSign_trans (by simp [hne]) (permutationSign_swap01 a b [] (by simp [hne])) hs
  simpa using this

theorem EP_unique {t : Topo} (hi : Inv t) (hs : Std t) {e e' : Id × Int} {a b : Id}
    (h : EP t e a b) (h' : EP t e' a b) : e = e' := by
  have hf : e.1 = e'.1 := seg_unique hi hs h.1 h'.1 (by rw [EP_VS h, EP_VS h'])
  obtain ⟨_, p, q, hF, hsg⟩ := h
  obtain ⟨_, p', q', hF', hsg'⟩ := h'
  rw [hf] at hF
  obtain ⟨rfl, rfl⟩ := SegF_determines hF hF'
  rw [hsg] at hsg'
  simp at hsg'
  exact Prod.ext hf hsg'

theorem EP_of_SegO {t : Topo} (hi : Inv t) {o a b : Id} (ho : o ∈ (t.lvl 1).ors)
    (h : SegO t o a b) : EP t (t.fp 1 o, t.sg 1 o) a b := by
  obtain ⟨p, q, hF, hs⟩ := h
  exact ⟨hi.fp_live 1 o ho, p, q, hF, hs⟩

/-- the pairs contributed by a face `a b c` -/
theorem TriO_pairs {t : Topo} (hi : Inv t) {o a b c : Id} (ho : o ∈ (t.lvl 2).ors)
    (h : TriO t o a b c) : ∃ e1 e2 e3, EP t e1 a b ∧ EP t e2 b c ∧ EP t e3 c a ∧
      ((t.composition 2 o).map fun x => (t.fp 1 x, t.sg 1 x * t.sg 2 o)).Perm [e1, e2, e3] := by
  obtain ⟨a', b', c', hF, hs⟩ := h
  have hlive := hi.comp_live 1 _ (hi.fp_live 2 o ho)
  obtain ⟨n, x, y, z, e, p, q, r⟩ := hF
  rw [e] at hlive
  have ex := EP_of_SegO hi (hlive x (by simp)) p
  have ey := EP_of_SegO hi (hlive y (by simp)) q
  have ez := EP_of_SegO hi (hlive z (by simp)) r
  have hperm : ((t.composition 2 o).map fun x => (t.fp 1 x, t.sg 1 x * t.sg 2 o)).Perm
      [(t.fp 1 x, t.sg 1 x * t.sg 2 o), (t.fp 1 y, t.sg 1 y * t.sg 2 o),
        (t.fp 1 z, t.sg 1 z * t.sg 2 o)] := by
    have := (composition_perm t 2 o).map fun x => (t.fp 1 x, t.sg 1 x * t.sg 2 o)
    rw [e] at this
    exact this
  rcases permutationSign_values hs with e1 | e1
  · rw [e1] at hs hperm
    simp only [e1, mul_one] at hperm ⊢
    rcases permutationSign_three n hs with h1 | h1 | h1 <;>
      (simp only [List.cons.injEq, and_true] at h1; obtain ⟨rfl, rfl, rfl⟩ := h1)
    · exact ⟨_, _, _, ex, ey, ez, hperm⟩
    · refine ⟨_, _, _, ey, ez, ex, hperm.trans ?_⟩
      exact (List.perm_append_comm (l₁ := [_]) (l₂ := [_, _]))
    · refine ⟨_, _, _, ez, ex, ey, hperm.trans ?_⟩
      exact (List.perm_append_comm (l₁ := [_, _]) (l₂ := [_]))
  · rw [e1] at hs hperm
    simp only [e1, mul_neg, mul_one] at hperm ⊢
    have ex := EP_neg ex
    have ey := EP_neg ey
    have ez := EP_neg ez
    have hs' : permutationSign [b, a, c] [a', b', c'] = some 1 := by
      have hn : [a, b, c].Nodup := (perm_of_permutationSign hs).nodup_iff.mpr n
      have := permutationSign_trans hn (permutationSign_swap01 a b [c] hn) hs
      simpa using this
    rcases permutationSign_three n hs' with h1 | h1 | h1 <;>
      (simp only [List.cons.injEq, and_true] at h1; obtain ⟨rfl, rfl, rfl⟩ := h1)
    · -- a = b', b = a', c = c'
      refine ⟨_, _, _, ex, ez, ey, hperm.trans ?_⟩
      exact List.Perm.cons _ (List.Perm.swap _ _ _)
    · -- b = b', a = c', c = a'
      refine ⟨_, _, _, ey, ex, ez, hperm.trans ?_⟩
      exact List.Perm.swap _ _ _
    · -- b = c', a = a', c = b'
      refine ⟨_, _, _, ez, ey, ex, hperm.trans ?_⟩
      exact (List.reverse_perm [_, _, _]).symm

/-- the twelve pairs of a tetrahedron cancel -/
theorem checkPairs_tet {f1 f2 f3 f4 f5 f6 : Id} {s1 s2 s3 s4 s5 s6 : Int}
    (n : [f1, f2, f3, f4, f5, f6].Nodup) :
    checkPairs 6 [(f1, s1), (f2, s2), (f3, s3), (f4, s4), (f5, s5), (f2, -s2), (f4, -s4),
      (f1, -s1), (f6, s6), (f6, -s6), (f3, -s3), (f5, -s5)] = some true := by
  rw [checkPairs_true_iff]
  constructor
  · have hcard := List.toFinset_card_of_nodup n
    have : (([(f1, s1), (f2, s2), (f3, s3), (f4, s4), (f5, s5), (f2, -s2), (f4, -s4),
      (f1, -s1), (f6, s6), (f6, -s6), (f3, -s3), (f5, -s5)] : List (Id × Int)).map
        (fun x : Id × Int => x.1)).toFinset = [f1, f2, f3, f4, f5, f6].toFinset := by
      ext v
      simp only [List.map_cons, List.map_nil, List.mem_toFinset, List.mem_cons, List.not_mem_nil,
        or_false]
      constructor
      · rintro (h | h | h | h | h | h | h | h | h | h | h | h) <;> simp [h]
      · rintro (h | h | h | h | h | h) <;> simp [h]
    rw [this, hcard]; rfl
  · simp only [List.nodup_cons, List.mem_cons, List.not_mem_nil, or_false, not_or,
      not_false_eq_true, List.nodup_nil, and_true] at n
    obtain ⟨⟨n12, n13, n14, n15, n16⟩, ⟨n23, n24, n25, n26⟩, ⟨n34, n35, n36⟩, ⟨n45, n46⟩, n56⟩ := n
    intro k hk
    have hk' : k = f1 ∨ k = f2 ∨ k = f3 ∨ k = f4 ∨ k = f5 ∨ k = f6 := by
      simp only [List.map_cons, List.map_nil, List.mem_cons, List.not_mem_nil,
        or_false] at hk
      rcases hk with h | h | h | h | h | h | h | h | h | h | h | h <;> simp [h]
    rcases hk' with rfl | rfl | rfl | rfl | rfl | rfl <;>
      simp [net, List.filter_cons, n12, n13, n14, n15, n16, n23, n24, n25, n26, n34, n35, n36, n45,
        n46, n56, Ne.symm n12, Ne.symm n13, Ne.symm n14, Ne.symm n15, Ne.symm n16, Ne.symm n23,
        Ne.symm n24, Ne.symm n25, Ne.symm n26, Ne.symm n34, Ne.symm n35, Ne.symm n36, Ne.symm n45,
        Ne.symm n46, Ne.symm n56]

theorem tetrahedron_valid {t : Topo} (hi : Inv t) (hs : Std t) {a b c d x y z w : Id}
    (n : [a, b, c, d].Nodup) (hx : x ∈ (t.lvl 2).ors) (hy : y ∈ (t.lvl 2).ors)
    (hz : z ∈ (t.lvl 2).ors) (hw : w ∈ (t.lvl 2).ors) (p : TriO t x a b c) (q : TriO t y b d c)
    (r : TriO t z d b a) (s : TriO t w d a c) : t.isValid 3 [x, y, z, w] = some true := by
  obtain ⟨ab, bc, ca, h1, h2, h3, px⟩ := TriO_pairs hi hx p
  obtain ⟨bd, dc, cb, h4, h5, h6, py⟩ := TriO_pairs hi hy q
  obtain ⟨db, ba, ad, h7, h8, h9, pz⟩ := TriO_pairs hi hz r
  obtain ⟨da, ac, cd, h10, h11, h12, pw⟩ := TriO_pairs hi hw s
  have e6 := EP_unique hi hs h6 (EP_neg h2)
  have e7 := EP_unique hi hs h7 (EP_neg h4)
  have e8 := EP_unique hi hs h8 (EP_neg h1)
  have e10 := EP_unique hi hs h10 (EP_neg h9)
  have e11 := EP_unique hi hs h11 (EP_neg h3)
  have e12 := EP_unique hi hs h12 (EP_neg h5)
  subst e6 e7 e8 e10 e11 e12
  have hperm : (t.netPairs 1 [x, y, z, w]).Perm
      ([ab, bc, ca] ++ ([bd, dc, (bc.1, -bc.2)] ++ ([(bd.1, -bd.2), (ab.1, -ab.2), ad] ++
        ([(ad.1, -ad.2), (ca.1, -ca.2), (dc.1, -dc.2)] ++ [])))) := by
    simp only [Topo.netPairs, List.flatMap_cons, List.flatMap_nil]
    exact px.append (py.append (pz.append (pw.append (List.Perm.refl _))))
  rw [isValid_eq, checkPairs_perm hperm]
  have key : ∀ {e e' : Id × Int} {p q p' q' : Id}, EP t e p q → EP t e' p' q' →
      (∃ v, ¬ ((v = p ∨ v = q) ↔ (v = p' ∨ v = q'))) → e.1 ≠ e'.1 := by
    intro e e' p q p' q' g1 g2 ⟨v, hv⟩ heq
    apply hv
    have g3 := EP_VS g1
    rw [heq, EP_VS g2] at g3
    have := Finset.ext_iff.mp g3 v
    simpa using this.symm
  have nn : [ab.1, bc.1, ca.1, bd.1, dc.1, ad.1].Nodup := by
    simp only [List.nodup_cons, List.mem_cons, List.not_mem_nil, or_false, not_or,
      not_false_eq_true, List.nodup_nil, and_true] at n
    obtain ⟨⟨n1, n2, n3⟩, ⟨n4, n5⟩, n6⟩ := n
    have m1 := Ne.symm n1
    have m2 := Ne.symm n2
    have m3 := Ne.symm n3
    have m4 := Ne.symm n4
    have m5 := Ne.symm n5
    have m6 := Ne.symm n6
    simp only [List.nodup_cons, List.mem_cons, List.not_mem_nil, or_false, not_or,
      not_false_eq_true, List.nodup_nil, and_true]
    refine ⟨⟨key h1 h2 ⟨a, ?_⟩, key h1 h3 ⟨b, ?_⟩, key h1 h4 ⟨a, ?_⟩, key h1 h5 ⟨a, ?_⟩,
      key h1 h9 ⟨b, ?_⟩⟩, ⟨key h2 h3 ⟨b, ?_⟩, key h2 h4 ⟨c, ?_⟩, key h2 h5 ⟨b, ?_⟩,
      key h2 h9 ⟨b, ?_⟩⟩, ⟨key h3 h4 ⟨c, ?_⟩, key h3 h5 ⟨a, ?_⟩, key h3 h9 ⟨c, ?_⟩⟩,
      ⟨key h4 h5 ⟨b, ?_⟩, key h4 h9 ⟨b, ?_⟩⟩, key h5 h9 ⟨c, ?_⟩⟩ <;>
      simp [n1, n2, n3, n4, n5, n6, m1, m2, m3, m4, m5, m6]
  exact checkPairs_tet nn

/-! ### creation succeeds -/

/-- the allocator has `k` fresh addresses -/
structure Fresh (t : Topo) (k : Nat) : Prop where
  len : k ≤ t.supply.length
  nodup : (t.supply.take k).Nodup
  fresh : ∀ i ∈ t.supply.take k, ∀ N, i ∉ (t.lvl N).fps ∧ i ∉ (t.lvl N).ors

theorem Fresh.mono {t : Topo} {k m : Nat} (h : Fresh t k) (hm : m ≤ k) : Fresh t m := by
  have hsub : (t.supply.take m).Sublist (t.supply.take k) :=
    (List.take_prefix_take_left hm).sublist
  exact ⟨hm.trans h.len, h.nodup.sublist hsub, fun i hi => h.fresh i (hsub.subset hi)⟩

/-- using up one address -/
theorem Fresh.next {t t' : Topo} {k : Nat} (h : Fresh t (k + 1)) {i : Id} {rest : List Id}
    (hs : t.supply = i :: rest) (hs' : t'.supply = rest)
    (hf : ∀ N x, x ∈ (t'.lvl N).fps → x ∈ (t.lvl N).fps ∨ x = i)
    (ho : ∀ N x, x ∈ (t'.lvl N).ors → x ∈ (t.lvl N).ors ∨ x = i) : Fresh t' k := by
  have hl := h.len
  have hn := h.nodup
  have hfr := h.fresh
  rw [hs] at hl hn hfr
  rw [List.take_succ_cons] at hn hfr
  rw [List.nodup_cons] at hn
  refine ⟨by rw [hs']; simpa using hl, by rw [hs']; exact hn.2, fun x hx N => ?_⟩
  rw [hs'] at hx
  have hxi : x ≠ i := fun e => hn.1 (e ▸ hx)
  have := hfr x (List.mem_cons_of_mem _ hx) N
  exact ⟨fun hm => (hf N x hm).elim this.1 hxi, fun hm => (ho N x hm).elim this.2 hxi⟩

theorem orientedF_succeeds {t : Topo} {k : Nat} (h : Fresh t (k + 1)) (N : Nat) (f : Id) (s : Int) :
    ∃ t' o, t.orientedF N f s = some (t', o) ∧ Fresh t' k := by
  cases hc : (t.lvl N).orients (f, s) with
  | some o => exact ⟨t, o, by simp [Topo.orientedF, hc], h.mono (by omega)⟩
  | none =>
    cases hs : t.supply with
    | nil => have := h.len; rw [hs] at this; simp at this
    | cons i rest =>
      have hi := (h.fresh i (by rw [hs]; simp) N).2
      refine ⟨t.addO N f s i rest, i, ?_, ?_⟩
      · simp [Topo.orientedF, hc, Topo.emplaceO, hs, hi, Topo.addO, Topo.setLvl]
      · apply h.next hs rfl
        · intro M x hx
          by_cases e : M = N
          · subst e; left; simpa [Topo.addO] using hx
          · left; simpa [Topo.addO, e] using hx
        · intro M x hx
          by_cases e : M = N
          · subst e; simp [Topo.addO] at hx; tauto
          · left; simpa [Topo.addO, e] using hx

theorem simplexF_succeeds {t : Topo} {k : Nat} (h : Fresh t (k + 1)) (N : Nat) (c : List Id) :
    ∃ t' f, t.simplexF N c = some (t', f) ∧ Fresh t' k := by
  cases hc : (t.lvl (N + 1)).comps (t.representative N c) with
  | some o => exact ⟨t, o, by simp [Topo.simplexF, hc], h.mono (by omega)⟩
  | none =>
    cases hs : t.supply with
    | nil => have := h.len; rw [hs] at this; simp at this
    | cons i rest =>
      have hi := (h.fresh i (by rw [hs]; simp) (N + 1)).1
      refine ⟨t.addF N c (t.representative N c) i rest, i, ?_, ?_⟩
      · simp [Topo.simplexF, hc, Topo.emplaceF, hs, hi, Topo.addF, Topo.setLvl]
      · apply h.next hs rfl
        · intro M x hx
          by_cases e : M = N + 1
          · subst e; simp [Topo.addF] at hx; tauto
          · left; simpa [Topo.addF, e] using hx
        · intro M x hx
          by_cases e : M = N + 1
          · subst e; left; simpa [Topo.addF] using hx
          · left; simpa [Topo.addF, e] using hx

/-- a valid composition of live subsimplices with distinct footprints is accepted -/
theorem simplex_succeeds {t : Topo} (hi : Inv t) {k : Nat} (h : Fresh t (k + 2)) {N : Nat}
    {c : List Id} (hc : ∀ x ∈ c, x ∈ (t.lvl N).ors) (hl : c.length = N + 2)
    (hnd : (c.map (t.fp N)).Nodup) (hv : t.isValid (N + 1) c = some true) :
    ∃ t' o, t.simplex N c = some (t', o) ∧ Fresh t' k := by
  have hcnd : c.Nodup := List.Nodup.of_map _ hnd
  obtain ⟨t1, f, h1, fr1⟩ := simplexF_succeeds h N c
  obtain ⟨i1, l1, f1, e1, p1, n1⟩ := simplexF_spec hi hc hl hcnd h1
  have hne : c.map (t1.fp N) ≠ [] := by
    intro e
    have := congrArg List.length e
    simp [hl] at this
  rw [← e1] at p1 hnd
  obtain ⟨s, hs⟩ := permutationSign_some hne (p1.nodup_iff.mp hnd) p1
  obtain ⟨t2, o, h2, fr2⟩ := orientedF_succeeds fr1 (N + 1) f s
  exact ⟨t2, o, by simp [Topo.simplex, hv, h1, Topo.orientation, hs, h2], fr2⟩

theorem segment_succeeds {t : Topo} (hok : Ok t) {k : Nat} (h : Fresh t (k + 4)) {a b : Id}
    (ha : a ∈ (t.lvl 0).fps) (hb : b ∈ (t.lvl 0).fps) (hne : a ≠ b) :
    ∃ t' o, t.segment a b = some (t', o) ∧ Fresh t' k := by
  obtain ⟨t1, x, h1, fr1⟩ := orientedF_succeeds h 0 a (-1)
  obtain ⟨ok1, le1, l1, f1, s1⟩ := orientedF_ok hok ha (by simp) h1
  obtain ⟨t2, y, h2, fr2⟩ := orientedF_succeeds fr1 0 b 1
  obtain ⟨ok2, le2, l2, f2, s2⟩ := orientedF_ok ok1 (le1.fps 0 hb) (by simp) h2
  have fx : t2.fp 0 x = a := by rw [le2.ofp 0 x l1, f1]
  have sx : t2.sg 0 x = -1 := by rw [le2.osg 0 x l1, s1]
  obtain ⟨t3, o, h3, fr3⟩ := simplex_succeeds ok2.inv fr2 (c := [x, y]) (N := 0)
    (by simp [l2, le2.ors 0 l1]) rfl (by simp [fx, f2, hne])
    (by simp [Topo.isValid, fx, f2, hne, sx, s2])
  exact ⟨t3, o, by simp [Topo.segment, h1, h2, h3], fr3⟩

theorem triangle_succeeds {t : Topo} (hok : Ok t) (hst : Std t) {k : Nat} (h : Fresh t (k + 14))
    {a b c : Id} (ha : a ∈ (t.lvl 0).fps) (hb : b ∈ (t.lvl 0).fps) (hc : c ∈ (t.lvl 0).fps)
    (n : [a, b, c].Nodup) : ∃ t' o, t.triangle a b c = some (t', o) ∧ Fresh t' k := by
  have n0 := n
  simp only [List.nodup_cons, List.mem_cons, List.not_mem_nil, or_false, not_or,
    not_false_eq_true, List.nodup_nil, and_true] at n
  obtain ⟨⟨n1, n2⟩, n3⟩ := n
  obtain ⟨t1, x, h1, fr1⟩ := segment_succeeds hok (k := k + 10) h ha hb n1
  obtain ⟨ok1, le1, l1, _⟩ := segment_ok hok ha hb h1
  obtain ⟨st1, o1⟩ := segment_std hok hst ha hb h1
  obtain ⟨t2, y, h2, fr2⟩ := segment_succeeds ok1 (k := k + 6) fr1 (le1.fps 0 hb) (le1.fps 0 hc) n3
  obtain ⟨ok2, le2, l2, _⟩ := segment_ok ok1 (le1.fps 0 hb) (le1.fps 0 hc) h2
  obtain ⟨st2, o2⟩ := segment_std ok1 st1 (le1.fps 0 hb) (le1.fps 0 hc) h2
  have hc2 := le2.fps 0 (le1.fps 0 hc)
  have ha2 := le2.fps 0 (le1.fps 0 ha)
  obtain ⟨t3, z, h3, fr3⟩ := segment_succeeds ok2 (k := k + 2) fr2 hc2 ha2 (Ne.symm n2)
  obtain ⟨ok3, le3, l3, _⟩ := segment_ok ok2 hc2 ha2 h3
  obtain ⟨st3, o3⟩ := segment_std ok2 st2 hc2 ha2 h3
  have ox := SegO_le ok2.inv le3 (le2.ors 1 l1) (SegO_le ok1.inv le2 l1 o1)
  have oy := SegO_le ok2.inv le3 l2 o2
  have hv := triangle_valid n0 ox oy o3
  have hlive : ∀ u ∈ [x, y, z], u ∈ (t3.lvl 1).ors := by
    simp [le3.ors 1 (le2.ors 1 l1), le3.ors 1 l2, l3]
  have hnd : ([x, y, z].map (t3.fp 1)).Nodup := by
    apply List.Nodup.of_map (VS t3 1)
    rw [tri_faces n0 ox oy o3]
    apply List.Nodup.map_on _ (nodup_rot3 n0)
    intro u hu v hv e
    refine erase_injOn ?_ ?_ e
    · rw [← rot3]; simpa using hu
    · rw [← rot3]; simpa using hv
  obtain ⟨t4, o, h4, fr4⟩ := simplex_succeeds ok3.inv fr3 hlive rfl hnd hv
  exact ⟨t4, o, by simp [Topo.triangle, h1, h2, h3, h4], fr4⟩

theorem tetrahedron_succeeds {t : Topo} (hok : Ok t) (hst : Std t) {k : Nat}
    (h : Fresh t (k + 58)) {a b c d : Id} (ha : a ∈ (t.lvl 0).fps) (hb : b ∈ (t.lvl 0).fps)
    (hc : c ∈ (t.lvl 0).fps) (hd : d ∈ (t.lvl 0).fps) (n : [a, b, c, d].Nodup) :
    ∃ t' o, t.tetrahedron a b c d = some (t', o) ∧ Fresh t' k := by
  have n0 := n
  simp only [List.nodup_cons, List.mem_cons, List.not_mem_nil, or_false, not_or,
    not_false_eq_true, List.nodup_nil, and_true] at n
  obtain ⟨⟨n1, n2, n3⟩, ⟨n4, n5⟩, n6⟩ := n
  obtain ⟨t1, x, h1, fr1⟩ := triangle_succeeds hok hst (k := k + 44) h ha hb hc
    (by simp [n1, n2, n4])
  obtain ⟨ok1, le1, l1, _⟩ := triangle_ok hok ha hb hc h1
  obtain ⟨st1, o1⟩ := triangle_std hok hst ha hb hc h1
  replace ha := le1.fps 0 ha
  replace hb := le1.fps 0 hb
  replace hc := le1.fps 0 hc
  replace hd := le1.fps 0 hd
  obtain ⟨t2, y, h2, fr2⟩ := triangle_succeeds ok1 st1 (k := k + 30) fr1 hb hd hc
    (by simp [n4, n5, Ne.symm n6])
  obtain ⟨ok2, le2, l2, _⟩ := triangle_ok ok1 hb hd hc h2
  obtain ⟨st2, o2⟩ := triangle_std ok1 st1 hb hd hc h2
  replace ha := le2.fps 0 ha
  replace hb := le2.fps 0 hb
  replace hc := le2.fps 0 hc
  replace hd := le2.fps 0 hd
  obtain ⟨t3, z, h3, fr3⟩ := triangle_succeeds ok2 st2 (k := k + 16) fr2 hd hb ha
    (by simp [Ne.symm n5, Ne.symm n3, Ne.symm n1])
  obtain ⟨ok3, le3, l3, _⟩ := triangle_ok ok2 hd hb ha h3
  obtain ⟨st3, o3⟩ := triangle_std ok2 st2 hd hb ha h3
  replace ha := le3.fps 0 ha
  replace hb := le3.fps 0 hb
  replace hc := le3.fps 0 hc
  replace hd := le3.fps 0 hd
  obtain ⟨t4, w, h4, fr4⟩ := triangle_succeeds ok3 st3 (k := k + 2) fr3 hd ha hc
    (by simp [Ne.symm n3, Ne.symm n6, n2])
  obtain ⟨ok4, le4, l4, _⟩ := triangle_ok ok3 hd ha hc h4
  obtain ⟨st4, o4⟩ := triangle_std ok3 st3 hd ha hc h4
  have ox := TriO_le ok3.inv le4 (le3.ors 2 (le2.ors 2 l1))
    (TriO_le ok2.inv le3 (le2.ors 2 l1) (TriO_le ok1.inv le2 l1 o1))
  have oy := TriO_le ok3.inv le4 (le3.ors 2 l2) (TriO_le ok2.inv le3 l2 o2)
  have oz := TriO_le ok3.inv le4 l3 o3
  have lx := le4.ors 2 (le3.ors 2 (le2.ors 2 l1))
  have ly := le4.ors 2 (le3.ors 2 l2)
  have lz := le4.ors 2 l3
  have hv := tetrahedron_valid ok4.inv st4 n0 lx ly lz l4 ox oy oz o4
  have hlive : ∀ u ∈ [x, y, z, w], u ∈ (t4.lvl 2).ors := by simp [lx, ly, lz, l4]
  have hnd : ([x, y, z, w].map (t4.fp 2)).Nodup := by
    apply List.Nodup.of_map (VS t4 2)
    rw [tet_faces n0 ox oy oz o4]
    apply List.Nodup.map_on _ (nodup_rot4 n0)
    intro u hu v hv e
    refine erase_injOn ?_ ?_ e
    · rw [← rot4]; simpa using hu
    · rw [← rot4]; simpa using hv
  obtain ⟨t5, o, h5, fr5⟩ := simplex_succeeds ok4.inv fr4 hlive rfl hnd hv
  exact ⟨t5, o, by simp [Topo.tetrahedron, h1, h2, h3, h4, h5], fr5⟩

end Mito.Topology
