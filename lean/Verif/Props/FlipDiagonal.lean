import Verif.Topology.FlipDiagonalLemmas
import Verif.Mesh.FlipDiagonal
import Verif.Mesh.PartitionLemmas
import Verif.Props.Boundary

/-! # C32, C33: flipping the diagonal of two triangles -/

set_option linter.unusedVariables false

namespace Mito.Topology

open Mito.Combinatorics

variable {t t' : Topo} {x y x' y' a b c d : Id}

/-- The triangles that are returned, for triangles `a b c` and `b a d` of orientation `+1`: they are
`c d b` and `d c a`; the one listed first starts at the opposite vertex with the lower address. -/
theorem flip_triangles_partial (ht : VReachable t) (hx : x ∈ (t.lvl 2).ors) (hy : y ∈ (t.lvl 2).ors)
    (tx : IsTriangle t x a b c) (ty : IsTriangle t y b a d) (sx : t.sg 2 x = 1) (sy : t.sg 2 y = 1)
    (hcd : c ≠ d) (h : t.flipDiagonal x y = .ok (t', x', y')) :
    x' ∈ (t'.lvl 2).ors ∧ y' ∈ (t'.lvl 2).ors ∧
      if c < d then IsTriangle t' x' c d b ∧ IsTriangle t' y' d c a
      else IsTriangle t' x' d c a ∧ IsTriangle t' y' c d b := by
  obtain ⟨ok, st⟩ := ht.ok
  obtain ⟨_, _, _, l1, l2, hf⟩ := (flipDiagonal_opposite ok st hx hy
    (Loop.of_pos (TriO_of_isTriangle ok.inv st hx tx) sx)
    (Loop.of_pos (TriO_of_isTriangle ok.inv st hy ty) sy) hcd).2 t' x' y' h
  refine ⟨l1, l2, ?_⟩
  split
  · rename_i hlt
    exact ⟨IsTriangle_of_TriO (hf.lt hlt).1, IsTriangle_of_TriO (hf.lt hlt).2⟩
  · rename_i hlt
    have := hf.gt (lt_of_le_of_ne (not_lt.mp hlt) (Ne.symm hcd))
    exact ⟨IsTriangle_of_TriO this.1, IsTriangle_of_TriO this.2⟩

theorem outline_square {a b c d : Id} (n : [a, b, c, d].Nodup) :
    outline (triangleEdges a b c ++ triangleEdges b a d) = [(b, c), (c, a), (a, d), (d, b)] := by
  simp only [List.nodup_cons, List.mem_cons, List.not_mem_nil, or_false, not_or, not_false_eq_true,
    List.nodup_nil, and_true] at n
  obtain ⟨⟨n1, n2, n3⟩, ⟨n4, n5⟩, n6⟩ := n
  simp [outline, triangleEdges, List.filter_cons, n1, n2, n3, n4, n5, n6, Ne.symm n1, Ne.symm n2,
    Ne.symm n3, Ne.symm n4, Ne.symm n5, Ne.symm n6]

/-- Under the same conditions the two new triangles have the same directed outline as the old ones. -/
theorem flip_outline_partial (ht : VReachable t) (hx : x ∈ (t.lvl 2).ors) (hy : y ∈ (t.lvl 2).ors)
    (tx : IsTriangle t x a b c) (ty : IsTriangle t y b a d) (sx : t.sg 2 x = 1) (sy : t.sg 2 y = 1)
    (hcd : c ≠ d) (h : t.flipDiagonal x y = .ok (t', x', y')) :
    ∃ p q r p' q' r', IsTriangle t' x' p q r ∧ IsTriangle t' y' p' q' r' ∧
      (outline (triangleEdges p q r ++ triangleEdges p' q' r')).Perm
        (outline (triangleEdges a b c ++ triangleEdges b a d)) := by
  obtain ⟨_, _, hr⟩ := flip_triangles_partial ht hx hy tx ty sx sy hcd h
  obtain ⟨ok, st⟩ := ht.ok
  have l1 := Loop.of_pos (TriO_of_isTriangle ok.inv st hx tx) sx
  have l2 := Loop.of_pos (TriO_of_isTriangle ok.inv st hy ty) sy
  obtain ⟨n1, n2, n3⟩ := l1.ne
  obtain ⟨_, n4, n5⟩ := l2.ne
  have hnd : [a, b, c, d].Nodup := by
    simp [n1, n2, Ne.symm n3, Ne.symm n5, hcd]
    exact fun e => n4 e
  have h1 : [c, d, b, a].Nodup := by
    refine (List.Perm.nodup_iff ?_).mpr hnd
    exact (List.perm_append_comm (l₁ := [c, d]) (l₂ := [b, a])).trans (List.Perm.swap _ _ _)
  have h2 : [d, c, a, b].Nodup := by
    refine (List.Perm.nodup_iff ?_).mpr h1
    exact (List.Perm.swap _ _ _).trans (((List.Perm.swap _ _ _).cons _).cons _)
  rw [outline_square hnd]
  split at hr
  · refine ⟨c, d, b, d, c, a, hr.1, hr.2, ?_⟩
    rw [outline_square h1]
    exact List.perm_append_comm (l₁ := [(d, b), (b, c)]) (l₂ := [(c, a), (a, d)]) |>.trans
      ((List.perm_append_comm (l₁ := [(c, a), (a, d), (d, b)]) (l₂ := [(b, c)])))
  · refine ⟨d, c, a, c, d, b, hr.1, hr.2, ?_⟩
    rw [outline_square h2]
    exact List.perm_append_comm (l₁ := [(c, a), (a, d), (d, b)]) (l₂ := [(b, c)])

/-- With addresses left, flipping triangles `a b c` and `b a d` of orientation `+1` succeeds. -/
theorem flip_succeeds_partial (ht : VReachable t) (hfr : Fresh t 12) (hx : x ∈ (t.lvl 2).ors)
    (hy : y ∈ (t.lvl 2).ors) (tx : IsTriangle t x a b c) (ty : IsTriangle t y b a d)
    (sx : t.sg 2 x = 1) (sy : t.sg 2 y = 1) (hcd : c ≠ d) :
    ∃ t' x' y', t.flipDiagonal x y = .ok (t', x', y') := by
  obtain ⟨ok, st⟩ := ht.ok
  exact (flipDiagonal_opposite ok st hx hy
    (Loop.of_pos (TriO_of_isTriangle ok.inv st hx tx) sx)
    (Loop.of_pos (TriO_of_isTriangle ok.inv st hy ty) sy) hcd).1 (k := 0) hfr

/-- Flipping twice gives back the original pair (maybe in the other order), if the original triangles
and those in between have orientation `+1`. -/
theorem flip_involution_partial (ht : VReachable t) (hx : x ∈ (t.lvl 2).ors) (hy : y ∈ (t.lvl 2).ors)
    (tx : IsTriangle t x a b c) (ty : IsTriangle t y b a d) (sx : t.sg 2 x = 1) (sy : t.sg 2 y = 1)
    (hcd : c ≠ d) (h : t.flipDiagonal x y = .ok (t', x', y'))
    (sx' : t'.sg 2 x' = 1) (sy' : t'.sg 2 y' = 1) {t'' : Topo} {x'' y'' : Id}
    (h' : t'.flipDiagonal x' y' = .ok (t'', x'', y'')) :
    (x'' = x ∧ y'' = y) ∨ (x'' = y ∧ y'' = x) := by
  obtain ⟨ok, st⟩ := ht.ok
  have trx := TriO_of_isTriangle ok.inv st hx tx
  have try' := TriO_of_isTriangle ok.inv st hy ty
  obtain ⟨ok1, st1, le1, l1, l2, hf⟩ := (flipDiagonal_opposite ok st hx hy
    (Loop.of_pos trx sx) (Loop.of_pos try' sy) hcd).2 t' x' y' h
  have hab := (Loop.of_pos trx sx).ne.1
  -- the final triangles are `a b c` and `b a d`
  have key : ∀ {u v : Id}, u ∈ (t'.lvl 2).ors → v ∈ (t'.lvl 2).ors → t'.sg 2 u = 1 → t'.sg 2 v = 1 →
      ∀ {p q r s : Id}, TriO t' u r s q → TriO t' v s r p → p ≠ q → r ≠ s →
      ∀ {t'' : Topo} {u'' v'' : Id}, t'.flipDiagonal u v = .ok (t'', u'', v'') →
      Ok t'' ∧ Std t'' ∧ Le t' t'' ∧ u'' ∈ (t''.lvl 2).ors ∧ v'' ∈ (t''.lvl 2).ors ∧
        (TriO t'' u'' q p s ∧ TriO t'' v'' p q r ∨ TriO t'' u'' p q r ∧ TriO t'' v'' q p s) := by
    intro u v lu lv su sv p q r s h1 h2 hpq hrs t'' u'' v'' hh
    obtain ⟨ok2, st2, le2, m1, m2, hf2⟩ := (flipDiagonal_opposite ok1 st1 lu lv
      (Loop.of_pos h1 su) (Loop.of_pos h2 sv) (Ne.symm hpq)).2 t'' u'' v'' hh
    refine ⟨ok2, st2, le2, m1, m2, ?_⟩
    rcases lt_or_gt_of_ne hpq with hlt | hlt
    · exact Or.inr (hf2.gt hlt)
    · exact Or.inl (hf2.lt hlt)
  have fin : ∀ {u v : Id}, Ok t'' → Std t'' → Le t' t'' → u ∈ (t''.lvl 2).ors → v ∈ (t''.lvl 2).ors →
      TriO t'' u a b c → TriO t'' v b a d → u = x ∧ v = y := by
    intro u v ok2 st2 le2 lu lv h1 h2
    have le := le1.trans le2
    exact ⟨TriO_unique ok2.inv st2 lu (le.ors 2 hx) h1 (TriO_le ok.inv le hx trx),
      TriO_unique ok2.inv st2 lv (le.ors 2 hy) h2 (TriO_le ok.inv le hy try')⟩
  rcases lt_or_gt_of_ne hcd with hlt | hgt
  · obtain ⟨f1, f2⟩ := hf.lt hlt
    -- `x' = c d b`, `y' = d c a`
    obtain ⟨ok2, st2, le2, m1, m2, hh⟩ := key l1 l2 sx' sy' f1 f2 hab hcd h'
    rcases hh with ⟨g1, g2⟩ | ⟨g1, g2⟩
    · exact Or.inr ⟨(fin ok2 st2 le2 m2 m1 g2 g1).2, (fin ok2 st2 le2 m2 m1 g2 g1).1⟩
    · exact Or.inl (fin ok2 st2 le2 m1 m2 g1 g2)
  · obtain ⟨f1, f2⟩ := hf.gt hgt
    obtain ⟨ok2, st2, le2, m1, m2, hh⟩ := key l1 l2 sx' sy' f1 f2 (Ne.symm hab) (Ne.symm hcd) h'
    rcases hh with ⟨g1, g2⟩ | ⟨g1, g2⟩
    · exact Or.inl (fin ok2 st2 le2 m1 m2 g1 g2)
    · exact Or.inr ⟨(fin ok2 st2 le2 m2 m1 g2 g1).2, (fin ok2 st2 le2 m2 m1 g2 g1).1⟩

/-- Whatever the orientations: if the compositions traverse the common edge in opposite directions, the
new triangles go around the way the compositions do. -/
theorem flip_follows_compositions (ht : VReachable t) (hx : x ∈ (t.lvl 2).ors)
    (hy : y ∈ (t.lvl 2).ors) (ax : Around t x a b c) (ay : Around t y b a d) (hcd : c ≠ d)
    (h : t.flipDiagonal x y = .ok (t', x', y')) :
    if c < d then IsTriangle t' x' c d b ∧ IsTriangle t' y' d c a
    else IsTriangle t' x' d c a ∧ IsTriangle t' y' c d b := by
  obtain ⟨ok, st⟩ := ht.ok
  obtain ⟨_, _, _, l1, l2, hf⟩ := (flipDiagonal_opposite ok st hx hy
    (Loop.of_around ok.inv st hx ax) (Loop.of_around ok.inv st hy ay) hcd).2 t' x' y' h
  split
  · rename_i hlt
    exact ⟨IsTriangle_of_TriO (hf.lt hlt).1, IsTriangle_of_TriO (hf.lt hlt).2⟩
  · rename_i hlt
    have := hf.gt (lt_of_le_of_ne (not_lt.mp hlt) (Ne.symm hcd))
    exact ⟨IsTriangle_of_TriO this.1, IsTriangle_of_TriO this.2⟩

/-- The composition of a triangle goes around it one way if its orientation is `+1`, and the other way
if it is `-1`. -/
theorem around_iff (ht : VReachable t) (hx : x ∈ (t.lvl 2).ors) (tx : IsTriangle t x a b c) :
    (t.sg 2 x = 1 → Around t x a b c) ∧ (t.sg 2 x = -1 → Around t x b a c) := by
  obtain ⟨ok, st⟩ := ht.ok
  have := TriO_of_isTriangle ok.inv st hx tx
  exact ⟨fun h => (Loop.of_pos this h).around, fun h => (Loop.of_neg this h).around⟩

/-- The exception is thrown exactly when the triangles have no common edge, in whatever orientation. -/
theorem flip_throws_iff (t : Topo) (x y : Id) :
    t.flipDiagonal x y = .throws ↔ ¬ ShareEdge t x y := by
  rw [← findShared_none]
  constructor
  · intro h
    unfold Topo.flipDiagonal at h
    split at h
    · assumption
    · exfalso
      have hcl : ∀ (t : Topo) n S d er, t.closeLoop n S d er ≠ .throws := by
        intro t n S d er
        unfold Topo.closeLoop
        split
        · simp
        · split
          split
          · simp
          · split
            · simp
            · split <;> simp
      have hfw : ∀ (t : Topo) x y f d d', t.flipWith x y f d d' ≠ .throws := by
        intro t x y f d d'
        unfold Topo.flipWith
        dsimp only
        split
        · simp
        · split
          · simp
          · split
            · split
              · split
                · simp
                · split <;> simp
              all_goals first | (rename_i h; exact absurd h (hcl _ _ _ _ _)) | simp
            all_goals first | (rename_i h; exact absurd h (hcl _ _ _ _ _)) | simp
      split at h
      · split at h
        · simp at h
        · split at h
          · simp at h
          · exact hfw _ _ _ _ _ _ h
      · simp at h
  · intro h
    simp [Topo.flipDiagonal, h]

/-- All the cases: with addresses left, the call never reads a null pointer; it throws if there is no
common edge, it succeeds if the compositions traverse a common edge in opposite directions and the
triangles do not have the same vertices, and otherwise an assertion fails. -/
theorem flip_cases_partial (ht : VReachable t) (hfr : Fresh t 12) (hx : x ∈ (t.lvl 2).ors)
    (hy : y ∈ (t.lvl 2).ors) :
    (t.flipDiagonal x y = .throws ∧ ¬ ShareEdge t x y) ∨
    (∃ a b c d, c ≠ d ∧ Around t x a b c ∧ Around t y b a d ∧
      ∃ r, t.flipDiagonal x y = .ok r) ∨
    (∃ a b c d, Around t x a b c ∧ (Around t y a b d ∨ Around t y b a d ∧ c = d) ∧
      t.flipDiagonal x y = .assertion) := by
  obtain ⟨ok, st⟩ := ht.ok
  rcases hsh : t.findShared (t.composition 2 x) (t.composition 2 y) with _ | f
  · exact Or.inl ⟨by simp [Topo.flipDiagonal, hsh], findShared_none.mp hsh⟩
  · right
    obtain ⟨a, b, c, d, lx, ly, hf, hfl⟩ := loops_share ok.inv st hx hy (findShared_some hsh)
    have hc : c ∉ ({a, b} : Finset Id) := by simp [lx.ne.2.2, Ne.symm lx.ne.2.1]
    by_cases hcd : c = d
    · subst hcd
      right
      have hr := flipDiagonal_degenerate hsh lx.VS (by
        rcases ly with ly | ly
        · rw [ly.VS, Finset.insert_comm]
        · exact ly.VS) hf hc
      rcases ly with ly | ly
      · exact ⟨a, b, c, c, lx.around, Or.inr ⟨ly.around, rfl⟩, hr⟩
      · exact ⟨a, b, c, c, lx.around, Or.inl ly.around, hr⟩
    · rcases ly with ly | ly
      · obtain ⟨t', x', y', hr⟩ := (flipDiagonal_opposite ok st hx hy lx ly hcd).1 (k := 0) hfr
        exact Or.inl ⟨a, b, c, d, hcd, lx.around, ly.around, _, hr⟩
      · exact Or.inr ⟨a, b, c, d, lx.around, Or.inl ly.around,
          flipDiagonal_same ok st (k := 0) (hfr.mono (by norm_num)) hsh hx hy lx ly hf hfl hcd⟩

/-! ### Examples and findings -/

instance (t : Topo) (o a b c : Id) : Decidable (IsTriangle t o a b c) :=
  match h : t.verticesOf 2 o with
  | none => isFalse (by rintro ⟨l, hl, _⟩; rw [h] at hl; simp at hl)
  | some l =>
    if h' : permutationSign l [a, b, c] = some 1 then isTrue ⟨l, h, h'⟩
    else isFalse (by rintro ⟨l', hl, hp⟩; rw [h] at hl; obtain rfl := Option.some.inj hl; exact h' hp)

open Mito.Meshes

/-- the outcome without the topology, and the vertices of the new triangles -/
def Outcome.summary : Outcome (Topo × Id × Id) → Outcome (List (Option (List Id) × Int))
  | .ok (t, x, y) => .ok [(t.verticesOf 2 x, t.sg 2 x), (t.verticesOf 2 y, t.sg 2 y)]
  | .throws => .throws
  | .assertion => .assertion
  | .undefined => .undefined
  | .fails => .fails

/-- The hypotheses hold for the two triangles `0 1 2` and `2 1 3` of `exB`. -/
example : VReachable exB ∧ 17 ∈ (exB.lvl 2).ors ∧ 26 ∈ (exB.lvl 2).ors ∧ IsTriangle exB 17 1 2 0 ∧
    IsTriangle exB 26 2 1 3 ∧ exB.sg 2 17 = 1 ∧ exB.sg 2 26 = 1 ∧
    (exB.flipDiagonal 17 26).summary =
      .ok [(some [0, 3, 2], 1), (some [3, 0, 1], 1)] := by
  refine ⟨exB_reachable, ?_, ?_, ?_, ?_, ?_, ?_, ?_⟩ <;> decide +kernel

/-- both triangles were requested with the other orientation before -/
@[irreducible] def exNeg : Topo :=
  exTopo [.triangle 0 2 1, .triangle 0 1 2, .triangle 2 3 1, .triangle 2 1 3]

theorem exNeg_reachable : VReachable exNeg := by
  unfold exNeg; exact exTopo_reachable _ (by decide) (by decide +kernel)

/-- C32 is false: `0 1 2` and `2 1 3` of orientation `-1` are replaced by `3 0 2` and `0 3 1`: the
outline is `0 1 3 2` before, and `0 2 3 1` after. -/
theorem flip_outline_fails : ∃ (t : Topo) (x y : Id), VReachable t ∧ x ∈ (t.lvl 2).ors ∧
    y ∈ (t.lvl 2).ors ∧ IsTriangle t x 0 1 2 ∧ IsTriangle t y 2 1 3 ∧
    (∃ t' x' y', t.flipDiagonal x y = .ok (t', x', y') ∧ IsTriangle t' x' 0 3 1 ∧
      IsTriangle t' y' 3 0 2) ∧
    outline (triangleEdges 0 1 2 ++ triangleEdges 2 1 3) = [(0, 1), (2, 0), (1, 3), (3, 2)] ∧
    outline (triangleEdges 0 3 1 ++ triangleEdges 3 0 2) = [(3, 1), (1, 0), (0, 2), (2, 3)] := by
  have h : match exNeg.flipDiagonal 21 32 with
      | .ok (t', x', y') => IsTriangle t' x' 0 3 1 ∧ IsTriangle t' y' 3 0 2
      | _ => False := by
    have : (match exNeg.flipDiagonal 21 32 with
      | .ok (t', x', y') => decide (IsTriangle t' x' 0 3 1 ∧ IsTriangle t' y' 3 0 2)
      | _ => false) = true := by decide +kernel
    split at this
    · simpa using this
    · simp at this
  refine ⟨exNeg, 21, 32, exNeg_reachable, by decide +kernel, by decide +kernel, by decide +kernel,
    by decide +kernel, ?_, by decide, by decide⟩
  split at h
  · rename_i t' x' y' e
    exact ⟨t', x', y', e, h⟩
  · exact h.elim

/-- C33 is false: the triangles `0 1 2` and `2 1 3` traverse their common edge in opposite directions, but
the composition of the one of orientation `-1` lists it the other way, and an assertion fails.  The
same happens to triangles `0 1 2` and `1 2 3`, which have no edge of opposite orientations in common: no
exception is thrown. -/
theorem flip_throws_fails :
    (∃ (t : Topo) (x y : Id), VReachable t ∧ x ∈ (t.lvl 2).ors ∧ y ∈ (t.lvl 2).ors ∧
      IsTriangle t x 0 1 2 ∧ IsTriangle t y 2 1 3 ∧ t.flipDiagonal x y = .assertion) ∧
    (∃ (t : Topo) (x y : Id), VReachable t ∧ x ∈ (t.lvl 2).ors ∧ y ∈ (t.lvl 2).ors ∧
      IsTriangle t x 0 1 2 ∧ IsTriangle t y 1 2 3 ∧
      (∀ p ∈ t.composition 2 x, ∀ q ∈ t.composition 2 y, t.fp 1 p = t.fp 1 q → t.sg 1 p = t.sg 1 q) ∧
      t.flipDiagonal x y = .assertion) := by
  have out : ∀ r : Outcome (Topo × Id × Id), r.summary = .assertion → r = .assertion := by
    rintro (_ | _ | _ | _ | _) h <;> simp_all [Outcome.summary]
  constructor
  · refine ⟨exA, 21, 29, exA_reachable, by decide +kernel, by decide +kernel, by decide +kernel,
      by decide +kernel, out _ (by decide +kernel)⟩
  · refine ⟨exTopo [.triangle 0 1 2, .triangle 1 2 3], 17, 25,
      exTopo_reachable _ (by decide) (by decide +kernel), by decide +kernel, by decide +kernel,
      by decide +kernel, by decide +kernel, by decide +kernel, out _ (by decide +kernel)⟩

/-- Two triangles with one common vertex: the exception. -/
example : ∃ (t : Topo) (x y : Id), VReachable t ∧ x ∈ (t.lvl 2).ors ∧ y ∈ (t.lvl 2).ors ∧
    t.flipDiagonal x y = .throws := by
  refine ⟨exTopo [.vertex, .triangle 0 1 2, .triangle 0 3 4], 18, 30,
    exTopo_reachable _ (by decide) (by decide +kernel), by decide +kernel, by decide +kernel, ?_⟩
  rw [flip_throws_iff]
  decide +kernel

end Mito.Topology

namespace Mito.Meshes

open Mito.Topology

variable {t t3 : Topo} {c0 c1 d0 d1 : GCell}

/-- Flipping the diagonal of two geometric simplices: the new ones sit on the flipped triangles, and their
nodes are nodes of the old ones.  (`Fresh`: addresses are left.) -/
theorem flipDiagonal_nodes (ht : VReachable t) (hfr : Fresh t 12) (h0 : CellOk t 2 c0)
    (h1 : CellOk t 2 c1) (h : flipDiagonal t c0 c1 = .ok (t3, d0, d1)) :
    ∃ t1 x y, t.flipDiagonal c0.simplex c1.simplex = .ok (t1, x, y) ∧
      Places t1 2 (x, c1.nodes ++ c0.nodes) d0 ∧ Places t1 2 (y, c1.nodes ++ c0.nodes) d1 := by
  obtain ⟨ok, st⟩ := ht.ok
  unfold flipDiagonal at h
  split at h
  · rename_i t1 x y hr
    have hcase := flip_cases_partial ht hfr h0.1 h1.1
    rw [hr] at hcase
    rcases hcase with ⟨h, _⟩ | ⟨a, b, c, d, hcd, ax, ay, _⟩ | ⟨_, _, _, _, _, _, h⟩
    · simp at h
    · have lx := Loop.of_around ok.inv st h0.1 ax
      have ly := Loop.of_around ok.inv st h1.1 ay
      obtain ⟨ok1, st1, le1, l1, l2, hf⟩ := (flipDiagonal_opposite ok st h0.1 h1.1 lx ly hcd).2 t1 x y hr
      have hcov : ∀ v, v ∈ ({a, b, c, d} : Finset Id) → ∃ m ∈ c1.nodes ++ c0.nodes, m.vertex = v := by
        intro v hv
        have : v ∈ VS t 2 (t.fp 2 c0.simplex) ∨ v ∈ VS t 2 (t.fp 2 c1.simplex) := by
          rw [lx.VS, ly.VS]
          simp only [Finset.mem_insert, Finset.mem_singleton] at hv ⊢
          tauto
        rcases this with hv | hv
        · obtain ⟨m, hm, e⟩ := h0.cover ok.inv st (by norm_num) v (by simpa [VS] using hv)
          exact ⟨m, by simp [hm], e⟩
        · obtain ⟨m, hm, e⟩ := h1.cover ok.inv st (by norm_num) v (by simpa [VS] using hv)
          exact ⟨m, by simp [hm], e⟩
      have hsub : ∀ z p q r, TriO t1 z p q r → ({p, q, r} : Finset Id) ⊆ {a, b, c, d} →
          ∀ v ∈ t1.vertexSet 2 (t1.fp 2 z), ∃ m ∈ c1.nodes ++ c0.nodes, m.vertex = v := by
        intro z p q r hz hs v hv
        refine hcov v (hs ?_)
        rw [← TriO_VS hz]
        simpa [VS] using hv
      have covx : ∀ v ∈ t1.vertexSet 2 (t1.fp 2 x), ∃ m ∈ c1.nodes ++ c0.nodes, m.vertex = v := by
        rcases lt_or_gt_of_ne hcd with hlt | hlt
        · exact hsub x _ _ _ (hf.lt hlt).1 (by intro v; simp; tauto)
        · exact hsub x _ _ _ (hf.gt hlt).1 (by intro v; simp; tauto)
      have covy : ∀ v ∈ t1.vertexSet 2 (t1.fp 2 y), ∃ m ∈ c1.nodes ++ c0.nodes, m.vertex = v := by
        rcases lt_or_gt_of_ne hcd with hlt | hlt
        · exact hsub y _ _ _ (hf.lt hlt).2 (by intro v; simp; tauto)
        · exact hsub y _ _ _ (hf.gt hlt).2 (by intro v; simp; tauto)
      split at h
      · simp at h
      · rename_i t2 e0 he0
        split at h
        · simp at h
        · rename_i t3' e1 he1
          simp only [Outcome.ok.injEq, Prod.mk.injEq] at h
          obtain ⟨rfl, rfl, rfl⟩ := h
          obtain ⟨g2, p2⟩ := (geometricSimplex_spec ok1.inv (Good.refl ok1 st1) (by norm_num) l1 covx).1
            _ _ he0
          obtain ⟨g3, p3⟩ := (geometricSimplex_spec ok1.inv g2 (by norm_num) l2 covy).1 _ _ he1
          exact ⟨t1, x, y, hr, p2, p3⟩
    · simp at h
  all_goals simp at h

/-- the nodes of the new cells, without the topology -/
def flipSummary : Outcome (Topo × GCell × GCell) → Outcome (List (List Node))
  | .ok (_, d0, d1) => .ok [d0.nodes, d1.nodes]
  | .throws => .throws
  | .assertion => .assertion
  | .undefined => .undefined
  | .fails => .fails

example : flipSummary (flipDiagonal exB ⟨17, [exNode 0, exNode 1, exNode 2]⟩
    ⟨26, [exNode 2, exNode 1, exNode 3]⟩) =
    .ok [[exNode 0, exNode 3, exNode 2], [exNode 3, exNode 0, exNode 1]] := by decide +kernel

end Mito.Meshes
