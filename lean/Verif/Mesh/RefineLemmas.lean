import Verif.Spec.Refine
import Mathlib.Tactic.FieldSimp
import Mathlib.Tactic.Ring
import Mathlib.Tactic.LinearCombination
import Mathlib.Algebra.BigOperators.Group.List.Basic
import Mathlib.Algebra.BigOperators.Ring.List
import Mathlib.Algebra.Order.Field.Basic
import Mathlib.Tactic.Linarith

/-! # Helper lemmas for refinement -/

set_option linter.unusedSimpArgs false
set_option linter.unusedVariables false
set_option linter.unusedSectionVars false

namespace Mito.Refine

variable {K : Type*} [Field K]

/-- the nodes `L` of new cells come from `old` or are new, with identities from `k` to `k'` -/
def Within (k k' : Nat) (old : List (PNode K)) (L : List (List (PNode K))) : Prop :=
  ∀ c ∈ L, ∀ p ∈ c, p ∈ old ∨ (k ≤ p.id ∧ p.id < k')

/-- what subdividing the cell `c` does: `m` children, with a signed volume `m` times smaller, on old and
new nodes -/
structure Divided (N m : Nat) (k : Nat) (c : List (PNode K)) (r : Nat × List (List (PNode K))) :
    Prop where
  le : k ≤ r.1
  count : r.2.length = m
  len : ∀ d ∈ r.2, d.length = N + 1
  vol : ∀ i j l, ∀ d ∈ r.2, (m : K) * signedVolume i j l d = signedVolume i j l c
  within : Within k r.1 c r.2
  nodup : (c.map (·.id)).Nodup → (∀ p ∈ c, p.id < k) → ∀ d ∈ r.2, (d.map (·.id)).Nodup

/-- subdividing the parts of `c` -/
theorem each_divided {β : Type*} {N m : Nat} {f : Nat → β → Nat × List (List (PNode K))}
    {toCell : β → List (PNode K)} (parts : List β) {k : Nat}
    (h : ∀ k', k ≤ k' → ∀ x ∈ parts, Divided N m k' (toCell x) (f k' x)) :
    k ≤ (each f k parts).1 ∧ (each f k parts).2.length = m * parts.length ∧
    (∀ d ∈ (each f k parts).2, ∃ x ∈ parts, d.length = N + 1 ∧
      (∀ i j l, (m : K) * signedVolume i j l d = signedVolume i j l (toCell x)) ∧
      (∀ p ∈ d, p ∈ toCell x ∨ (k ≤ p.id ∧ p.id < (each f k parts).1)) ∧
      (((toCell x).map (·.id)).Nodup → (∀ p ∈ toCell x, p.id < k) → (d.map (·.id)).Nodup)) := by
  induction parts generalizing k with
  | nil => simp [each]
  | cons x xs ih =>
    have hx := h k le_rfl x (by simp)
    have ih' := ih (k := (f k x).1) fun k' hk' y hy => h k' (hx.le.trans hk') y (by simp [hy])
    obtain ⟨i1, i2, i3⟩ := ih'
    simp only [each]
    refine ⟨hx.le.trans i1, ?_, ?_⟩
    · rw [List.length_append, hx.count, i2, List.length_cons]; ring
    · intro d hd
      rcases List.mem_append.mp hd with hd | hd
      · refine ⟨x, by simp, hx.len d hd, fun i j l => hx.vol i j l d hd, ?_, fun h1 h2 =>
          hx.nodup h1 h2 d hd⟩
        intro p hp
        rcases hx.within d hd p hp with h1 | h1
        · exact Or.inl h1
        · exact Or.inr ⟨h1.1, lt_of_lt_of_le h1.2 i1⟩
      · obtain ⟨y, hy, h1, h2, h3, h4⟩ := i3 d hd
        refine ⟨y, by simp [hy], h1, h2, ?_, fun g1 g2 => h4 g1 fun p hp =>
          lt_of_lt_of_le (g2 p hp) hx.le⟩
        intro p hp
        rcases h3 p hp with h5 | h5
        · exact Or.inl h5
        · exact Or.inr ⟨hx.le.trans h5.1, h5.2⟩

/-- two levels -/
theorem divided_each {β : Type*} {N m q e : Nat} {f : Nat → β → Nat × List (List (PNode K))}
    {toCell : β → List (PNode K)} {parts : List β} {k : Nat} {c : List (PNode K)}
    (hq : parts.length = q)
    (hvol : ∀ i j l, ∀ x ∈ parts, (q : K) * signedVolume i j l (toCell x) = signedVolume i j l c)
    (hin : ∀ x ∈ parts, ∀ p ∈ toCell x, p ∈ c ∨ (k ≤ p.id ∧ p.id < k + e))
    (hnd : (c.map (·.id)).Nodup → (∀ p ∈ c, p.id < k) → ∀ x ∈ parts, ((toCell x).map (·.id)).Nodup)
    (h : ∀ k', k + e ≤ k' → ∀ x ∈ parts, Divided N m k' (toCell x) (f k' x)) :
    Divided N (m * q) k c (each f (k + e) parts) := by
  obtain ⟨h1, h2, h3⟩ := each_divided parts h
  have hk : k ≤ k + e := Nat.le_add_right _ _
  refine ⟨hk.trans h1, by rw [h2, hq], ?_, ?_, ?_, ?_⟩
  · intro d hd
    obtain ⟨x, hx, g1, _⟩ := h3 d hd
    exact g1
  · intro i j l d hd
    obtain ⟨x, hx, _, g2, _⟩ := h3 d hd
    rw [← hvol i j l x hx, ← g2 i j l]
    push_cast; ring
  · intro d hd p hp
    obtain ⟨x, hx, _, _, g3, _⟩ := h3 d hd
    rcases g3 p hp with g | g
    · rcases hin x hx p g with g | g
      · exact Or.inl g
      · exact Or.inr ⟨g.1, lt_of_lt_of_le g.2 h1⟩
    · exact Or.inr ⟨hk.trans g.1, g.2⟩
  · intro n1 n2 d hd
    obtain ⟨x, hx, _, _, _, g4⟩ := h3 d hd
    refine g4 (hnd n1 n2 x hx) fun p hp => ?_
    rcases hin x hx p hp with g | g
    · exact lt_of_lt_of_le (n2 p g) hk
    · exact g.2

/-- inserting the parts -/
theorem divided_base {β : Type*} {N q e : Nat} {toCell : β → List (PNode K)} {parts : List β}
    {k : Nat} {c : List (PNode K)} (hq : parts.length = q)
    (hlen : ∀ x ∈ parts, (toCell x).length = N + 1)
    (hvol : ∀ i j l, ∀ x ∈ parts, (q : K) * signedVolume i j l (toCell x) = signedVolume i j l c)
    (hin : ∀ x ∈ parts, ∀ p ∈ toCell x, p ∈ c ∨ (k ≤ p.id ∧ p.id < k + e))
    (hnd : (c.map (·.id)).Nodup → (∀ p ∈ c, p.id < k) → ∀ x ∈ parts, ((toCell x).map (·.id)).Nodup) :
    Divided N q k c (k + e, parts.map toCell) where
  le := Nat.le_add_right _ _
  count := by simp [hq]
  len := by simpa using hlen
  vol i j l d hd := by
    obtain ⟨x, hx, rfl⟩ := List.mem_map.mp hd
    exact hvol i j l x hx
  within d hd := by
    obtain ⟨x, hx, rfl⟩ := List.mem_map.mp hd
    exact hin x hx
  nodup n1 n2 d hd := by
    obtain ⟨x, hx, rfl⟩ := List.mem_map.mp hd
    exact hnd n1 n2 x hx

/-! ### segments -/

theorem halves_facts (h2 : (2 : K) ≠ 0) (k : Nat) (c : PNode K × PNode K) :
    (∀ i j l, ∀ x ∈ halves k c,
      ((2 : Nat) : K) * signedVolume i j l [x.1, x.2] = signedVolume i j l [c.1, c.2]) ∧
    (∀ x ∈ halves k c, ∀ p ∈ [x.1, x.2], p ∈ [c.1, c.2] ∨ (k ≤ p.id ∧ p.id < k + 1)) ∧
    (([c.1, c.2].map (·.id)).Nodup → (∀ p ∈ [c.1, c.2], p.id < k) →
      ∀ x ∈ halves k c, ([x.1, x.2].map (·.id)).Nodup) := by
  refine ⟨?_, ?_, ?_⟩
  · intro i j l
    simp only [halves, List.mem_cons, List.not_mem_nil, or_false, forall_eq_or_imp, forall_eq,
      signedVolume, midnode, midpoint]
    push_cast
    refine ⟨?_, ?_⟩ <;> (field_simp; ring)
  · simp [halves, midnode]
  · simp only [halves, midnode, List.map_cons, List.map_nil, List.mem_cons, List.not_mem_nil, or_false,
      forall_eq_or_imp, forall_eq, List.nodup_cons, not_or, not_false_eq_true, List.nodup_nil, and_true]
    omega

theorem subdivideSegment_divided (h2 : (2 : K) ≠ 0) (n k : Nat) (c : PNode K × PNode K) :
    Divided 1 (2 ^ (n + 1)) k [c.1, c.2] (subdivideSegment n k c) := by
  induction n generalizing k c with
  | zero =>
    obtain ⟨f1, f2, f3⟩ := halves_facts h2 k c
    exact divided_base (toCell := fun d : PNode K × PNode K => [d.1, d.2]) rfl (by simp) f1 f2 f3
  | succ n ih =>
    obtain ⟨f1, f2, f3⟩ := halves_facts h2 k c
    rw [pow_succ]
    exact divided_each (toCell := fun d : PNode K × PNode K => [d.1, d.2]) rfl f1 f2 f3
      fun k' _ x _ => ih k' x

/-! ### triangles -/

theorem quarters_facts (h2 : (2 : K) ≠ 0) (k : Nat) (c : PNode K × PNode K × PNode K) :
    (∀ i j l, ∀ x ∈ quarters k c, ((4 : Nat) : K) * signedVolume i j l [x.1, x.2.1, x.2.2] =
      signedVolume i j l [c.1, c.2.1, c.2.2]) ∧
    (∀ x ∈ quarters k c, ∀ p ∈ [x.1, x.2.1, x.2.2],
      p ∈ [c.1, c.2.1, c.2.2] ∨ (k ≤ p.id ∧ p.id < k + 3)) ∧
    (([c.1, c.2.1, c.2.2].map (·.id)).Nodup → (∀ p ∈ [c.1, c.2.1, c.2.2], p.id < k) →
      ∀ x ∈ quarters k c, ([x.1, x.2.1, x.2.2].map (·.id)).Nodup) := by
  refine ⟨?_, ?_, ?_⟩
  · intro i j l
    simp only [quarters, List.mem_cons, List.not_mem_nil, or_false, forall_eq_or_imp, forall_eq,
      signedVolume, midnode, midpoint]
    push_cast
    have h4 : (4 : K) = 2 * 2 := by norm_num
    refine ⟨?_, ?_, ?_, ?_⟩ <;> (rw [h4]; field_simp; ring)
  · simp [quarters, midnode]
  · simp only [quarters, midnode, List.map_cons, List.map_nil, List.mem_cons, List.not_mem_nil,
      or_false, forall_eq_or_imp, forall_eq, List.nodup_cons, not_or, not_false_eq_true,
      List.nodup_nil, and_true]
    omega

theorem subdivideTriangle_divided (h2 : (2 : K) ≠ 0) (n k : Nat) (c : PNode K × PNode K × PNode K) :
    Divided 2 (4 ^ (n + 1)) k [c.1, c.2.1, c.2.2] (subdivideTriangle n k c) := by
  induction n generalizing k c with
  | zero =>
    obtain ⟨f1, f2, f3⟩ := quarters_facts h2 k c
    exact divided_base (toCell := fun d : PNode K × PNode K × PNode K => [d.1, d.2.1, d.2.2]) rfl
      (by simp) f1 f2 f3
  | succ n ih =>
    obtain ⟨f1, f2, f3⟩ := quarters_facts h2 k c
    rw [pow_succ]
    exact divided_each (toCell := fun d : PNode K × PNode K × PNode K => [d.1, d.2.1, d.2.2]) rfl f1
      f2 f3 fun k' _ x _ => ih k' x

/-! ### tetrahedra -/

abbrev tet (d : PNode K × PNode K × PNode K × PNode K) : List (PNode K) :=
  [d.1, d.2.1, d.2.2.1, d.2.2.2]

theorem eighths_vol (h2 : (2 : K) ≠ 0) (k : Nat) (c : PNode K × PNode K × PNode K × PNode K) :
    ∀ i j l, ∀ x ∈ eighths k c,
      ((8 : Nat) : K) * signedVolume i j l (tet x) = signedVolume i j l (tet c) := by
  intro i j l
  simp only [eighths, List.mem_cons, List.not_mem_nil, or_false, forall_eq_or_imp, forall_eq,
    signedVolume, midnode, midpoint, tet]
  push_cast
  have h8 : (8 : K) = 2 * 2 * 2 := by norm_num
  refine ⟨?_, ?_, ?_, ?_, ?_, ?_, ?_, ?_⟩ <;> (rw [h8]; field_simp; ring)

theorem eighthsRec_vol (h2 : (2 : K) ≠ 0) (k : Nat) (c : PNode K × PNode K × PNode K × PNode K) :
    ∀ i j l, ∀ x ∈ eighthsRec k c,
      ((8 : Nat) : K) * signedVolume i j l (tet x) = signedVolume i j l (tet c) := by
  intro i j l
  simp only [eighthsRec, List.mem_cons, List.not_mem_nil, or_false, forall_eq_or_imp, forall_eq,
    signedVolume, midnode, midpoint, tet]
  push_cast
  have h8 : (8 : K) = 2 * 2 * 2 := by norm_num
  refine ⟨?_, ?_, ?_, ?_, ?_, ?_, ?_, ?_⟩ <;> (rw [h8]; field_simp; ring)

theorem eighths_facts (k : Nat) (c : PNode K × PNode K × PNode K × PNode K) :
    (∀ x ∈ eighths k c, ∀ p ∈ tet x, p ∈ tet c ∨ (k ≤ p.id ∧ p.id < k + 6)) ∧
    (((tet c).map (·.id)).Nodup → (∀ p ∈ tet c, p.id < k) →
      ∀ x ∈ eighths k c, ((tet x).map (·.id)).Nodup) := by
  refine ⟨?_, ?_⟩
  · simp [eighths, midnode, tet]
  · simp only [eighths, midnode, List.map_cons, List.map_nil, List.mem_cons, List.not_mem_nil,
      or_false, forall_eq_or_imp, forall_eq, List.nodup_cons, not_or, not_false_eq_true,
      List.nodup_nil, and_true, tet]
    omega

theorem eighthsRec_facts (k : Nat) (c : PNode K × PNode K × PNode K × PNode K) :
    (∀ x ∈ eighthsRec k c, ∀ p ∈ tet x, p ∈ tet c ∨ (k ≤ p.id ∧ p.id < k + 6)) ∧
    (((tet c).map (·.id)).Nodup → (∀ p ∈ tet c, p.id < k) →
      ∀ x ∈ eighthsRec k c, ((tet x).map (·.id)).Nodup) := by
  refine ⟨?_, ?_⟩
  · simp [eighthsRec, midnode, tet]
  · simp only [eighthsRec, midnode, List.map_cons, List.map_nil, List.mem_cons, List.not_mem_nil,
      or_false, forall_eq_or_imp, forall_eq, List.nodup_cons, not_or, not_false_eq_true,
      List.nodup_nil, and_true, tet]
    omega

theorem subdivideTetrahedron_divided (h2 : (2 : K) ≠ 0) (n k : Nat)
    (c : PNode K × PNode K × PNode K × PNode K) :
    Divided 3 (8 ^ (n + 1)) k (tet c) (subdivideTetrahedron n k c) := by
  induction n generalizing k c with
  | zero =>
    obtain ⟨f2, f3⟩ := eighths_facts k c
    exact divided_base (toCell := tet) rfl (by simp [tet]) (eighths_vol h2 k c) f2 f3
  | succ n ih =>
    obtain ⟨f2, f3⟩ := eighthsRec_facts k c
    rw [pow_succ]
    exact divided_each (toCell := tet) rfl (eighthsRec_vol h2 k c) f2 f3 fun k' _ x _ => ih k' x

theorem subdivideCell_divided (h2 : (2 : K) ≠ 0) (n k : Nat) (c : List (PNode K)) (hc : IsCell c) :
    Divided (c.length - 1) ((2 ^ (c.length - 1)) ^ (n + 1)) k c (subdivideCell n k c) := by
  match c, hc with
  | [a, b], _ => exact subdivideSegment_divided h2 n k (a, b)
  | [a, b, c], _ => exact subdivideTriangle_divided h2 n k (a, b, c)
  | [a, b, c, d], _ => exact subdivideTetrahedron_divided h2 n k (a, b, c, d)
  | [], h => simp [IsCell] at h
  | [_], h => simp [IsCell] at h
  | _ :: _ :: _ :: _ :: _ :: _, h => simp [IsCell] at h

theorem each_append {β : Type*} (f : Nat → β → Nat × List (List (PNode K))) (k : Nat)
    (l₁ l₂ : List β) : each f k (l₁ ++ l₂) =
      ((each f (each f k l₁).1 l₂).1, (each f k l₁).2 ++ (each f (each f k l₁).1 l₂).2) := by
  induction l₁ generalizing k with
  | nil => simp [each]
  | cons x xs ih => simp [each, ih, List.append_assoc]

theorem each_sum {β : Type*} (f : Nat → β → Nat × List (List (PNode K))) (v : List (PNode K) → K)
    (w : β → K) (parts : List β) (k : Nat)
    (h : ∀ k', ∀ x ∈ parts, ((f k' x).2.map v).sum = w x) :
    ((each f k parts).2.map v).sum = (parts.map w).sum := by
  induction parts generalizing k with
  | nil => simp [each]
  | cons x xs ih =>
    simp only [each, List.map_append, List.sum_append, List.map_cons, List.sum_cons]
    rw [h k x (by simp), ih _ fun k' y hy => h k' y (by simp [hy])]

theorem each_next {β : Type*} (f : Nat → β → Nat × List (List (PNode K))) (e : Nat) (parts : List β)
    (k : Nat) (h : ∀ k', ∀ x ∈ parts, (f k' x).1 = k' + e) :
    (each f k parts).1 = k + parts.length * e := by
  induction parts generalizing k with
  | nil => simp [each]
  | cons x xs ih =>
    simp only [each]
    rw [ih _ fun k' y hy => h k' y (by simp [hy]), h k x (by simp), List.length_cons]
    ring

theorem subdivideCell_next (n k : Nat) (c : List (PNode K)) (hc : IsCell c) :
    (subdivideCell n k c).1 =
      k + newNodes (2 ^ (c.length - 1)) (c.length * (c.length - 1) / 2) (n + 1) := by
  have seg : ∀ n k (c : PNode K × PNode K), (subdivideSegment n k c).1 = k + newNodes 2 1 (n + 1) := by
    intro n
    induction n with
    | zero => exact fun k c => rfl
    | succ n ih =>
      intro k c
      have := each_next (subdivideSegment n) _ (halves k c) (k + 1) fun k' x _ => ih k' x
      rw [show subdivideSegment (n + 1) k c = each (subdivideSegment n) (k + 1) (halves k c) from rfl,
        this, show newNodes 2 1 (n + 1 + 1) = 1 + 2 * newNodes 2 1 (n + 1) from rfl]
      simp only [halves, List.length_cons, List.length_nil]
      ring
  have tri : ∀ n k (c : PNode K × PNode K × PNode K),
      (subdivideTriangle n k c).1 = k + newNodes 4 3 (n + 1) := by
    intro n
    induction n with
    | zero => exact fun k c => rfl
    | succ n ih =>
      intro k c
      have := each_next (subdivideTriangle n) _ (quarters k c) (k + 3) fun k' x _ => ih k' x
      rw [show subdivideTriangle (n + 1) k c = each (subdivideTriangle n) (k + 3) (quarters k c) from
        rfl, this, show newNodes 4 3 (n + 1 + 1) = 3 + 4 * newNodes 4 3 (n + 1) from rfl]
      simp only [quarters, List.length_cons, List.length_nil]
      ring
  have tt : ∀ n k (c : PNode K × PNode K × PNode K × PNode K),
      (subdivideTetrahedron n k c).1 = k + newNodes 8 6 (n + 1) := by
    intro n
    induction n with
    | zero => exact fun k c => rfl
    | succ n ih =>
      intro k c
      have := each_next (subdivideTetrahedron n) _ (eighthsRec k c) (k + 6) fun k' x _ => ih k' x
      rw [show subdivideTetrahedron (n + 1) k c =
          each (subdivideTetrahedron n) (k + 6) (eighthsRec k c) from rfl, this,
        show newNodes 8 6 (n + 1 + 1) = 6 + 8 * newNodes 8 6 (n + 1) from rfl]
      simp only [eighthsRec, List.length_cons, List.length_nil]
      ring
  match c, hc with
  | [a, b], _ => simpa [subdivideCell] using seg n k (a, b)
  | [a, b, c], _ => simpa [subdivideCell] using tri n k (a, b, c)
  | [a, b, c, d], _ => simpa [subdivideCell] using tt n k (a, b, c, d)
  | [], h => simp [IsCell] at h
  | [_], h => simp [IsCell] at h
  | _ :: _ :: _ :: _ :: _ :: _, h => simp [IsCell] at h

/-! ### the parts fill the cell -/

section Hull

variable [LinearOrder K] [IsStrictOrderedRing K]

/-- the parts fill the cell `c` exactly -/
def Fills (c : List (PNode K)) (L : List (List (PNode K))) : Prop :=
  ∀ x, InHull c x ↔ ∃ d ∈ L, InHull d x

theorem inHull_two (a b : PNode K) (x : Nat → K) : InHull [a, b] x ↔
    ∃ p q : K, 0 ≤ p ∧ 0 ≤ q ∧ p + q = 1 ∧ ∀ i, x i = p * a.pos i + q * b.pos i := by
  constructor
  · rintro ⟨w, h1, h2, h3, h4⟩
    match w, h1 with
    | [p, q], _ => exact ⟨p, q, by simpa using h2 p, by simpa using h2 q, by simpa using h3,
        by simpa using h4⟩
  · rintro ⟨p, q, h1, h2, h3, h4⟩
    exact ⟨[p, q], rfl, by simp [h1, h2], by simpa using h3, by simpa using h4⟩

theorem inHull_three (a b c : PNode K) (x : Nat → K) : InHull [a, b, c] x ↔
    ∃ p q r : K, 0 ≤ p ∧ 0 ≤ q ∧ 0 ≤ r ∧ p + q + r = 1 ∧
      ∀ i, x i = p * a.pos i + q * b.pos i + r * c.pos i := by
  constructor
  · rintro ⟨w, h1, h2, h3, h4⟩
    match w, h1 with
    | [p, q, r], _ => exact ⟨p, q, r, by simpa using h2 p, by simpa using h2 q, by simpa using h2 r,
        by simpa [add_assoc] using h3, by simpa [add_assoc] using h4⟩
  · rintro ⟨p, q, r, h1, h2, h3, h4, h5⟩
    exact ⟨[p, q, r], rfl, by simp [h1, h2, h3], by simpa [add_assoc] using h4,
      by simpa [add_assoc] using h5⟩

theorem inHull_four (a b c d : PNode K) (x : Nat → K) : InHull [a, b, c, d] x ↔
    ∃ p q r s : K, 0 ≤ p ∧ 0 ≤ q ∧ 0 ≤ r ∧ 0 ≤ s ∧ p + q + r + s = 1 ∧
      ∀ i, x i = p * a.pos i + q * b.pos i + r * c.pos i + s * d.pos i := by
  constructor
  · rintro ⟨w, h1, h2, h3, h4⟩
    match w, h1 with
    | [p, q, r, s], _ => exact ⟨p, q, r, s, by simpa using h2 p, by simpa using h2 q,
        by simpa using h2 r, by simpa using h2 s, by simpa [add_assoc] using h3,
        by simpa [add_assoc] using h4⟩
  · rintro ⟨p, q, r, s, h1, h2, h3, h4, h5, h6⟩
    exact ⟨[p, q, r, s], rfl, by simp [h1, h2, h3, h4], by simpa [add_assoc] using h5,
      by simpa [add_assoc] using h6⟩

theorem halves_fill (k : Nat) (c : PNode K × PNode K) :
    Fills [c.1, c.2] ((halves k c).map fun d => [d.1, d.2]) := by
  intro x
  simp only [halves, List.map_cons, List.map_nil, List.mem_cons, List.not_mem_nil, or_false,
    exists_eq_or_imp, exists_eq_left, inHull_two, midnode, midpoint]
  constructor
  · rintro ⟨p, q, hp, hq, h1, hx⟩
    rcases le_total (1 / 2) p with h | h
    · refine Or.inl ⟨2 * p - 1, 2 * q, by linarith, by linarith, by linarith, fun i => ?_⟩
      rw [hx]; linear_combination (- c.1.pos i) * h1
    · refine Or.inr ⟨2 * p, 2 * q - 1, by linarith, by linarith, by linarith, fun i => ?_⟩
      rw [hx]; linear_combination (- c.2.pos i) * h1
  · rintro (⟨p, q, hp, hq, h1, hx⟩ | ⟨p, q, hp, hq, h1, hx⟩)
    · exact ⟨p + q / 2, q / 2, by linarith, by linarith, by linarith, fun i => by rw [hx]; ring⟩
    · exact ⟨p / 2, q + p / 2, by linarith, by linarith, by linarith, fun i => by rw [hx]; ring⟩

theorem quarters_fill (k : Nat) (c : PNode K × PNode K × PNode K) :
    Fills [c.1, c.2.1, c.2.2] ((quarters k c).map fun d => [d.1, d.2.1, d.2.2]) := by
  intro x
  simp only [quarters, List.map_cons, List.map_nil, List.mem_cons, List.not_mem_nil, or_false,
    exists_eq_or_imp, exists_eq_left, inHull_three, midnode, midpoint]
  constructor
  · rintro ⟨p, q, r, hp, hq, hr, h1, hx⟩
    rcases le_total (1 / 2) p with h | h
    · refine Or.inl ⟨2 * p - 1, 2 * q, 2 * r, by linarith, by linarith, by linarith, by linarith,
        fun i => ?_⟩
      rw [hx]; linear_combination (- c.1.pos i) * h1
    rcases le_total (1 / 2) q with h' | h'
    · refine Or.inr (Or.inl ⟨2 * p, 2 * q - 1, 2 * r, by linarith, by linarith, by linarith,
        by linarith, fun i => ?_⟩)
      rw [hx]; linear_combination (- c.2.1.pos i) * h1
    rcases le_total (1 / 2) r with h'' | h''
    · refine Or.inr (Or.inr (Or.inl ⟨2 * q, 2 * r - 1, 2 * p, by linarith, by linarith, by linarith,
        by linarith, fun i => ?_⟩))
      rw [hx]; linear_combination (- c.2.2.pos i) * h1
    · refine Or.inr (Or.inr (Or.inr ⟨1 - 2 * q, 1 - 2 * r, 1 - 2 * p, by linarith, by linarith,
        by linarith, by linarith, fun i => ?_⟩))
      rw [hx]
      linear_combination (c.1.pos i + c.2.1.pos i + c.2.2.pos i) * h1
  · rintro (⟨p, q, r, hp, hq, hr, h1, hx⟩ | ⟨p, q, r, hp, hq, hr, h1, hx⟩ |
      ⟨p, q, r, hp, hq, hr, h1, hx⟩ | ⟨p, q, r, hp, hq, hr, h1, hx⟩)
    · exact ⟨p + q / 2 + r / 2, q / 2, r / 2, by linarith, by linarith, by linarith, by linarith,
        fun i => by rw [hx]; ring⟩
    · exact ⟨p / 2, p / 2 + q + r / 2, r / 2, by linarith, by linarith, by linarith, by linarith,
        fun i => by rw [hx]; ring⟩
    · exact ⟨r / 2, p / 2, p / 2 + q + r / 2, by linarith, by linarith, by linarith, by linarith,
        fun i => by rw [hx]; ring⟩
    · exact ⟨p / 2 + q / 2, q / 2 + r / 2, p / 2 + r / 2, by linarith, by linarith, by linarith,
        by linarith, fun i => by rw [hx]; ring⟩

theorem eighths_fill (k : Nat) (c : PNode K × PNode K × PNode K × PNode K) :
    Fills (tet c) ((eighths k c).map tet) := by
  intro x
  simp only [eighths, tet, List.map_cons, List.map_nil, List.mem_cons, List.not_mem_nil, or_false,
    exists_eq_or_imp, exists_eq_left, inHull_four, midnode, midpoint]
  constructor
  · rintro ⟨p, q, r, s, hp, hq, hr, hs, h1, hx⟩
    rcases le_total (1 / 2) p with h | h
    · refine Or.inl ⟨2 * p - 1, 2 * q, 2 * r, 2 * s, by linarith, by linarith, by linarith,
        by linarith, by linarith, fun i => ?_⟩
      rw [hx]; linear_combination (- c.1.pos i) * h1
    rcases le_total (1 / 2) q with h' | h'
    · refine Or.inr (Or.inl ⟨2 * q - 1, 2 * p, 2 * s, 2 * r, by linarith, by linarith, by linarith,
        by linarith, by linarith, fun i => ?_⟩)
      rw [hx]; linear_combination (- c.2.1.pos i) * h1
    rcases le_total (1 / 2) r with h'' | h''
    · refine Or.inr (Or.inr (Or.inl ⟨2 * r - 1, 2 * p, 2 * q, 2 * s, by linarith, by linarith,
        by linarith, by linarith, by linarith, fun i => ?_⟩))
      rw [hx]; linear_combination (- c.2.2.1.pos i) * h1
    rcases le_total (1 / 2) s with h''' | h'''
    · refine Or.inr (Or.inr (Or.inr (Or.inl ⟨2 * s - 1, 2 * q, 2 * p, 2 * r, by linarith,
        by linarith, by linarith, by linarith, by linarith, fun i => ?_⟩)))
      rw [hx]; linear_combination (- c.2.2.2.pos i) * h1
    rcases le_total (1 / 2) (p + q) with a | a <;> rcases le_total (1 / 2) (p + s) with b | b
    · refine Or.inr (Or.inr (Or.inr (Or.inr (Or.inl ⟨2 * r, 2 * q - 1 + 2 * p, 1 - 2 * p,
        2 * s - 1 + 2 * p, by linarith, by linarith, by linarith, by linarith, by linarith,
        fun i => ?_⟩))))
      rw [hx]; linear_combination (- c.1.pos i) * h1
    · refine Or.inr (Or.inr (Or.inr (Or.inr (Or.inr (Or.inr (Or.inl ⟨1 - 2 * q, 2 * s,
        2 * p - 1 + 2 * q, 2 * r - 1 + 2 * q, by linarith, by linarith, by linarith, by linarith,
        by linarith, fun i => ?_⟩))))))
      rw [hx]; linear_combination (- c.2.1.pos i) * h1
    · refine Or.inr (Or.inr (Or.inr (Or.inr (Or.inr (Or.inl ⟨1 - 2 * s, 2 * p - 1 + 2 * s, 2 * q,
        2 * r - 1 + 2 * s, by linarith, by linarith, by linarith, by linarith, by linarith,
        fun i => ?_⟩)))))
      rw [hx]; linear_combination (- c.2.2.2.pos i) * h1
    · refine Or.inr (Or.inr (Or.inr (Or.inr (Or.inr (Or.inr (Or.inr ⟨2 * p, 2 * s - 1 + 2 * r,
        1 - 2 * r, 2 * q - 1 + 2 * r, by linarith, by linarith, by linarith, by linarith,
        by linarith, fun i => ?_⟩))))))
      rw [hx]; linear_combination (- c.2.2.1.pos i) * h1
  · rintro (⟨p, q, r, s, hp, hq, hr, hs, h1, hx⟩ | ⟨p, q, r, s, hp, hq, hr, hs, h1, hx⟩ |
      ⟨p, q, r, s, hp, hq, hr, hs, h1, hx⟩ | ⟨p, q, r, s, hp, hq, hr, hs, h1, hx⟩ |
      ⟨p, q, r, s, hp, hq, hr, hs, h1, hx⟩ | ⟨p, q, r, s, hp, hq, hr, hs, h1, hx⟩ |
      ⟨p, q, r, s, hp, hq, hr, hs, h1, hx⟩ | ⟨p, q, r, s, hp, hq, hr, hs, h1, hx⟩)
    · exact ⟨p + (q + r + s) / 2, q / 2, r / 2, s / 2, by linarith, by linarith, by linarith,
        by linarith, by linarith, fun i => by rw [hx]; ring⟩
    · exact ⟨q / 2, p + (q + r + s) / 2, s / 2, r / 2, by linarith, by linarith, by linarith,
        by linarith, by linarith, fun i => by rw [hx]; ring⟩
    · exact ⟨q / 2, r / 2, p + (q + r + s) / 2, s / 2, by linarith, by linarith, by linarith,
        by linarith, by linarith, fun i => by rw [hx]; ring⟩
    · exact ⟨r / 2, q / 2, s / 2, p + (q + r + s) / 2, by linarith, by linarith, by linarith,
        by linarith, by linarith, fun i => by rw [hx]; ring⟩
    · exact ⟨(p + q + s) / 2, (q + r) / 2, p / 2, (r + s) / 2, by linarith, by linarith, by linarith,
        by linarith, by linarith, fun i => by rw [hx]; ring⟩
    · exact ⟨(p + q) / 2, r / 2, (p + s) / 2, (q + r + s) / 2, by linarith, by linarith, by linarith,
        by linarith, by linarith, fun i => by rw [hx]; ring⟩
    · exact ⟨(p + r) / 2, (q + r + s) / 2, (p + s) / 2, q / 2, by linarith, by linarith, by linarith,
        by linarith, by linarith, fun i => by rw [hx]; ring⟩
    · exact ⟨p / 2, (r + s) / 2, (p + q + s) / 2, (q + r) / 2, by linarith, by linarith, by linarith,
        by linarith, by linarith, fun i => by rw [hx]; ring⟩

/-- the order of the nodes does not matter -/
theorem inHull_perm {c d : List (PNode K)} (h : c.Perm d) (x : Nat → K) (hx : InHull c x) :
    InHull d x := by
  suffices H : ∀ w : List K, w.length = c.length → (∀ a ∈ w, 0 ≤ a) →
      ∃ w' : List K, w'.length = d.length ∧ (∀ a ∈ w', 0 ≤ a) ∧ w'.sum = w.sum ∧
        ∀ i, (List.zipWith (fun a p => a * p.pos i) w' d).sum =
          (List.zipWith (fun a p => a * p.pos i) w c).sum by
    obtain ⟨w, h1, h2, h3, h4⟩ := hx
    obtain ⟨w', g1, g2, g3, g4⟩ := H w h1 h2
    exact ⟨w', g1, g2, g3.trans h3, fun i => (h4 i).trans (g4 i).symm⟩
  clear hx
  induction h with
  | nil => exact fun w h1 h2 => ⟨w, h1, h2, rfl, fun _ => rfl⟩
  | cons a _ ih =>
    intro w h1 h2
    match w, h1 with
    | p :: w, h1 =>
      obtain ⟨w', g1, g2, g3, g4⟩ := ih w (by simpa using h1) fun a ha => h2 a (by simp [ha])
      refine ⟨p :: w', by simp [g1], ?_, by simp [g3], fun i => by simp [g4]⟩
      simp only [List.mem_cons, forall_eq_or_imp]
      exact ⟨h2 p (by simp), g2⟩
  | swap a b l =>
    intro w h1 h2
    match w, h1 with
    | p :: q :: w, h1 =>
      refine ⟨q :: p :: w, by simpa using h1, fun a ha => h2 a ?_, ?_, fun i => ?_⟩
      · simp only [List.mem_cons] at ha ⊢; tauto
      · simp only [List.sum_cons]; ring
      · simp only [List.zipWith_cons_cons, List.sum_cons]; ring
  | trans _ _ ih1 ih2 =>
    intro w h1 h2
    obtain ⟨w', g1, g2, g3, g4⟩ := ih1 w h1 h2
    obtain ⟨w'', f1, f2, f3, f4⟩ := ih2 w' g1 g2
    exact ⟨w'', f1, f2, f3.trans g3, fun i => (f4 i).trans (g4 i)⟩

theorem inHull_perm_iff {c d : List (PNode K)} (h : c.Perm d) (x : Nat → K) :
    InHull c x ↔ InHull d x := ⟨inHull_perm h x, inHull_perm h.symm x⟩

theorem eighthsRec_fill (k : Nat) (c : PNode K × PNode K × PNode K × PNode K) :
    Fills (tet c) ((eighthsRec k c).map tet) := by
  intro x
  rw [eighths_fill k c x]
  have e1 : ∀ a b c d : PNode K, InHull [a, b, c, d] x ↔ InHull [c, a, b, d] x := fun a b c d =>
    inHull_perm_iff (((List.Perm.swap c b [d]).cons a).symm.symm.trans (List.Perm.swap c a [b, d])) x
  simp only [eighths, eighthsRec, tet, List.map_cons, List.map_nil, List.mem_cons, List.not_mem_nil,
    or_false, exists_eq_or_imp, exists_eq_left]
  exact or_congr Iff.rfl (or_congr Iff.rfl (or_congr Iff.rfl (or_congr (e1 _ _ _ _)
    (or_congr Iff.rfl (or_congr Iff.rfl (or_congr (e1 _ _ _ _) Iff.rfl))))))

theorem each_fill {β : Type*} {f : Nat → β → Nat × List (List (PNode K))}
    {toCell : β → List (PNode K)} (parts : List β) (k : Nat)
    (h : ∀ k', ∀ x ∈ parts, Fills (toCell x) (f k' x).2) (x : Nat → K) :
    (∃ y ∈ parts, InHull (toCell y) x) ↔ ∃ d ∈ (each f k parts).2, InHull d x := by
  induction parts generalizing k with
  | nil => simp [each]
  | cons y ys ih =>
    have h1 := h k y (by simp) x
    have h2 := ih (f k y).1 fun k' z hz => h k' z (by simp [hz])
    simp only [each, List.mem_cons, exists_eq_or_imp, List.mem_append, or_and_right, exists_or,
      exists_eq_left]
    rw [h1, h2]

theorem fills_each {β : Type*} {f : Nat → β → Nat × List (List (PNode K))}
    {toCell : β → List (PNode K)} {parts : List β} {k : Nat} {c : List (PNode K)}
    (hc : Fills c (parts.map toCell)) (h : ∀ k', ∀ x ∈ parts, Fills (toCell x) (f k' x).2) :
    Fills c (each f k parts).2 := by
  intro x
  rw [hc x, ← each_fill parts k h x]
  simp

theorem subdivideCell_fills (n k : Nat) (c : List (PNode K)) (hc : IsCell c) :
    Fills c (subdivideCell n k c).2 := by
  have seg : ∀ n k (c : PNode K × PNode K), Fills [c.1, c.2] (subdivideSegment n k c).2 := by
    intro n
    induction n with
    | zero => exact fun k c => halves_fill k c
    | succ n ih =>
      exact fun k c => fills_each (toCell := fun d : PNode K × PNode K => [d.1, d.2]) (halves_fill k c)
          fun k' x _ => ih k' x
  have tri : ∀ n k (c : PNode K × PNode K × PNode K),
      Fills [c.1, c.2.1, c.2.2] (subdivideTriangle n k c).2 := by
    intro n
    induction n with
    | zero => exact fun k c => quarters_fill k c
    | succ n ih =>
      exact fun k c => fills_each (toCell := fun d : PNode K × PNode K × PNode K => [d.1, d.2.1, d.2.2])
          (quarters_fill k c) fun k' x _ => ih k' x
  have tt : ∀ n k (c : PNode K × PNode K × PNode K × PNode K),
      Fills (tet c) (subdivideTetrahedron n k c).2 := by
    intro n
    induction n with
    | zero => exact fun k c => eighths_fill k c
    | succ n ih =>
      exact fun k c => fills_each (toCell := tet) (eighthsRec_fill k c) fun k' x _ => ih k' x
  match c, hc with
  | [a, b], _ => exact seg n k (a, b)
  | [a, b, c], _ => exact tri n k (a, b, c)
  | [a, b, c, d], _ => exact tt n k (a, b, c, d)
  | [], h => simp [IsCell] at h
  | [_], h => simp [IsCell] at h
  | _ :: _ :: _ :: _ :: _ :: _, h => simp [IsCell] at h

end Hull

end Mito.Refine
