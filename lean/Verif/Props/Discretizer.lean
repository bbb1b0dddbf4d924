import Verif.Fem.DiscretizerLemmas

/-! # C58: discretizers -/

namespace Mito.Discretizer

open Mito.Numbering

variable {alloc : List Nat → Nat} {other : List Nat}

/-- First order segments and triangles: two places of elements have the same discretization node exactly if
they have the same mesh node. -/
theorem p1_shares_nodes (ha : ∀ l, alloc l ∉ l) (ho : other.Nodup) (cells : List (List Nat)) :
    SharesNodes cells (elementsP1 alloc other [] cells).2 := by
  obtain ⟨f, h1, -, -, -, h2⟩ := elementsP1_eq ha ho cells
  rw [h1]
  constructor
  · simp
  · intro j c hc
    simp [hc]
  · intro j k j' k' c c' e e' n n' d d' hc hn hc' hn' he hd he' hd'
    have m := List.mem_flatten.mpr ⟨c, List.mem_of_getElem? hc, List.mem_of_getElem? hn⟩
    have m' := List.mem_flatten.mpr ⟨c', List.mem_of_getElem? hc', List.mem_of_getElem? hn'⟩
    simp only [List.getElem?_map, hc, Option.map_some, Option.some.injEq] at he
    simp only [List.getElem?_map, hc', Option.map_some, Option.some.injEq] at he'
    subst he he'
    simp only [List.getElem?_map, hn, Option.map_some, Option.some.injEq] at hd
    simp only [List.getElem?_map, hn', Option.map_some, Option.some.injEq] at hd'
    subst hd hd'
    exact ⟨h2 n m n' m', fun e => by rw [e]⟩

/-- The constrained nodes are the discretization nodes of the nodes of the domain of the constraint, if
these are nodes of the mesh; otherwise an end iterator is dereferenced. -/
theorem p1_constrained (ha : ∀ l, alloc l ∉ l) (ho : other.Nodup) (cells : List (List Nat))
    (domain : List Nat) :
    let r := elementsP1 alloc other [] cells
    ((∀ n ∈ domain, n ∈ cells.flatten) ∧ ∃ l, constrainedP1 r.1 domain = .ok l ∧
      ∀ (j k : Nat) (c e : List Nat) (n d : Nat), cells[j]? = some c → c[k]? = some n →
        r.2[j]? = some e → e[k]? = some d → (d ∈ l ↔ n ∈ domain)) ∨
    ((∃ n ∈ domain, n ∉ cells.flatten) ∧ constrainedP1 r.1 domain = .undefined) := by
  obtain ⟨f, h1, h2, h3, -, h4⟩ := elementsP1_eq ha ho cells
  by_cases hd : ∀ n ∈ domain, n ∈ cells.flatten
  · refine .inl ⟨hd, _, constrainedP1_eq fun n hn => h2 n (hd n hn), ?_⟩
    intro j k c e n d hc hn he hd'
    rw [h1] at he
    have m := List.mem_flatten.mpr ⟨c, List.mem_of_getElem? hc, List.mem_of_getElem? hn⟩
    simp only [List.getElem?_map, hc, Option.map_some, Option.some.injEq] at he
    subst he
    simp only [List.getElem?_map, hn, Option.map_some, Option.some.injEq] at hd'
    subst hd'
    constructor
    · intro h
      obtain ⟨n', hn', e⟩ := List.mem_map.mp h
      rwa [← h4 n' (hd n' hn') n m e]
    · intro h
      exact List.mem_map.mpr ⟨n, h, rfl⟩
  · push Not at hd
    obtain ⟨n, hn, hc⟩ := hd
    exact .inr ⟨⟨n, hn, hc⟩, constrainedP1_undefined hn (h3 n hc)⟩

/-- Second order triangles: two places of elements have the same discretization node exactly if they are the
same mesh node or the same edge. -/
theorem p2_shares_places (ha : ∀ l, alloc l ∉ l) (ho : other.Nodup) (cells : List Cell) :
    SharesPlaces cells (elementsP2 alloc other ⟨[], []⟩ cells).2 := by
  obtain ⟨f, h1, -, -, -, h2⟩ := elementsP2_eq ha ho cells
  rw [h1]
  constructor
  · simp
  · intro e he
    obtain ⟨c, _, rfl⟩ := List.mem_map.mp he
    simp [places]
  · intro j k j' k' c c' e e' n n' d d' hc hn hc' hn' he hd he' hd'
    have m := List.mem_flatMap.mpr ⟨c, List.mem_of_getElem? hc, List.mem_of_getElem? hn⟩
    have m' := List.mem_flatMap.mpr ⟨c', List.mem_of_getElem? hc', List.mem_of_getElem? hn'⟩
    simp only [List.getElem?_map, hc, Option.map_some, Option.some.injEq] at he
    simp only [List.getElem?_map, hc', Option.map_some, Option.some.injEq] at he'
    subst he he'
    simp only [List.getElem?_map, hn, Option.map_some, Option.some.injEq] at hd
    simp only [List.getElem?_map, hn', Option.map_some, Option.some.injEq] at hd'
    subst hd hd'
    exact ⟨h2 n m n' m', fun e => by rw [e]⟩

/-- the places of a segment of the domain of a constraint -/
def segmentPlaces (c : Nat × Nat) : List (Nat ⊕ Sym2 Nat) := [.inl c.1, .inl c.2, .inr s(c.1, c.2)]

/-- If the segments of the domain are edges of the mesh, the constrained nodes are the discretization nodes
of their nodes and of the segments themselves. -/
theorem p2_constrained (ha : ∀ l, alloc l ∉ l) (ho : other.Nodup) (cells : List Cell)
    (domain : List (Nat × Nat)) (hd : ∀ c ∈ domain, Sum.inr s(c.1, c.2) ∈ cells.flatMap places) :
    let r := elementsP2 alloc other ⟨[], []⟩ cells
    ∃ l, constrainedP2 r.1 domain = .ok l ∧
      ∀ (j k : Nat) (c : Cell) (e : List Nat) (n : Nat ⊕ Sym2 Nat) (d : Nat), cells[j]? = some c →
        (places c)[k]? = some n → r.2[j]? = some e → e[k]? = some d →
        (d ∈ l ↔ n ∈ domain.flatMap segmentPlaces) := by
  obtain ⟨f, h1, h2, -, -, h4⟩ := elementsP2_eq ha ho cells
  have hnode : ∀ a b, Sum.inr s(a, b) ∈ cells.flatMap places →
      Sum.inl a ∈ cells.flatMap places ∧ Sum.inl b ∈ cells.flatMap places := by
    intro a b h
    obtain ⟨c, hc, hm⟩ := List.mem_flatMap.mp h
    have key : Sum.inl a ∈ places c ∧ Sum.inl b ∈ places c := by
      simp only [places, List.mem_cons, List.not_mem_nil, or_false, reduceCtorEq, false_or,
        Sum.inr.injEq, Sum.inl.injEq, Sym2.eq_iff] at hm ⊢
      omega
    exact ⟨List.mem_flatMap.mpr ⟨c, hc, key.1⟩, List.mem_flatMap.mpr ⟨c, hc, key.2⟩⟩
  have hl : ∀ dom : List (Nat × Nat), (∀ c ∈ dom, Sum.inr s(c.1, c.2) ∈ cells.flatMap places) →
      constrainedP2 (elementsP2 alloc other ⟨[], []⟩ cells).1 dom =
        .ok ((dom.flatMap segmentPlaces).map f) := by
    intro dom
    induction dom with
    | nil => intro _; rfl
    | cons c dom ih =>
      intro hd
      obtain ⟨a, b⟩ := c
      have he := hd (a, b) (by simp)
      obtain ⟨na, nb⟩ := hnode a b he
      have la : lookup _ a = some _ := h2 _ na
      have lb : lookup _ b = some _ := h2 _ nb
      have lm := h2 _ he
      rw [lookupPlace_inr _ _ _ _ _ la lb] at lm
      rw [constrainedP2, la, lb]
      simp only [lm, ih fun c hc => hd c (by simp [hc])]
      simp [segmentPlaces]
  refine ⟨_, hl domain hd, ?_⟩
  intro j k c e n d hc hn he hd'
  rw [h1] at he
  have m := List.mem_flatMap.mpr ⟨c, List.mem_of_getElem? hc, List.mem_of_getElem? hn⟩
  simp only [List.getElem?_map, hc, Option.map_some, Option.some.injEq] at he
  subst he
  simp only [List.getElem?_map, hn, Option.map_some, Option.some.injEq] at hd'
  subst hd'
  constructor
  · intro h
    obtain ⟨n', hn', e⟩ := List.mem_map.mp h
    have m' : n' ∈ cells.flatMap places := by
      obtain ⟨s, hs, hp⟩ := List.mem_flatMap.mp hn'
      have := hnode s.1 s.2 (hd s hs)
      simp only [segmentPlaces, List.mem_cons, List.not_mem_nil, or_false] at hp
      rcases hp with rfl | rfl | rfl
      · exact this.1
      · exact this.2
      · exact hd s hs
    rwa [← h4 n' m' n m e]
  · intro h
    exact List.mem_map.mpr ⟨n, h, rfl⟩

/-! ### Examples -/

/-- an allocator that satisfies the assumption -/
def exAlloc (l : List Nat) : Nat := l.foldl max 0 + 1

theorem exAlloc_fresh (l : List Nat) : exAlloc l ∉ l := by
  have : ∀ (l : List Nat) (z x : Nat), (x ∈ l → x ≤ l.foldl max z) ∧ z ≤ l.foldl max z := by
    intro l
    induction l with
    | nil => simp
    | cons y l ih =>
      intro z x
      have h1 := (ih (max z y) x).2
      refine ⟨fun h => ?_, by simp only [List.foldl_cons]; omega⟩
      rcases List.mem_cons.mp h with rfl | h
      · simp only [List.foldl_cons]; omega
      · exact (ih _ x).1 h
  intro h
  have := (this l 0 _).1 h
  unfold exAlloc at this
  omega

example : (elementsP1 exAlloc [] [] [[7, 8, 9], [9, 8, 5]]).2 = [[1, 2, 3], [3, 2, 4]] := by decide
example : (elementsP2 exAlloc [] ⟨[], []⟩ [(7, 8, 9), (9, 8, 5)]).2 =
    [[1, 2, 3, 4, 5, 6], [3, 2, 7, 5, 8, 9]] := by decide
example : constrainedP1 (elementsP1 exAlloc [] [] [[7, 8, 9], [9, 8, 5]]).1 [5, 9] = .ok [4, 3] := by
  decide
example : constrainedP2 (elementsP2 exAlloc [] ⟨[], []⟩ [(7, 8, 9), (9, 8, 5)]).1 [(8, 5)] =
    .ok [2, 7, 8] := by decide

/-- A segment of the domain that joins two nodes of the mesh without being an edge of it: an exception, for
second order elements only. -/
theorem p2_constrained_throws : ∃ (cells : List Cell) (domain : List (Nat × Nat)),
    constrainedP2 (elementsP2 exAlloc [] ⟨[], []⟩ cells).1 domain = .throws :=
  ⟨[(7, 8, 9), (9, 8, 5)], [(7, 5)], by decide⟩

/-- A node of the domain that is not in the mesh: undefined behaviour. -/
example : constrainedP1 (elementsP1 exAlloc [] [] [[7, 8, 9]]).1 [6] = .undefined := by decide

end Mito.Discretizer
