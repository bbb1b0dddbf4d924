import Verif.Spec.RefineTorn
import Verif.Mesh.RefineLemmas

/-! # Helper lemmas for the boundary of refined meshes -/

namespace Mito.Refine

variable {K : Type*} [Field K]

/-- every node is in a facet of one cell only that has a new node -/
def Exposed (N k : Nat) (L : List (List (PNode K))) : Prop :=
  ∀ d ∈ L, ∀ p ∈ d, ∃ s : List Nat, p.id ∈ s ∧ s.Nodup ∧ s.length = N ∧ (∃ i ∈ s, k ≤ i) ∧ L.countP (holds s) = 1

theorem holds_iff {s : List Nat} {e : List (PNode K)} : holds s e = true ↔ ∀ i ∈ s, ∃ p ∈ e, p.id = i := by
  simp [holds]

theorem countP_zero {s : List Nat} {L : List (List (PNode K))} {i : Nat} (hi : i ∈ s) (h : ∀ e ∈ L, ∀ p ∈ e, p.id ≠ i) :
    L.countP (holds s) = 0 := by
  rw [List.countP_eq_zero]
  intro e he hh
  obtain ⟨p, hp, e'⟩ := holds_iff.mp hh i hi
  exact h e he p hp e'

theorem each_exposed {β : Type*} {N N' m : Nat} {f : Nat → β → Nat × List (List (PNode K))} {toCell : β → List (PNode K)} (parts : List β)
    {b k : Nat} (hbk : b ≤ k) (hold : ∀ x ∈ parts, ∀ p ∈ toCell x, p.id < b)
    (h : ∀ k', k ≤ k' → ∀ x ∈ parts, Divided N' m k' (toCell x) (f k' x)) (he : ∀ k', k ≤ k' → ∀ x ∈ parts, Exposed N k' (f k' x).2) :
    Exposed N k (each f k parts).2 := by
  induction parts generalizing k with
  | nil => intro d hd; simp [each] at hd
  | cons x xs ih =>
    have hx := h k le_rfl x (by simp)
    have hxs : ∀ k', (f k x).1 ≤ k' → ∀ y ∈ xs, Divided N' m k' (toCell y) (f k' y) :=
      fun k' hk' y hy => h k' (hx.le.trans hk') y (by simp [hy])
    obtain ⟨-, -, i3⟩ := each_divided xs hxs
    have hA : ∀ d ∈ (f k x).2, ∀ p ∈ d, p.id < b ∨ (k ≤ p.id ∧ p.id < (f k x).1) := fun d hd p hp =>
      (hx.within d hd p hp).imp (hold x (by simp) p) id
    have hB : ∀ d ∈ (each f (f k x).1 xs).2, ∀ p ∈ d, p.id < b ∨ (f k x).1 ≤ p.id := by
      intro d hd p hp
      obtain ⟨y, hy, -, -, h3, -⟩ := i3 d hd
      exact (h3 p hp).imp (hold y (by simp [hy]) p) (·.1)
    have hle := hx.le
    simp only [each]
    intro d hd p hp
    rcases List.mem_append.mp hd with hd | hd
    · obtain ⟨s, s1, s2, s3, ⟨i, hi, hki⟩, s5⟩ := he k le_rfl x (by simp) d hd p hp
      refine ⟨s, s1, s2, s3, ⟨i, hi, hki⟩, ?_⟩
      obtain ⟨e, hee, hh⟩ := List.countP_pos_iff.mp (by rw [s5]; exact one_pos)
      obtain ⟨q, hq, rfl⟩ := holds_iff.mp hh i hi
      have := hA e hee q hq
      rw [List.countP_append, s5, countP_zero hi fun e' he' q' hq' => ?_]
      have := hB e' he' q' hq'
      omega
    · obtain ⟨s, s1, s2, s3, ⟨i, hi, hki⟩, s5⟩ := ih (hbk.trans hle) (fun y hy => hold y (by simp [hy])) hxs
        (fun k' hk' y hy => he k' (hle.trans hk') y (by simp [hy])) d hd p hp
      refine ⟨s, s1, s2, s3, ⟨i, hi, hle.trans hki⟩, ?_⟩
      rw [List.countP_append, s5, countP_zero hi fun e' he' q' hq' => ?_]
      have := hA e' he' q' hq'
      omega

theorem quarters_exposed {k : Nat} {c : PNode K × PNode K × PNode K} (hn : ([c.1, c.2.1, c.2.2].map (·.id)).Nodup)
    (hk : ∀ p ∈ [c.1, c.2.1, c.2.2], p.id < k) : Exposed 2 k ((quarters k c).map fun d => [d.1, d.2.1, d.2.2]) := by
  obtain ⟨a, b, c⟩ := c
  simp only [List.map_cons, List.map_nil, List.nodup_cons, List.mem_cons, List.not_mem_nil, or_false, not_or, not_false_eq_true,
    List.nodup_nil, and_true, forall_eq_or_imp, forall_eq] at hn hk
  obtain ⟨⟨n1, n2⟩, n3⟩ := hn
  obtain ⟨k1, k2, k3⟩ := hk
  obtain ⟨i, pa⟩ := a
  obtain ⟨j, pb⟩ := b
  obtain ⟨l, pc⟩ := c
  simp only at n1 n2 n3 k1 k2 k3
  intro d hd p hp
  have hp' : p.id = i ∨ p.id = j ∨ p.id = l ∨ p.id = k ∨ p.id = k + 1 ∨ p.id = k + 2 := by
    simp only [quarters, midnode, List.map_cons, List.map_nil, List.mem_cons, List.not_mem_nil, or_false] at hd
    rcases hd with rfl | rfl | rfl | rfl <;>
    · simp only [List.mem_cons, List.not_mem_nil, or_false] at hp
      rcases hp with rfl | rfl | rfl <;> simp
  have main : ∀ x y : Nat, (x, y) ∈ [(i, k), (j, k + 1), (l, k + 2)] →
      ((quarters k ((⟨i, pa⟩, ⟨j, pb⟩, ⟨l, pc⟩) : PNode K × PNode K × PNode K)).map fun d => [d.1, d.2.1, d.2.2]).countP (holds [x, y]) = 1 ∧
        x ≠ y ∧ k ≤ y := by
    intro x y hxy
    simp only [List.mem_cons, Prod.mk.injEq, List.not_mem_nil, or_false] at hxy
    rcases hxy with ⟨rfl, rfl⟩ | ⟨rfl, rfl⟩ | ⟨rfl, rfl⟩ <;>
    · refine ⟨?_, by omega, by omega⟩
      simp only [quarters, midnode, List.map_cons, List.map_nil, holds, List.countP_cons, List.countP_nil, List.all_cons, List.all_nil,
        List.contains_cons, List.contains_nil, Bool.or_false, Bool.and_true]
      simp
      grind
  rcases hp' with h | h | h | h | h | h
  · obtain ⟨m1, m2, m3⟩ := main i k (by simp)
    exact ⟨[i, k], by simp [h], by simp [m2], rfl, ⟨k, by simp, m3⟩, m1⟩
  · obtain ⟨m1, m2, m3⟩ := main j (k + 1) (by simp)
    exact ⟨[j, k + 1], by simp [h], by simp [m2], rfl, ⟨k + 1, by simp, m3⟩, m1⟩
  · obtain ⟨m1, m2, m3⟩ := main l (k + 2) (by simp)
    exact ⟨[l, k + 2], by simp [h], by simp [m2], rfl, ⟨k + 2, by simp, m3⟩, m1⟩
  · obtain ⟨m1, m2, m3⟩ := main i k (by simp)
    exact ⟨[i, k], by simp [h], by simp [m2], rfl, ⟨k, by simp, m3⟩, m1⟩
  · obtain ⟨m1, m2, m3⟩ := main j (k + 1) (by simp)
    exact ⟨[j, k + 1], by simp [h], by simp [m2], rfl, ⟨k + 1, by simp, m3⟩, m1⟩
  · obtain ⟨m1, m2, m3⟩ := main l (k + 2) (by simp)
    exact ⟨[l, k + 2], by simp [h], by simp [m2], rfl, ⟨k + 2, by simp, m3⟩, m1⟩

theorem Exposed.mono {N k k' : Nat} {L : List (List (PNode K))} (h : Exposed N k' L) (hk : k ≤ k') : Exposed N k L := by
  intro d hd p hp
  obtain ⟨s, s1, s2, s3, ⟨i, hi, hki⟩, s5⟩ := h d hd p hp
  exact ⟨s, s1, s2, s3, ⟨i, hi, hk.trans hki⟩, s5⟩

theorem subdivideTriangle_exposed (h2 : (2 : K) ≠ 0) (n : Nat) : ∀ {k : Nat} {c : PNode K × PNode K × PNode K},
    ([c.1, c.2.1, c.2.2].map (·.id)).Nodup → (∀ p ∈ [c.1, c.2.1, c.2.2], p.id < k) → Exposed 2 k (subdivideTriangle n k c).2 := by
  induction n with
  | zero => exact fun hn hk => quarters_exposed hn hk
  | succ n ih =>
    intro k c hn hk
    obtain ⟨-, f2, f3⟩ := quarters_facts h2 k c
    have hold : ∀ x ∈ quarters k c, ∀ p ∈ [x.1, x.2.1, x.2.2], p.id < k + 3 := by
      intro x hx p hp
      rcases f2 x hx p hp with h | h
      · have := hk p h
        omega
      · exact h.2
    refine (each_exposed (toCell := fun x => [x.1, x.2.1, x.2.2]) (quarters k c) le_rfl hold
      (fun k' hk' x hx => subdivideTriangle_divided h2 n k' x) fun k' hk' x hx => ih (f3 hn hk x hx) fun p hp => ?_).mono (by omega)
    exact (hold x hx p hp).trans_le hk'

theorem eighths_exposed {k : Nat} {c : PNode K × PNode K × PNode K × PNode K} (hn : ((tet c).map (·.id)).Nodup)
    (hk : ∀ p ∈ tet c, p.id < k) : Exposed 3 k ((eighths k c).map tet) := by
  obtain ⟨a, b, c, d⟩ := c
  simp only [tet, List.map_cons, List.map_nil, List.nodup_cons, List.mem_cons, List.not_mem_nil, or_false, not_or, not_false_eq_true,
    List.nodup_nil, and_true, forall_eq_or_imp, forall_eq] at hn hk
  obtain ⟨⟨n1, n2, n3⟩, ⟨n4, n5⟩, n6⟩ := hn
  obtain ⟨k1, k2, k3, k4⟩ := hk
  obtain ⟨i, pa⟩ := a
  obtain ⟨j, pb⟩ := b
  obtain ⟨l, pc⟩ := c
  obtain ⟨m, pd⟩ := d
  simp only at n1 n2 n3 n4 n5 n6 k1 k2 k3 k4
  intro d hd p hp
  have hp' : p.id ∈ [i, j, l, m, k, k + 1, k + 2, k + 3, k + 4, k + 5] := by
    simp only [eighths, midnode, List.map_cons, List.map_nil, List.mem_cons, List.not_mem_nil, or_false] at hd
    rcases hd with rfl | rfl | rfl | rfl | rfl | rfl | rfl | rfl <;>
    · simp only [tet, List.mem_cons, List.not_mem_nil, or_false] at hp
      rcases hp with rfl | rfl | rfl | rfl <;> simp
  have main : ∀ s ∈ [[i, k, k + 1], [j, k, k + 3], [l, k + 3, k + 5], [m, k + 4, k + 2]],
      ((eighths k ((⟨i, pa⟩, ⟨j, pb⟩, ⟨l, pc⟩, ⟨m, pd⟩) : PNode K × PNode K × PNode K × PNode K)).map tet).countP (holds s) = 1 ∧
        s.Nodup ∧ s.length = 3 ∧ ∃ i ∈ s, k ≤ i := by
    intro s hs
    simp only [List.mem_cons, List.not_mem_nil, or_false] at hs
    rcases hs with rfl | rfl | rfl | rfl <;>
    · refine ⟨?_, by simp; omega, rfl, by simp⟩
      simp only [eighths, midnode, tet, List.map_cons, List.map_nil, holds, List.countP_cons, List.countP_nil, List.all_cons, List.all_nil,
        List.contains_cons, List.contains_nil, Bool.or_false, Bool.and_true]
      simp
      first
        | omega
        | repeat rw [if_neg (by omega)]
  have : ∃ s ∈ [[i, k, k + 1], [j, k, k + 3], [l, k + 3, k + 5], [m, k + 4, k + 2]], p.id ∈ s := by
    simp only [List.mem_cons, List.not_mem_nil, or_false] at hp'
    rcases hp' with h | h | h | h | h | h | h | h | h | h <;> rw [h] <;> simp
  obtain ⟨s, hs, hps⟩ := this
  obtain ⟨m1, m2, m3, m4⟩ := main s hs
  exact ⟨s, hps, m2, m3, m4, m1⟩

theorem subdivideTetrahedron_exposed (h2 : (2 : K) ≠ 0) (n : Nat) : ∀ {k : Nat} {c : PNode K × PNode K × PNode K × PNode K},
    ((tet c).map (·.id)).Nodup → (∀ p ∈ tet c, p.id < k) → Exposed 3 k (subdivideTetrahedron n k c).2 := by
  induction n with
  | zero => exact fun hn hk => eighths_exposed hn hk
  | succ n ih =>
    intro k c hn hk
    obtain ⟨f2, f3⟩ := eighthsRec_facts k c
    have hold : ∀ x ∈ eighthsRec k c, ∀ p ∈ tet x, p.id < k + 6 := by
      intro x hx p hp
      rcases f2 x hx p hp with h | h
      · have := hk p h
        omega
      · exact h.2
    refine (each_exposed (toCell := tet) (eighthsRec k c) le_rfl hold
      (fun k' hk' x hx => subdivideTetrahedron_divided h2 n k' x) fun k' hk' x hx => ih (f3 hn hk x hx) fun p hp => ?_).mono (by omega)
    exact (hold x hx p hp).trans_le hk'

theorem tetra_exposed (h2 : (2 : K) ≠ 0) {N n k : Nat} (hN : N = 2 ∨ N = 3) {cells : List (List (PNode K))} (hc : ∀ c ∈ cells, c.length = N + 1)
    (hn : ∀ c ∈ cells, (c.map (·.id)).Nodup) (hk : ∀ c ∈ cells, ∀ p ∈ c, p.id < k) : Exposed N k (tetra (n + 1) k cells).2 := by
  refine each_exposed (N' := N) (m := (2 ^ N) ^ (n + 1)) (toCell := id) cells le_rfl hk (fun k' _ c hcm => ?_) fun k' hk' c hcm => ?_
  · have hl := hc c hcm
    have := subdivideCell_divided h2 n k' c (by unfold IsCell; omega)
    rwa [hl] at this
  · have hl := hc c hcm
    have hn' := hn c hcm
    have hk'' : ∀ p ∈ c, p.id < k' := fun p hp => (hk c hcm p hp).trans_le hk'
    rcases hN with rfl | rfl
    · match c, hl with
      | [x, y, z], _ => exact subdivideTriangle_exposed h2 n hn' hk''
    · match c, hl with
      | [x, y, z, w], _ => exact subdivideTetrahedron_exposed h2 n hn' hk''

/-! ### segments -/

theorem holds_two {i : Nat} {a b : PNode K} : holds [i] [a, b] = true ↔ i = a.id ∨ i = b.id := by
  simp [holds]

theorem subdivideSegment_le (n k : Nat) (c : PNode K × PNode K) : k + 1 ≤ (subdivideSegment n k c).1 := by
  induction n generalizing k c with
  | zero => exact le_rfl
  | succ n ih =>
    simp only [subdivideSegment, halves, each]
    have h1 := ih (k + 1) (c.1, midnode k c.1 c.2)
    have h2 := ih (subdivideSegment n (k + 1) (c.1, midnode k c.1 c.2)).1 (midnode k c.1 c.2, c.2)
    omega

theorem subdivideSegment_count (n i : Nat) : ∀ {k : Nat} {c : PNode K × PNode K}, c.1.id ≠ c.2.id → c.1.id < k → c.2.id < k →
    (subdivideSegment n k c).2.countP (holds [i]) =
      if i < k then (if i = c.1.id ∨ i = c.2.id then 1 else 0) else if i < (subdivideSegment n k c).1 then 2 else 0 := by
  induction n with
  | zero =>
    intro k c hne h1 h2
    simp only [subdivideSegment, halves, midnode, List.map_cons, List.map_nil, List.countP_cons, List.countP_nil, holds_two]
    split <;> split <;> split <;> split <;> omega
  | succ n ih =>
    intro k c hne h1 h2
    have e1 := ih (k := k + 1) (c := (c.1, midnode k c.1 c.2)) (by simp only [midnode]; omega) (by simp only; omega)
      (by simp only [midnode]; omega)
    have l1 := subdivideSegment_le n (k + 1) (c.1, midnode k c.1 c.2)
    simp only [subdivideSegment, halves, each, List.append_nil, List.countP_append, e1]
    generalize (subdivideSegment n (k + 1) (c.1, midnode k c.1 c.2)).1 = k1 at l1 ⊢
    have e2 := ih (k := k1) (c := (midnode k c.1 c.2, c.2)) (by simp only [midnode]; omega) (by simp only [midnode]; omega)
      (by simp only; omega)
    have l2 := subdivideSegment_le n k1 (midnode k c.1 c.2, c.2)
    rw [e2]
    generalize (subdivideSegment n k1 (midnode k c.1 c.2, c.2)).1 = k2 at l2 ⊢
    simp only [midnode]
    grind

theorem tetra_segments {k : Nat} {coarse : List (List (PNode K))} (hc : Coarse 1 k coarse)
    (n i : Nat) : (tetra n k coarse).2.countP (holds [i]) =
      if i < k then coarse.countP (holds [i]) else if i < (tetra n k coarse).1 then 2 else 0 := by
  have hz : ∀ parts : List (List (PNode K)), (∀ c ∈ parts, c ∈ coarse) → k ≤ i → parts.countP (holds [i]) = 0 :=
    fun parts hin hi => countP_zero (i := i) (by simp) fun e he p hp => by have := (hc e (hin e he)).2.2 p hp; omega
  cases n with
  | zero =>
    have e : tetra 0 k coarse = (k, coarse) := rfl
    rw [e]
    by_cases h : i < k
    · rw [if_pos h]
    · rw [if_neg h, if_neg h]
      exact hz coarse (fun _ h => h) (by omega)
  | succ n =>
    have key : ∀ (parts : List (List (PNode K))) (k' : Nat), k ≤ k' → (∀ c ∈ parts, c ∈ coarse) →
        k' ≤ (each (subdivideCell n) k' parts).1 ∧
        (i < k' → (each (subdivideCell n) k' parts).2.countP (holds [i]) = parts.countP (holds [i])) ∧
        (k' ≤ i → i < (each (subdivideCell n) k' parts).1 →
          (each (subdivideCell n) k' parts).2.countP (holds [i]) = 2) ∧
        ((each (subdivideCell n) k' parts).1 ≤ i → (each (subdivideCell n) k' parts).2.countP (holds [i]) = 0) := by
      intro parts
      induction parts with
      | nil => intro k' _ _; simp [each]
      | cons x xs ih =>
        intro k' hk' hin
        obtain ⟨hl, hn, hid⟩ := hc x (hin x (by simp))
        match x, hl with
        | [a, b], _ =>
          have ha := hid a (by simp)
          have hb := hid b (by simp)
          have e1 := subdivideSegment_count (K := K) n i (k := k') (c := (a, b)) (by simpa using hn) (by simp only; omega)
            (by simp only; omega)
          have l1 := subdivideSegment_le n k' (a, b)
          have u : subdivideCell n k' [a, b] = subdivideSegment n k' (a, b) := rfl
          obtain ⟨l2, e2, e3, e4⟩ := ih (subdivideSegment n k' (a, b)).1 (by omega) fun c hcm => hin c (by simp [hcm])
          have z := hz xs fun c hcm => hin c (by simp [hcm])
          have w := List.countP_cons (p := holds [i]) (a := [a, b]) (l := xs)
          simp only [holds_two] at w
          simp only [each, u, List.countP_append]
          rw [e1]
          simp only at e1
          grind
    obtain ⟨h1, h2, h3, h4⟩ := key coarse k le_rfl fun c hc => hc
    have e : tetra (n + 1) k coarse = each (subdivideCell n) k coarse := rfl
    rw [e]
    split
    · exact h2 ‹_›
    · split
      · exact h3 (by omega) ‹_›
      · exact h4 (by omega)

end Mito.Refine
