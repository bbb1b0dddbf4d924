import Verif.Utilities.RepositoryLemmas

/-!
# C11, C67: repositories

Specification: `Verif/Spec/Repository.lean`.
-/

set_option linter.unusedSimpArgs false
set_option linter.unusedVariables false

namespace Mito.Repo

open Mito.Alloc
open Mito.SharedPointer (Var Op holders)

/-! ## C11: what holds -/

/-- **C11.**  As long as clients erase a resource only through its sole pointer (as the simplex
factories do), no live pointer ever dangles. -/
theorem careful_no_dangling_partial {n : Nat} (hn : 0 < n) {s : Repo} (h : Careful n s) :
    NoDangling s := by
  obtain ⟨w, hw⟩ := h.inv hn
  exact hw.noDangling

/-- **C11.**  For careful clients, `erase` through a pointer with `references() == 1` succeeds,
destroys exactly that resource, and nobody else held it. -/
theorem careful_erase_partial {n : Nat} (hn : 0 < n) {s : Repo} (h : Careful n s) (v : Var)
    (h1 : references s v = some 1) :
    ∃ s' a, erase s v = some (s', true) ∧ s.ptrs.handle v = some a ∧ a ∈ s.alive ∧
      holders s.ptrs a = {v} ∧ s'.alive = s.alive.erase a := by
  obtain ⟨w, hw⟩ := h.inv hn
  obtain ⟨s', a, h1, h2, h3, h4, h5, _⟩ := hw.erase v h1
  exact ⟨s', a, h1, h2, h3, h4, h5⟩

/-- **C11.**  `erase` reports whether the pointer referred to a resource, and does nothing for null pointers. -/
theorem erase_reports {s s' : Repo} {v : Var} {r : Bool} (h : erase s v = some (s', r)) :
    (r = true ↔ s.ptrs.handle v ≠ none) ∧ (r = false → s' = s) := by
  unfold erase at h
  split at h
  · simp at h
  · split at h
    · rename_i _ hn
      simp only [Option.some.injEq, Prod.mk.injEq] at h
      obtain ⟨rfl, rfl⟩ := h
      simp [hn]
    · rename_i _ a hn
      split at h
      · simp at h
      · split at h
        · simp at h
        · simp only [Option.some.injEq, Prod.mk.injEq] at h
          obtain ⟨_, rfl⟩ := h
          simp [hn]

/-- **C11.**  For careful clients, a new resource is placed at an address that no living resource
occupies and no pointer refers to; it starts with exactly one reference, and no other resource
changes its count. -/
theorem careful_emplace_partial {n : Nat} (hn : 0 < n) {s : Repo} (h : Careful n s) (v : Var)
    (hv : v ∉ s.ptrs.live) (b : Addr) (hb : FreshBlock s.alloc b) :
    ∃ s' a, emplace s v b = some (s', a) ∧ a ∉ s.alive ∧ holders s.ptrs a = ∅ ∧
      s'.alive = insert a s.alive ∧ references s' v = some 1 ∧
      (∀ x, x ≠ a → s'.ptrs.count x = s.ptrs.count x) ∧
      (∀ x, x ≠ v → s'.ptrs.handle x = s.ptrs.handle x) := by
  obtain ⟨w, hw⟩ := h.inv hn
  obtain ⟨s', h1, h2, h3, h4, h5, h6, h7, h8⟩ := hw.emplace hn v hv b hb
  have hna : w.loc b ∉ s.alive := by
    rw [← hw.live]
    exact (hw.reach.insert_cases hn b (by rw [hw.alloc]; exact hb)).1
  exact ⟨s', w.loc b, h1, hna, holders_dead hw.noDangling hna, h3,
    by simp [references, SharedPointer.references, h4, h5, h7], h8, h6⟩

/-- **C11.**  For careful clients, `size()` is the number of living resources, and iterating the
repository visits each living resource with a positive count exactly once, and no erased one; every
resource somebody holds is among them. -/
theorem careful_iteration_partial {n : Nat} (hn : 0 < n) {s : Repo} (h : Careful n s) (fuel : Nat)
    (hf : Alloc.capacity s.alloc ≤ fuel) :
    size s = s.alive.card ∧
    ∃ l, elements s fuel = some l ∧ l.Nodup ∧
      (∀ a, a ∈ l ↔ a ∈ s.alive ∧ 0 < s.ptrs.count a) ∧
      (∀ v ∈ s.ptrs.live, ∀ a, s.ptrs.handle v = some a → a ∈ l) := by
  obtain ⟨w, hw⟩ := h.inv hn
  obtain ⟨B, hB⟩ := hw.reach.inv hn
  have hlen := hB.len_le
  have hcap : Alloc.capacity s.alloc = B.length * n := by
    rw [← hw.alloc, Alloc.capacity, hB.nsegs, hB.segSize]
  have hvis := hB.visitValid_spec hn (SharedPointer.isValid s.ptrs) fuel (by omega)
  rw [hw.alloc] at hvis
  have key : ∀ a, a ∈ w.slots.filter (SharedPointer.isValid s.ptrs) ↔
      a ∈ s.alive ∧ 0 < s.ptrs.count a := by
    intro a
    rw [List.mem_filter]
    simp only [SharedPointer.isValid, decide_eq_true_eq, gt_iff_lt]
    constructor
    · rintro ⟨_, h2⟩
      refine ⟨?_, h2⟩
      by_contra hna
      rw [hw.dead a hna] at h2
      exact absurd h2 (by decide)
    · rintro ⟨h1, h2⟩
      exact ⟨(hB.mem a).2 (Or.inl (by rw [hw.live]; exact h1)), h2⟩
  refine ⟨?_, _, hvis, (hB.slots_nodup hn).filter _, key, ?_⟩
  · have := hB.nElems
    rw [hw.alloc, hw.live] at this
    exact this
  · intro v hv a ha
    rw [key]
    have hal := hw.noDangling v hv a ha
    have := hw.count a hal
    have hc : 0 < (holders s.ptrs a).card := Finset.card_pos.mpr ⟨v, by simp [holders, hv, ha]⟩
    exact ⟨hal, by omega⟩

/-! ## C11: what fails -/

/-- two pointers to one resource, in a repository with segments of 4 resources -/
def twoPointers : Option Repo :=
  (emplace (.init 4) 0 10).bind fun r => pointerOp r.1 (.copy 1 0)

/-- the hypotheses of the theorems above are met: a careful history with two resources, a copy, an
erasure and a reuse of the erased slot -/
example : ∃ s, Careful 4 s ∧ s.alive = {10, 11} ∧ references s 0 = some 2 ∧
    references s 3 = some 1 := by
  have h1 := Careful.emplace (s' := _) (a := _) 0 10 (Careful.init (n := 4))
    ⟨by decide, fun i a h => by simp [Repo.init, State.init] at h⟩ rfl
  have h2 := Careful.pointerOp (s' := _) (.copy 1 0) h1 trivial rfl
  have h3 := Careful.emplace (s' := _) (a := _) 2 99 h2 ⟨by decide, fun i a h => by
    rcases i with _ | i
    · simp [locationForPlacement, nextAvailable, allocSegment, Alloc.insert, Repo.init,
        State.init] at h ⊢
      omega
    · simp [locationForPlacement, nextAvailable, allocSegment, Alloc.insert, Repo.init,
        State.init] at h⟩ rfl
  have h4 := Careful.erase (s' := _) (r := _) 2 h3 (by decide) rfl
  have h5 := Careful.emplace (s' := _) (a := _) 3 99 h4 ⟨by decide, fun i a h => by
    rcases i with _ | i
    · simp [locationForPlacement, nextAvailable, allocSegment, Alloc.insert, Alloc.erase,
        Repo.init, State.init] at h ⊢
      omega
    · simp [locationForPlacement, nextAvailable, allocSegment, Alloc.insert, Alloc.erase,
        Repo.init, State.init] at h⟩ rfl
  exact ⟨_, h5, by decide, by decide, by decide⟩

/-- **C11 is false for `Repository::erase`.**  With two pointers to one resource, erasing through
the first destroys the resource although the second still refers to it. -/
theorem erase_destroys_referenced :
    ∃ s s', Any 4 s ∧ references s 1 = some 2 ∧ erase s 0 = some (s', true) ∧
      s'.ptrs.handle 1 = some 10 ∧ 10 ∉ s'.alive ∧ ¬ NoDangling s' := by
  have h1 := Any.emplace (s' := _) (a := _) 0 10 (Any.init (n := 4))
    ⟨by decide, fun i a h => by simp [Repo.init, State.init] at h⟩ rfl
  have h2 := Any.pointerOp (s' := _) (.copy 1 0) h1 trivial rfl
  refine ⟨_, _, h2, by decide, rfl, by decide, by decide, ?_⟩
  intro hn
  exact absurd (hn 1 (by decide) 10 (by decide)) (by decide)

/-- **C11 is false for `Repository::erase`**, consequence: the next resource is built at the same
address, so the dangling pointer now aliases a resource it was never given, and dropping it makes
the new resource look unused although its owner still holds it (it disappears from iteration). -/
theorem erase_then_emplace_aliases :
    ∃ s1 s2 s3 s4 : Repo, Any 4 s4 ∧ twoPointers = some s1 ∧ erase s1 0 = some (s2, true) ∧
      emplace s2 2 99 = some (s3, 10) ∧
      -- pointer 1 aliases the new resource, whose count is one although two pointers hold it
      holders s3.ptrs 10 = {1, 2} ∧ references s3 2 = some 1 ∧
      -- after pointer 1 dies the resource held by pointer 2 is invisible
      pointerOp s3 (.destroy 1) = some s4 ∧ holders s4.ptrs 10 = {2} ∧
      references s4 2 = some 0 ∧ elements s4 4 = some [] := by
  have h1 := Any.emplace (s' := _) (a := _) 0 10 (Any.init (n := 4))
    ⟨by decide, fun i a h => by simp [Repo.init, State.init] at h⟩ rfl
  have h2 := Any.pointerOp (s' := _) (.copy 1 0) h1 trivial rfl
  have h3 := Any.erase (s' := _) (r := _) 0 h2 rfl
  have h4 := Any.emplace (s' := _) (a := _) 2 99 h3 ⟨by decide, fun i a h => by
    rcases i with _ | i
    · simp [locationForPlacement, nextAvailable, allocSegment, Alloc.insert, Alloc.erase,
        Repo.init, State.init] at h ⊢
      omega
    · simp [locationForPlacement, nextAvailable, allocSegment, Alloc.insert, Alloc.erase,
        Repo.init, State.init] at h⟩ rfl
  have h5 := Any.pointerOp (s' := _) (.destroy 1) h4 trivial rfl
  exact ⟨_, _, _, _, h5, rfl, rfl, rfl, by decide, by decide, rfl, by decide, by decide, by decide⟩

/-- **C11 is false for `Repository::erase`**: erasing through both pointers destroys the resource
twice (undefined behaviour). -/
theorem erase_twice_ub :
    ∃ s1 s2, twoPointers = some s1 ∧ erase s1 0 = some (s2, true) ∧ erase s2 1 = none :=
  ⟨_, _, rfl, rfl, by decide⟩

/-! ## C67 for repositories -/

/-- **C67 is false for repositories.**  After one resource has been erased, the destructor of the
repository destroys it a second time. -/
theorem repository_destructor_destroys_twice :
    ∃ s s', Careful 4 s ∧ references s 0 = some 1 ∧ erase s 0 = some (s', true) ∧
      s'.alive = ∅ ∧ destructor s' 4 = none := by
  have h1 := Careful.emplace (s' := _) (a := _) 0 10 (Careful.init (n := 4))
    ⟨by decide, fun i a h => by simp [Repo.init, State.init] at h⟩ rfl
  exact ⟨_, _, h1, by decide, rfl, by decide, by decide⟩

/-- **C67, what holds.**  If every slot handed out holds a living resource (nothing erased is
waiting for reuse), the destructor of a repository destroys each resource exactly once. -/
theorem repository_destructor_partial {n : Nat} (hn : 0 < n) {s : Repo} (h : Careful n s)
    (hp : s.alloc.queue = []) (fuel : Nat) (hf : Alloc.capacity s.alloc ≤ fuel) :
    destructor s fuel = some ∅ := by
  obtain ⟨w, hw⟩ := h.inv hn
  obtain ⟨B, hB⟩ := hw.reach.inv hn
  have hlen := hB.len_le
  have hcap : Alloc.capacity s.alloc = B.length * n := by
    rw [← hw.alloc, Alloc.capacity, hB.nsegs, hB.segSize]
  obtain ⟨h0, h1⟩ := hB.itBegin_spec hn
  have hvis : visit s.alloc fuel (itBegin s.alloc) = some w.slots := by
    rw [← hw.alloc]
    by_cases hs : w.slots = []
    · rw [visit.eq_def]; simp [h0 hs, itEnd, hs]
    · have := hB.visit_spec hn _ (h1 (List.length_pos_iff.mpr hs)) rfl fuel (by omega)
      simpa using this
  have hpend : w.pending = [] := by rw [← hB.queue, hw.alloc, hp]
  have hmem : ∀ a, a ∈ s.alive ↔ a ∈ w.slots := by
    intro a
    rw [hB.mem, hpend, hw.live]; simp
  have key : ∀ (l : List Nat) (A : Finset Nat), l.Nodup → (∀ a, a ∈ A ↔ a ∈ l) →
      destroyAll A l = some ∅ := by
    intro l
    induction l with
    | nil =>
      intro A _ hA
      have : A = ∅ := by ext a; simp [hA]
      simp [destroyAll, this]
    | cons x xs ih =>
      intro A hnd hA
      rw [List.nodup_cons] at hnd
      rw [destroyAll, if_pos (by simp [hA])]
      apply ih _ hnd.2
      intro a
      simp only [Finset.mem_erase, hA, List.mem_cons]
      constructor
      · rintro ⟨h1, h2 | h2⟩
        · exact absurd h2 h1
        · exact h2
      · intro ha
        exact ⟨fun e => hnd.1 (e ▸ ha), Or.inr ha⟩
  rw [destructor, hvis]
  exact key _ _ (hB.slots_nodup hn) hmem

end Mito.Repo
