import Verif.Spec.MovedVectors
import Verif.Utilities.SlotsLemmas

/-! # C157: segmented vectors that are moved from -/

namespace Mito.SegVec

open Mito.Alloc

/-- a vector and its slots -/
private def Fits (M : VMachine) (p : Nat × Slots) : Prop := 0 < p.1 ∧ ∃ w, Rel p.1 M p.2 w

private theorem Fits.left {M : VMachine} {n : Nat} {S : Slots} (h : Fits M (n, S)) : Fits M.left (n, ⟨[], [], []⟩) := by
  obtain ⟨hn, w, hr⟩ := h
  obtain ⟨m, known, hc⟩ := hr.coupled
  obtain ⟨B, hB⟩ := hc.reach.inv hn
  have hs : M.vec.alloc.segSize = n := by rw [← hc.alloc]; exact hB.segSize
  have e : M.left = VMachine.init n := by subst hs; rfl
  exact ⟨hn, _, e ▸ Rel.init n⟩

private theorem Fits.exec {M : VMachine} {n : Nat} {S : Slots} (h : Fits M (n, S)) (c : VCall)
    (hf : ∀ x b, c = .emplace x b → FreshBlock M.vec.alloc b) :
    (vexec M c = none ∧ S.exec c = none) ∨ ∃ M' S', vexec M c = some M' ∧ S.exec c = some S' ∧ Fits M' (n, S') := by
  obtain ⟨hn, w, hr⟩ := h
  cases c with
  | emplace x b =>
    obtain ⟨M', h1, h2⟩ := hr.emplace hn x b (hf x b rfl)
    exact Or.inr ⟨M', _, h1, rfl, hn, _, h2⟩
  | erase k =>
    rcases hr.erase hn k with ⟨h1, h2⟩ | ⟨M', S', w', h1, h2, h3⟩
    · exact Or.inl ⟨h1, h2⟩
    · exact Or.inr ⟨M', S', h1, h2, hn, w', h3⟩

private theorem set_fits {R : VMachine → Nat × Slots → Prop} : ∀ {Ms : List VMachine} {Ss : List (Nat × Slots)} (_ : List.Forall₂ R Ms Ss)
    (i : Nat) {M : VMachine} {p : Nat × Slots} (_ : R M p), List.Forall₂ R (Ms.set i M) (Ss.set i p)
  | _, _, .nil, _, _, _, _ => .nil
  | _, _, .cons _ t, 0, _, _, h => .cons h t
  | _, _, .cons a t, i + 1, _, _, h => .cons a (set_fits t i h)

private theorem get_fits {R : VMachine → Nat × Slots → Prop} : ∀ {Ms : List VMachine} {Ss : List (Nat × Slots)} (_ : List.Forall₂ R Ms Ss)
    (i : Nat), (Ms[i]? = none ∧ Ss[i]? = none) ∨ ∃ M p, Ms[i]? = some M ∧ Ss[i]? = some p ∧ R M p
  | _, _, .nil, _ => Or.inl ⟨rfl, rfl⟩
  | _, _, .cons a _, 0 => Or.inr ⟨_, _, rfl, rfl, a⟩
  | _, _, .cons _ t, i + 1 => by simpa using get_fits t i

private theorem append_fits {R : VMachine → Nat × Slots → Prop} : ∀ {Ms : List VMachine} {Ss : List (Nat × Slots)} (_ : List.Forall₂ R Ms Ss)
    {M : VMachine} {p : Nat × Slots} (_ : R M p), List.Forall₂ R (Ms ++ [M]) (Ss ++ [p])
  | _, _, .nil, _, _, h => .cons h .nil
  | _, _, .cons a t, _, _, h => .cons a (append_fits t h)

private theorem mtest_fits (l : List MItem) : ∀ {Ms : List VMachine} {Ss : List (Nat × Slots)}, List.Forall₂ Fits Ms Ss →
    MFreshMemory Ms l → mtest Ms l = Slots.mtest Ss l := by
  induction l with
  | nil => intros; rfl
  | cons i l ih =>
    intro Ms Ss h hf
    cases i with
    | expect i q a =>
      simp only [mtest, Slots.mtest]
      rw [ih h hf]
      rcases get_fits h i with ⟨h1, h2⟩ | ⟨M, p, h1, h2, hn, w, h3⟩
      · simp [h1, h2]
      · simp [h1, h2, h3.ask hn q]
    | call c =>
      obtain ⟨hf1, hf2⟩ := hf
      cases c with
      | on i c =>
        rcases get_fits h i with ⟨h1, h2⟩ | ⟨M, ⟨n, S⟩, h1, h2, h3⟩
        · simp [mtest, Slots.mtest, mexec, Slots.mexec, h1, h2]
        · rcases h3.exec c (fun x b e => hf1 i x b M (by rw [e]) h1) with ⟨e1, e2⟩ | ⟨M', S', e1, e2, e3⟩
          · simp [mtest, Slots.mtest, mexec, Slots.mexec, h1, h2, e1, e2]
          · simp only [mtest, Slots.mtest, mexec, Slots.mexec, h1, h2, e1, e2, Option.map_some]
            exact ih (set_fits h i e3) (hf2 _ (by simp [mexec, h1, e1]))
      | move i =>
        rcases get_fits h i with ⟨h1, h2⟩ | ⟨M, ⟨n, S⟩, h1, h2, h3⟩
        · simp [mtest, Slots.mtest, mexec, Slots.mexec, h1, h2]
        · simp only [mtest, Slots.mtest, mexec, Slots.mexec, h1, h2]
          exact ih (append_fits (set_fits h i h3.left) h3) (hf2 _ (by simp [mexec, h1]))

/-- Every program that inserts into any number of vectors, erases through references of the same vector, moves vectors, goes on with the
vectors that were moved from, and asks, gets the answers of lists of slots: a move takes all slots and references along and leaves an empty vector with the
same segment size. -/
theorem moved_vectors_are_slots (ns : List Nat) (hn : ∀ n ∈ ns, 0 < n) (l : List MItem) (hf : MFreshMemory (ns.map .init) l) :
    mtest (ns.map .init) l = Slots.mtest (ns.map fun n => (n, ⟨[], [], []⟩)) l := by
  refine mtest_fits l ?_ hf
  clear hf
  induction ns with
  | nil => exact .nil
  | cons n ns ih => exact .cons ⟨hn n (by simp), _, Rel.init n⟩ (ih fun m hm => hn m (by simp [hm]))

private theorem mtest_forget : ∀ (l l' : List MItem) (Ss : List (Nat × Slots)), l.map MItem.forget = l'.map MItem.forget →
    Slots.mtest Ss l = Slots.mtest Ss l' := by
  have step : ∀ (i : MItem) (l : List MItem) (Ss : List (Nat × Slots)), Slots.mtest Ss (i :: l) = Slots.mtest Ss (i.forget :: l) := by
    intro i l Ss
    rcases i with (⟨i, c⟩ | i) | _
    · cases c <;> rfl
    · rfl
    · rfl
  have tail : ∀ (i : MItem) (l l' : List MItem), (∀ Ss, Slots.mtest Ss l = Slots.mtest Ss l') →
      ∀ Ss, Slots.mtest Ss (i :: l) = Slots.mtest Ss (i :: l') := by
    intro i l l' h Ss
    cases i with
    | call c => simp only [Slots.mtest]; cases Slots.mexec Ss c <;> simp [h]
    | expect i q a => simp only [Slots.mtest, h]
  intro l
  induction l with
  | nil => intro l' Ss h; cases l' with
    | nil => rfl
    | cons => simp at h
  | cons i l ih =>
    intro l' Ss h
    cases l' with
    | nil => simp at h
    | cons j l' =>
      simp only [List.map_cons, List.cons.injEq] at h
      rw [step i, step j, h.1]
      exact tail _ l l' (fun Ss => ih l' Ss h.2) Ss

/-- What a program sees does not depend on the addresses. -/
theorem moves_do_not_depend_on_addresses (ns : List Nat) (hn : ∀ n ∈ ns, 0 < n) {l l' : List MItem}
    (hs : l.map MItem.forget = l'.map MItem.forget) (hf : MFreshMemory (ns.map .init) l) (hf' : MFreshMemory (ns.map .init) l') :
    mtest (ns.map .init) l = mtest (ns.map .init) l' := by
  rw [moved_vectors_are_slots ns hn l hf, moved_vectors_are_slots ns hn l' hf', mtest_forget l l' _ hs]

/-- There always is memory with which a program can run. -/
theorem memory_for_moves (ns : List Nat) (hn : ∀ n ∈ ns, 0 < n) (l : List MItem) :
    ∃ l', l'.map MItem.forget = l.map MItem.forget ∧ MFreshMemory (ns.map .init) l' := by
  have key : ∀ (l : List MItem) (Ms : List VMachine) (Ss : List (Nat × Slots)), List.Forall₂ Fits Ms Ss →
      ∃ l', l'.map MItem.forget = l.map MItem.forget ∧ MFreshMemory Ms l' := by
    intro l
    induction l with
    | nil => exact fun _ _ _ => ⟨[], rfl, trivial⟩
    | cons i l ih =>
      intro Ms Ss h
      cases i with
      | expect i q a =>
        obtain ⟨l', h1, h2⟩ := ih Ms Ss h
        exact ⟨.expect i q a :: l', by simp [h1], h2⟩
      | call c =>
        cases c with
        | move i =>
          rcases get_fits h i with ⟨h1, _⟩ | ⟨M, ⟨n, S⟩, h1, _, h3⟩
          · exact ⟨.call (.move i) :: l, rfl, fun _ _ _ _ e => by simp at e, fun _ e => by simp [mexec, h1] at e⟩
          · obtain ⟨l', h4, h5⟩ := ih _ _ (append_fits (set_fits h i h3.left) h3)
            refine ⟨.call (.move i) :: l', by simp [h4], fun _ _ _ _ e => by simp at e, fun _ e => ?_⟩
            simp only [mexec, h1, Option.some.injEq] at e
            exact e ▸ h5
        | on i c =>
          rcases get_fits h i with ⟨h1, _⟩ | ⟨M, ⟨n, S⟩, h1, _, h3⟩
          · exact ⟨.call (.on i c) :: l, rfl, fun j x b M e e2 => by simp only [MCall.on.injEq] at e; rw [← e.1, h1] at e2; simp at e2,
              fun _ e => by simp [mexec, h1] at e⟩
          · obtain ⟨hp, w, hr⟩ := h3
            obtain ⟨m, known, hc⟩ := hr.coupled
            obtain ⟨B, hB⟩ := hc.reach.inv hp
            obtain ⟨b, hb⟩ := hB.exists_fresh
            rw [hc.alloc] at hb
            obtain ⟨c', hc1, hc2⟩ : ∃ c', (MItem.call (.on i c')).forget = (MItem.call (.on i c)).forget ∧
                ∀ x b, c' = .emplace x b → FreshBlock M.vec.alloc b := by
              cases c with
              | emplace x b0 => exact ⟨.emplace x b, rfl, fun y d e => by simp only [VCall.emplace.injEq] at e; exact e.2 ▸ hb⟩
              | erase k => exact ⟨.erase k, rfl, fun _ _ e => by simp at e⟩
            have first : ∀ j x b M', MCall.on i c' = .on j (.emplace x b) → Ms[j]? = some M' → FreshBlock M'.vec.alloc b := by
              intro j x b M' e e2
              simp only [MCall.on.injEq] at e
              rw [← e.1, h1, Option.some.injEq] at e2
              exact e2 ▸ hc2 x b e.2
            rcases Fits.exec ⟨hp, w, hr⟩ c' hc2 with ⟨e1, _⟩ | ⟨M', S', e1, _, e3⟩
            · exact ⟨.call (.on i c') :: l, by simp [hc1], first, fun _ e => by simp [mexec, h1, e1] at e⟩
            · obtain ⟨l', h4, h5⟩ := ih _ _ (set_fits h i e3)
              refine ⟨.call (.on i c') :: l', by simp [hc1, h4], first, fun _ e => ?_⟩
              simp only [mexec, h1, e1, Option.map_some, Option.some.injEq] at e
              exact e ▸ h5
  refine key l _ (ns.map fun n => (n, ⟨[], [], []⟩)) ?_
  clear key
  induction ns with
  | nil => exact .nil
  | cons n ns ih => exact .cons ⟨hn n (by simp), _, Rel.init n⟩ (ih fun m hm => hn m (by simp [hm]))

/-- The test of the repository passes, whatever the addresses. -/
theorem move_test_passes (B : Nat → Nat) (hf : MFreshMemory [.init 3] (moveTest B)) : mtest [.init 3] (moveTest B) = some true := by
  have := moved_vectors_are_slots [3] (by simp) (moveTest B) hf
  simp only [List.map_cons, List.map_nil] at this
  rw [this, mtest_forget (moveTest B) (moveTest fun _ => 0) _ rfl]
  decide +kernel

/-- A longer program, at definite addresses: references are good for the new vector, slots that wait for reuse go along, and the old vector begins
anew. -/
theorem move_and_go_on : mtest [.init 2]
    [.call (.on 0 (.emplace 5 10)), .call (.on 0 (.emplace 6 20)), .call (.on 0 (.emplace 7 30)), .call (.on 0 (.erase 1)), .call (.move 0),
     .expect 1 .values [5, 7], .call (.on 1 (.emplace 8 40)), .expect 1 .values [5, 8, 7], .call (.on 1 (.erase 0)), .expect 1 .size [2],
     .call (.on 0 (.emplace 9 50)), .expect 0 .values [9], .expect 0 .capacity [2], .call (.move 0), .expect 2 .values [9], .expect 0 .size [0],
     .expect 1 .values [8, 7]] = some true := by decide +kernel

/-- Wrong expectations are noticed. -/
theorem wrong_move_tests_fail : ∀ e ∈ ([.expect 0 .size [4], .expect 0 .capacity [6], .expect 1 .size [0], .expect 1 .values [3, 2, 1, 0]] : List MItem),
    mtest [.init 3] (moveTest (fun i => 10 * i + 10) ++ [e]) = some false := by decide +kernel

/-- Erasing an element through the vector that it was moved away from.  The old vector then has size -1 and puts its next element in memory
of the new one; the new vector still counts the element, which is no longer valid.  The assertion (`eraseCheck`), which release builds leave out,
notices. -/
theorem erased_through_source (M : VMachine) (a : Nat) (x : Int) (h0 : a ≠ 0) (ha : M.moved.vec.mem a = some (x, true)) (b : Nat) :
    ∃ s v, eraseThrough M.left.vec.alloc M.moved.vec a = some (s, v) ∧ Alloc.size s = -1 ∧ (locationForPlacement s b).2 = (a, true) ∧
      isValidAt v a = false ∧ size v = size M.vec ∧ eraseCheck s a = false := by
  refine ⟨Alloc.erase M.left.vec.alloc a, ⟨M.moved.vec.alloc, fun y => if y = a then some (x, false) else M.moved.vec.mem y⟩,
    by simp [eraseThrough, ha], rfl, ?_, ?_, rfl, rfl⟩
  · simp [Alloc.erase, VMachine.left, State.moveFrom, locationForPlacement, nextAvailable, h0]
  · simp [isValidAt]

/-- An element that is not valid any more is left alone. -/
theorem erased_through_source_again (s : Alloc.State) (v : SVec Int) (a : Nat) (x : Int) (ha : v.mem a = some (x, false)) :
    eraseThrough s v a = some (s, v) := by simp [eraseThrough, ha]

/-- a vector with one element, moved, and the element erased through the old one: both sizes are wrong, as no element is left -/
theorem erased_through_source_runs : ∃ M s v, vexec (.init 3) (.emplace 7 10) = some M ∧
    eraseThrough M.left.vec.alloc M.moved.vec 10 = some (s, v) ∧ Alloc.size s = -1 ∧ size v = 1 ∧ vask v .values = some [] :=
  ⟨_, _, _, rfl, rfl, rfl, rfl, by decide +kernel⟩

end Mito.SegVec
