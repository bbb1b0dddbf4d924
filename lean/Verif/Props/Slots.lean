import Verif.Utilities.SlotsLemmas
import Verif.Utilities.VectorTests

/-! # C118: a segmented vector is a list of slots, whatever the addresses -/

namespace Mito.SegVec

open Mito.Alloc

/-- Every program that inserts, erases through any reference it was given, and asks for the size, the capacity, the
elements in order, or the contents and validity of a position, gets the answers of a list of slots: an element goes to the slot that was
emptied longest ago, or to a new one at the end. -/
theorem vector_is_a_list_of_slots {n : Nat} (hn : 0 < n) (l : List VItem) (hf : FreshMemory (.init n) l) :
    vtest (.init n) l = Slots.test n ⟨[], [], []⟩ l :=
  (Rel.init n).test hn l hf

/-- So what a program sees does not depend on the addresses. -/
theorem vectors_do_not_depend_on_addresses {n : Nat} (hn : 0 < n) {l l' : List VItem} (hs : l.map VItem.forget = l'.map VItem.forget)
    (hf : FreshMemory (.init n) l) (hf' : FreshMemory (.init n) l') : vtest (.init n) l = vtest (.init n) l' := by
  rw [vector_is_a_list_of_slots hn l hf, vector_is_a_list_of_slots hn l' hf', slots_test_forget n l l' _ hs]

/-- There always is memory with which a program can run. -/
theorem memory_exists {n : Nat} (hn : 0 < n) (l : List VItem) :
    ∃ l', l'.map VItem.forget = l.map VItem.forget ∧ FreshMemory (.init n) l' := by
  have key : ∀ (l : List VItem) (M : VMachine) (S : Slots) (w : World), Rel n M S w →
      ∃ l', l'.map VItem.forget = l.map VItem.forget ∧ FreshMemory M l' := by
    intro l
    induction l with
    | nil => exact fun M S w h => ⟨[], rfl, trivial⟩
    | cons i l ih =>
      intro M S w h
      cases i with
      | expect q a =>
        obtain ⟨l', h1, h2⟩ := ih M S w h
        exact ⟨.expect q a :: l', by simp [h1], h2⟩
      | call c =>
        cases c with
        | erase k =>
          rcases h.erase hn k with ⟨h1, _⟩ | ⟨M', S', w', h1, _, h3⟩
          · exact ⟨.call (.erase k) :: l, rfl, fun _ _ e => by simp at e, fun M' e => by rw [h1] at e; simp at e⟩
          · obtain ⟨l', h4, h5⟩ := ih M' S' w' h3
            refine ⟨.call (.erase k) :: l', by simp [h4], fun _ _ e => by simp at e, fun M2 e => ?_⟩
            rw [h1] at e
            simp only [Option.some.injEq] at e
            exact e ▸ h5
        | emplace x b0 =>
          obtain ⟨m, known, hc⟩ := h.coupled
          obtain ⟨B, hB⟩ := hc.reach.inv hn
          obtain ⟨b, hb⟩ := hB.exists_fresh
          rw [hc.alloc] at hb
          obtain ⟨M', h1, h3⟩ := h.emplace hn x b hb
          obtain ⟨l', h4, h5⟩ := ih M' _ _ h3
          refine ⟨.call (.emplace x b) :: l', by simp [h4, VItem.forget], fun y c e => ?_, fun M2 e => ?_⟩
          · simp only [VCall.emplace.injEq] at e
            exact e.2 ▸ hb
          · rw [h1] at e
            simp only [Option.some.injEq] at e
            exact e ▸ h5
  exact key l _ _ _ (Rel.init n)

/-- The tests of the repository meet their expectations, whatever the addresses. -/
theorem vector_tests_pass (B : Nat → Nat) : ∀ l ∈ vectorTests B, FreshMemory (.init 3) l → vtest (.init 3) l = some true := by
  intro l hl hf
  rw [vector_is_a_list_of_slots (by decide) l hf]
  simp only [vectorTests, List.mem_cons, List.not_mem_nil, or_false] at hl
  rcases hl with rfl | rfl | rfl | rfl
  · rw [slots_test_forget 3 (sizeTest B) (sizeTest fun _ => 0) _ rfl]; decide +kernel
  · rw [slots_test_forget 3 (eraseTest B) (eraseTest fun _ => 0) _ rfl]; decide +kernel
  · rw [slots_test_forget 3 (iteratorTest B) (iteratorTest fun _ => 0) _ rfl]; decide +kernel
  · rw [slots_test_forget 3 (subscriptTest B) (subscriptTest fun _ => 0) _ rfl]; decide +kernel

/-- one choice of addresses: every block 10 after the one before -/
example : ∀ l ∈ vectorTests (fun i => 10 * i + 10), vtest (.init 3) l = some true := by decide +kernel

/-- Wrong expectations and wrong calls in the tests are noticed. -/
theorem wrong_vector_tests_fail : ∀ l ∈
    (let B := fun i => 10 * i + 10
     [iteratorTest B ++ [.expect .values [5, 6, 7, 4]],
      (iteratorTest B).dropLast ++ [.expect .values [6, 5, 4, 7]],
      (subscriptTest B).dropLast ++ [.expect (.valid 2) [1]],
      (subscriptTest B).dropLast.dropLast ++ [.call (.erase 3), .expect (.valid 2) [0]],
      (subscriptTest B).take 4 ++ [.call (.emplace 3 (B 2))] ++ (subscriptTest B).drop 5,
      (subscriptTest B).take 3 ++ [.expect (.at 0) [1]] ++ (subscriptTest B).drop 4]),
    vtest (.init 3) l = some false := by decide +kernel

/-- two elements, of which the first is erased -/
def twoLessOne (B : Nat → Nat) : List VItem :=
  [.call (.emplace 7 (B 0)), .call (.emplace 8 (B 1)), .call (.erase 0),
   .expect .size [1], .expect .values [8], .expect (.at 0) [7], .expect (.valid 0) [0]]

/-- The loop `for (int i = 0; i < std::size(vector); ++i)` over `vector[i]`, as in
tests/mito.lib/utilities/segmented_vector_print.cc:28-30, does not visit the elements once something was erased: here it visits the erased element
and misses the one that is left. -/
theorem loop_over_indices_misses (B : Nat → Nat) (hf : FreshMemory (.init 3) (twoLessOne B)) :
    vtest (.init 3) (twoLessOne B) = some true := by
  rw [vector_is_a_list_of_slots (by decide) _ hf, slots_test_forget 3 (twoLessOne B) (twoLessOne fun _ => 0) _ rfl]
  decide +kernel

end Mito.SegVec
