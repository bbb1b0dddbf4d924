import Verif.IO.SquareFile
import Verif.Spec.Load
import Mathlib.Data.Nat.Bitwise

/-! # Deciding the conditions on meshes for the mesh of a file -/

namespace Mito.Load

open Mito.Summit

/-! ### sets of numbers as bits -/

/-- no number is repeated or in the set `s` -/
def noRepeat : List Nat → Nat → Bool
  | [], _ => true
  | a :: l, s => !s.testBit a && noRepeat l (s ||| 1 <<< a)

theorem testBit_insert (s a i : Nat) : (s ||| 1 <<< a).testBit i = (s.testBit i || decide (i = a)) := by
  rw [Nat.testBit_or, Nat.one_shiftLeft, Nat.testBit_two_pow]
  simp only [eq_comm]

theorem noRepeat_nodup {l : List Nat} {s : Nat} (h : noRepeat l s = true) : l.Nodup ∧ ∀ a ∈ l, s.testBit a = false := by
  induction l generalizing s with
  | nil => simp
  | cons a l ih =>
    simp only [noRepeat, Bool.and_eq_true, Bool.not_eq_true'] at h
    obtain ⟨h1, h2⟩ := ih h.2
    refine ⟨List.nodup_cons.mpr ⟨fun hm => ?_, h1⟩, ?_⟩
    · have := h2 a hm
      simp [testBit_insert] at this
    · intro b hb
      rcases List.mem_cons.mp hb with rfl | hb
      · exact h.1
      · have := h2 b hb
        simp only [testBit_insert, Bool.or_eq_false_iff] at this
        exact this.1

/-- the set of the numbers in a list -/
def bits : List Nat → Nat → Nat
  | [], s => s
  | a :: l, s => bits l (s ||| 1 <<< a)

theorem testBit_bits (l : List Nat) (s i : Nat) : (bits l s).testBit i = true ↔ s.testBit i = true ∨ i ∈ l := by
  induction l generalizing s with
  | nil => simp [bits]
  | cons a l ih =>
    rw [bits, ih, testBit_insert]
    simp only [Bool.or_eq_true, decide_eq_true_eq, List.mem_cons, or_assoc]

/-- the number of a pair -/
def code (n : Nat) (e : Nat × Nat) : Nat := e.1 * n + e.2

theorem nodup_of_noRepeat (n : Nat) {l : List (Nat × Nat)} (h : noRepeat (l.map (code n)) 0 = true) : l.Nodup :=
  List.Nodup.of_map _ (noRepeat_nodup h).1

/-- all edges are on one side of the unit square or have an opposite edge -/
def onSquare (n : Nat) (coords : List (List ℚ)) (l : List (Nat × Nat)) : Bool :=
  let s := bits (l.map (code n)) 0
  l.all fun e => e.1 < n && e.2 < n && (s.testBit (code n (e.2, e.1)) ||
    ([0, 1].any fun k => ([0, 1] : List ℚ).any fun x => coordinate coords e.1 k = x && coordinate coords e.2 k = x))

theorem testBit_code {n : Nat} {l : List (Nat × Nat)} (hl : ∀ e ∈ l, e.1 < n ∧ e.2 < n) {e : Nat × Nat} (h : e.2 < n) :
    (bits (l.map (code n)) 0).testBit (code n e) = true ↔ e ∈ l := by
  rw [testBit_bits]
  simp only [Nat.zero_testBit, Bool.false_eq_true, false_or]
  refine ⟨fun hm => ?_, fun hm => List.mem_map_of_mem hm⟩
  obtain ⟨e', he', eq⟩ := List.mem_map.mp hm
  have g2 := (hl e' he').2
  simp only [code] at eq
  have q1 : e'.1 = e.1 := by
    have := congrArg (· / n) eq
    simp only [Nat.add_comm _ e'.2, Nat.add_comm _ e.2, Nat.add_mul_div_right _ _ (by omega : 0 < n), Nat.div_eq_of_lt g2,
      Nat.div_eq_of_lt h, Nat.zero_add] at this
    exact this
  have q2 : e'.2 = e.2 := by
    rw [q1] at eq
    omega
  rwa [show e = e' from Prod.ext q1.symm q2.symm]

theorem OnSquare.of {n : Nat} {coords : List (List ℚ)} {cells : List (List Nat)} (h : onSquare n coords (cells.flatMap edges) = true) :
    OnSquare coords cells := by
  intro e he
  simp only [onSquare, List.all_eq_true, Bool.and_eq_true, decide_eq_true_eq] at h
  obtain ⟨hm, hn⟩ := List.mem_filter.mp he
  obtain ⟨⟨h1, h2⟩, h3⟩ := h e hm
  rcases Bool.or_eq_true _ _ ▸ h3 with h3 | h3
  · rw [testBit_code (fun e he => (h e he).1) h1] at h3
    simp [h3] at hn
  · simp only [List.any_eq_true, Bool.and_eq_true, decide_eq_true_eq] at h3
    exact h3

theorem outer_eq {n : Nat} {cells : List (List Nat)} (h : ∀ e ∈ cells.flatMap edges, e.1 < n ∧ e.2 < n) :
    outer cells = (cells.flatMap edges).filter fun e => !(bits ((cells.flatMap edges).map (code n)) 0).testBit (code n (e.2, e.1)) := by
  refine List.filter_congr fun e he => ?_
  rw [Bool.eq_iff_iff, decide_eq_true_eq, Bool.not_eq_true', ← Bool.not_eq_true, testBit_code h (h e he).1]

/-! ### the mesh of tests/input/square.summit -/

/-- the mesh in the file -/
def squareMesh : List (List ℚ) × List (List Nat) :=
  (squareNodes.map squareCoordinates, squareCells.map fun c => [c.1 - 1, c.2.1 - 1, c.2.2 - 1])

theorem square_read : reader 2 3 3 squareFile = .ok squareMesh := by decide +kernel

theorem square_conforming : Conforming squareMesh.1 squareMesh.2 :=
  ⟨by decide +kernel, nodup_of_noRepeat 142 (by decide +kernel)⟩

theorem square_area : (squareMesh.2.map (doubleArea squareMesh.1)).sum = 2 := by decide +kernel

theorem square_fine : FineCells squareMesh.1 squareMesh.2 (12 / 100) 6 1 := by decide +kernel

theorem square_sides : OnSquare squareMesh.1 squareMesh.2 := OnSquare.of (n := 142) (by decide +kernel)

theorem square_lengths : squareMesh.1.length = 142 ∧ squareMesh.2.length = 242 := by decide +kernel

theorem square_outer : (outer squareMesh.2).length = 40 := by
  rw [outer_eq (n := 142) (by decide +kernel)]
  decide +kernel

end Mito.Load
