import Verif.IO.PrintingLemmas
import Verif.Props.Summit

/-!
# Coordinates in written files (C137)

C46 takes the numbers in a file for granted.  Here they are printed with 15 decimal digits and read into numbers with 53 binary digits.
-/

namespace Mito.Printing

open Mito.Quadrature (rnd)
open Mito.Summit Mito.Numbering

variable {D type V : Nat} {coords : Nat → List ℚ} {order : List (Nat × Nat)} {cells : List Cell} {dec fl : ℚ → ℚ}

/-- **C137.**  A mesh that was read from a written file is written to the same file again, whatever the order in which the hash tables are
visited: only the first file may lose digits. -/
theorem written_twice (hdec : NearestDigits 10 15 dec) (hfl : NearestDigits 2 53 fl) (ho : order.Perm (points cells))
    (hV : ∀ c ∈ cells, c.length = V) (hD : ∀ p ∈ meshPoints cells, (coords p).length = D) {file : List Token}
    (hw : write D type coords dec [] order cells = some file) :
    ∃ pts cs, reader D type V file = .ok (pts, cs) ∧ ∀ order', order'.Perm (points (readCells cs)) →
      write D type (readCoordinates fl pts) dec [] order' (readCells cs) = some file := by
  refine ⟨_, _, summit_read_write ho hV hD file hw, fun order' ho' => ?_⟩
  rw [write_eq ho] at hw
  rw [write_eq ho', ← hw, points_readCells]
  have hi : ∀ n, fileIndex (readCells (cells.map fun c => c.map (fileIndex cells))) n =
      (List.range (firsts (meshPoints cells)).length).idxOf n.point := by
    intro n
    rw [fileIndex, points_readCells]
  congr 2
  · simp [readCells]
  congr 1
  · congr 1
    refine List.ext_getElem (by simp) fun i h1 h2 => ?_
    simp only [List.getElem_map, List.getElem_range]
    have hi : i < (firsts (meshPoints cells)).length := by simpa using h2
    simp only [readCoordinates, List.getD_eq_getElem?_getD, List.getElem?_map, List.getElem?_eq_getElem hi, Option.map_some, Option.getD_some,
      List.map_map]
    refine List.map_congr_left fun x _ => ?_
    exact print_read hdec hfl (hdec x).1
  · simp only [readCells, List.flatMap_map, List.map_map]
    rw [List.flatMap_def, List.flatMap_def]
    congr 1
    refine List.map_congr_left fun c hc => ?_
    congr 3
    rw [Function.comp_apply, List.map_map, List.map_map]
    refine List.map_congr_left fun n hn => ?_
    have hlt := idxOf_firsts_lt (mem_meshPoints hc hn)
    simp only [List.map_map, Function.comp_def]
    have h := hi ⟨fileIndex cells n, fileIndex cells n⟩
    simp only [readCells, List.map_map, Function.comp_def] at h
    rw [h]
    have hr : (List.range (firsts (meshPoints cells)).length)[fileIndex cells n]'(by simpa [fileIndex] using hlt) = fileIndex cells n := by simp
    have := List.nodup_range.idxOf_getElem (fileIndex cells n) (by simpa [fileIndex] using hlt)
    rw [hr] at this
    rw [this]

/-- **C137.**  A mesh whose coordinates come from decimal numbers with 15 digits at most, as in most files of the tests, is read back with
the same coordinates. -/
theorem read_back_exactly (hdec : NearestDigits 10 15 dec) (hfl : NearestDigits 2 53 fl) (ho : order.Perm (points cells))
    (hV : ∀ c ∈ cells, c.length = V) (hD : ∀ p ∈ meshPoints cells, (coords p).length = D)
    (hx : ∀ p ∈ meshPoints cells, ∀ x ∈ coords p, ∃ d, HasDigits 10 15 d ∧ x = fl d) {file : List Token}
    (hw : write D type coords dec [] order cells = some file) :
    ∃ pts cs, reader D type V file = .ok (pts, cs) ∧ SameMesh coords id cells (pts.map (List.map fl)) cs := by
  obtain ⟨pts, cs, h1, h2⟩ := summit_round_trip_partial ho hV hD file hw
  refine ⟨pts, cs, h1, h2.cellCount, by rw [List.length_map, h2.nodeCount], h2.arity, ?_, h2.shared⟩
  intro j k c n hc hn
  obtain ⟨r, i, e1, e2, e3⟩ := h2.places j k c n hc hn
  refine ⟨r, i, e1, e2, ?_⟩
  rw [List.getElem?_map, e3, Option.map_some, List.map_map, List.map_id]
  congr 1
  conv_rhs => rw [← List.map_id (coords n.point)]
  refine List.map_congr_left fun x hm => ?_
  obtain ⟨d, hd, rfl⟩ := hx n.point (mem_meshPoints (List.mem_of_getElem? hc) (List.mem_of_getElem? hn)) x hm
  simp only [Function.comp, id]
  rw [print_read hdec hfl hd]

/-- **C137.**  Coordinates change by `5.2e-15` of themselves at most, so that zero stays zero and signs are kept. -/
theorem read_back_error (hdec : NearestDigits 10 15 dec) (hfl : NearestDigits 2 53 fl) (x : ℚ) : |fl (dec x) - x| ≤ 52 / 10 ^ 16 * |x| := by
  have h1 := hdec.relative (by norm_num) (by norm_num) x
  have h2 := hfl.relative (by norm_num) (by norm_num) (dec x)
  have h3 : |dec x| ≤ |x| + |dec x - x| := by
    have := abs_add_le x (dec x - x)
    rwa [add_sub_cancel] at this
  have h4 : |fl (dec x) - x| ≤ |fl (dec x) - dec x| + |dec x - x| := abs_sub_le _ _ _
  norm_num at *
  linarith [abs_nonneg x]

/-- **C137.**  The order of coordinates is kept, though they may become equal: segments do not change their direction. -/
theorem read_back_mono (hdec : NearestDigits 10 15 dec) (hfl : NearestDigits 2 53 fl) {x y : ℚ} (h : x ≤ y) : fl (dec x) ≤ fl (dec y) := by
  have key : ∀ {b p : ℕ} {rd : ℚ → ℚ}, NearestDigits b p rd → ∀ {x y : ℚ}, x ≤ y → rd x ≤ rd y := by
    intro b p rd hrd x y h
    rcases h.eq_or_lt with rfl | h
    · exact le_rfl
    by_contra hlt
    rw [not_le] at hlt
    have h1 := (hrd x).2 _ (hrd y).1
    have h2 := (hrd y).2 _ (hrd x).1
    have a1 := sq_le_sq.mpr h1
    have a2 := sq_le_sq.mpr h2
    nlinarith [mul_pos (sub_pos.mpr hlt) (sub_pos.mpr h)]
  exact key hfl (key hdec h)

/-- twice the area of a triangle -/
def doubleArea (a b c : ℚ × ℚ) : ℚ := (b.1 - a.1) * (c.2 - a.2) - (b.2 - a.2) * (c.1 - a.1)

/-- a point after it was written and read -/
def readBack (p : ℚ × ℚ) : ℚ × ℚ := (rnd (decimal p.1), rnd (decimal p.2))

/-- **C137 (finding).**  The digits of `1.0 / 3.0` and of coordinates in tests/input/disk_polar.summit are lost. -/
theorem digits_lost : rnd (decimal (rnd (1 / 3))) ≠ rnd (1 / 3) ∧ rnd (decimal (rnd 1.5707963267948966)) ≠ rnd 1.5707963267948966 := by
  constructor <;> decide +kernel

/-- **C137 (finding).**  A segment may lose its length: its nodes are read at the same coordinate. -/
theorem segment_lost : ∃ x y, rnd x = x ∧ rnd y = y ∧ x < y ∧ rnd (decimal x) = rnd (decimal y) :=
  ⟨1, 1 + 1 / 2 ^ 52, by decide +kernel⟩

/-- **C137 (finding).**  A triangle may change its orientation: one with a positive area is read with a negative area. -/
theorem triangle_reversed : ∃ a b c : ℚ × ℚ, (∀ p ∈ [a, b, c], rnd p.1 = p.1 ∧ rnd p.2 = p.2) ∧ 0 < doubleArea a b c ∧
    doubleArea (readBack a) (readBack b) (readBack c) < 0 :=
  ⟨(0, 0), (3, 1), (1 - 1 / 2 ^ 53, rnd (1 / 3)), by decide +kernel⟩

/-- The functions of the code are such roundings. -/
example : NearestDigits 10 15 decimal ∧ NearestDigits 2 53 rnd := ⟨decimal_nearest, rnd_nearest⟩

/-- The theorems are not empty: a file with the coordinate 0.1, and what is printed for a third. -/
example : decimal (rnd 0.1) = 0.1 ∧ rnd 0.1 ≠ 0.1 ∧ decimal (rnd (1 / 3)) = 0.333333333333333 ∧ decimal (-1234567890123456789) = -1234567890123460000 := by
  decide +kernel

end Mito.Printing
