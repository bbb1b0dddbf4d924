import Verif.Geometry.MidpointsLemmas

/-!
# Barycenters and midpoints in double arithmetic (C142)

The theorems hold for every rounding to a nearest number with 53 binary digits, whichever of two.
-/

namespace Mito.Midpoints

open Mito.Printing
open Mito.Quadrature (rnd)

variable {fl : ℚ → ℚ}

/-- **C142.**  The barycenter of a segment, a triangle or a tetrahedron is in the bounding box of its nodes, in spite of rounding and however the
sum is divided. -/
theorem barycenter_box (h : NearestDigits 2 53 fl) (div : Division) {x0 m M : ℚ} {xs : List ℚ} (hm : HasDigits 2 53 m) (hM : HasDigits 2 53 M)
    (h0 : m ≤ x0 ∧ x0 ≤ M) (hx : ∀ x ∈ xs, m ≤ x ∧ x ≤ M) (hn : xs.length ≤ 3) :
    m ≤ barycenter fl div x0 xs ∧ barycenter fl div x0 xs ≤ M := by
  have hb : (xs.length : ℚ) * (1 + unit) ^ (xs.length + 3) ≤ xs.length + 1 := by
    have : xs.length = 0 ∨ xs.length = 1 ∨ xs.length = 2 ∨ xs.length = 3 := by omega
    rcases this with e | e | e | e <;> rw [e] <;> norm_num [unit]
  exact ⟨le_barycenter h div hm h0.1 (fun x hx' => (hx x hx').1) hb, barycenter_le h div hM h0.2 (fun x hx' => (hx x hx').2) hb⟩

/-- a cell whose nodes have the same coordinate has its barycenter there -/
theorem barycenter_const (h : NearestDigits 2 53 fl) (div : Division) {x : ℚ} (hx : HasDigits 2 53 x) (n : ℕ) (hn : n ≤ 3) :
    barycenter fl div x (List.replicate n x) = x := by
  have := barycenter_box h div hx hx (x0 := x) (xs := List.replicate n x) ⟨le_rfl, le_rfl⟩
    (fun y hy => by rw [List.eq_of_mem_replicate hy]; exact ⟨le_rfl, le_rfl⟩) (by simpa using hn)
  exact le_antisymm this.2 this.1

theorem midpoint_eq (h : NearestDigits 2 53 fl) (a b : ℚ) : midpoint fl a b = fl (a + 1 / 2 * fl (b - a)) := by
  rw [midpoint, fl_fixed h (digits_half (h _).1)]

theorem midpoint_neg (a b : ℚ) : midpoint (fun x => -fl (-x)) (-a) (-b) = -midpoint fl a b := by
  simp only [midpoint]
  have e : -(-b - -a) = b - a := by ring
  rw [e, show -(1 / 2 * -fl (b - a)) = 1 / 2 * fl (b - a) by ring]
  ring_nf

theorem midpoint_between (h : NearestDigits 2 53 fl) {a b : ℚ} (ha : HasDigits 2 53 a) (hb : HasDigits 2 53 b) (hab : a ≤ b) :
    a ≤ midpoint fl a b ∧ midpoint fl a b ≤ b := by
  rw [midpoint_eq h]
  have h0 : 0 ≤ fl (b - a) := le_fl h digits_zero (by linarith)
  have h1 : fl (b - a) ≤ (1 + unit) * (b - a) := fl_le_scaled h (by linarith) le_rfl
  have h2 : (1 + unit) * (b - a) ≤ 2 * (b - a) := mul_le_mul_of_nonneg_right (by norm_num [unit]) (by linarith)
  exact ⟨le_fl h ha (by linarith), fl_le h hb (by linarith)⟩

/-- the same for the other order of the nodes -/
theorem midpoint_between' (h : NearestDigits 2 53 fl) {a b : ℚ} (ha : HasDigits 2 53 a) (hb : HasDigits 2 53 b) (hab : a ≤ b) :
    a ≤ midpoint fl b a ∧ midpoint fl b a ≤ b := by
  have := midpoint_between (nearest_neg h) (digits_neg hb) (digits_neg ha) (neg_le_neg hab)
  rw [midpoint_neg] at this
  exact ⟨by linarith [this.2], by linarith [this.1]⟩

/-- **C142.**  However often a mesh is refined, its nodes stay in the bounding box of the first mesh. -/
theorem refined_box (h : NearestDigits 2 53 fl) {S : ℚ → Prop} {m M : ℚ} (hS : ∀ x, S x → HasDigits 2 53 x ∧ m ≤ x ∧ x ≤ M) {x : ℚ} (hx : Refined fl S x) :
    HasDigits 2 53 x ∧ m ≤ x ∧ x ≤ M := by
  induction hx with
  | node hs => exact hS _ hs
  | @mid a b _ _ iha ihb =>
    refine ⟨(h _).1, ?_⟩
    rcases le_total a b with hab | hab
    · have := midpoint_between h iha.1 ihb.1 hab
      exact ⟨iha.2.1.trans this.1, this.2.trans ihb.2.2⟩
    · have := midpoint_between' h ihb.1 iha.1 hab
      exact ⟨ihb.2.1.trans this.1, this.2.trans iha.2.2⟩

/-- the midpoint is not the greater end if there is a number between the ends -/
theorem midpoint_lt (h : NearestDigits 2 53 fl) {a b c : ℚ} (ha : HasDigits 2 53 a) (hb : HasDigits 2 53 b) (hc : HasDigits 2 53 c) (hac : a < c)
    (hcb : c < b) : a < midpoint fl a b ∧ midpoint fl a b < b := by
  obtain ⟨hl, hr⟩ := midpoint_between h ha hb (by linarith)
  have hu : unit ≤ 1 / 16 := by norm_num [unit]
  have hu0 := unit_pos
  rw [midpoint_eq h] at hl hr ⊢
  set p := a + 1 / 2 * fl (b - a) with hp
  by_cases hs : |b - a| ≤ |a| ∧ |b - a| ≤ |b|
  · -- the difference is exact
    have hd : fl (b - a) = b - a := fl_fixed h (digits_sub ha hb hs.1 hs.2)
    have hpe : p = (a + b) / 2 := by
      rw [hp, hd]
      ring
    have hcp : |c - p| < (b - a) / 2 := by
      rw [hpe, abs_lt]
      constructor <;> linarith
    have hn := (h p).2 c hc
    constructor
    · refine lt_of_le_of_ne hl fun e => ?_
      rw [← e, hpe, show a - (a + b) / 2 = -((b - a) / 2) by ring, abs_neg, abs_of_pos (by linarith)] at hn
      rw [hpe] at hcp
      linarith
    · refine lt_of_le_of_ne hr fun e => ?_
      rw [e, hpe, show b - (a + b) / 2 = (b - a) / 2 by ring, abs_of_pos (by linarith)] at hn
      rw [hpe] at hcp
      linarith
  · -- the ends are not much greater than their distance
    have hpos : 0 < b - a := by linarith
    rw [abs_of_pos hpos] at hs
    have hab : |b| ≤ |a| + (b - a) ∧ |a| ≤ |b| + (b - a) := by
      constructor
      · calc |b| = |a + (b - a)| := by ring_nf
          _ ≤ |a| + |b - a| := abs_add_le _ _
          _ = _ := by rw [abs_of_pos hpos]
      · calc |a| = |b - (b - a)| := by ring_nf
          _ ≤ |b| + |b - a| := abs_sub _ _
          _ = _ := by rw [abs_of_pos hpos]
    have hA : |a| ≤ 2 * (b - a) ∧ |b| ≤ 2 * (b - a) := by
      rw [not_and_or, not_le, not_le] at hs
      rcases hs with hs | hs <;> constructor <;> linarith [hab.1, hab.2]
    have he := abs_le.mp (fl_error h (b - a))
    rw [abs_of_pos hpos] at he
    have hr0 : 0 ≤ fl (b - a) := le_fl h digits_zero hpos.le
    have hub : unit * (b - a) ≤ 1 / 16 * (b - a) := mul_le_mul_of_nonneg_right hu hpos.le
    have hpa : a < p := by rw [hp]; linarith
    have hpb : p < b := by rw [hp]; linarith [he.2]
    have hP : |p| ≤ 2 * (b - a) := by
      obtain ⟨h1, h2⟩ := hA
      rw [abs_le] at h1 h2 ⊢
      constructor <;> linarith
    have hf := abs_le.mp (fl_error h p)
    have hup : unit * |p| ≤ 1 / 8 * (b - a) := by
      calc unit * |p| ≤ 1 / 16 * (2 * (b - a)) := mul_le_mul hu hP (abs_nonneg _) (by norm_num)
        _ = _ := by ring
    constructor
    · have : a + 1 / 2 * fl (b - a) = p := rfl
      linarith [hf.1, he.1]
    · have : a + 1 / 2 * fl (b - a) = p := rfl
      linarith [hf.2, he.2]

/-- **C142.**  The midpoint of two coordinates is a new coordinate, between the two, exactly if there is a `double` between them. -/
theorem midpoint_new (h : NearestDigits 2 53 fl) {a b : ℚ} (ha : HasDigits 2 53 a) (hb : HasDigits 2 53 b) (hab : a < b) :
    ((a < midpoint fl a b ∧ midpoint fl a b < b) ↔ ∃ c, HasDigits 2 53 c ∧ a < c ∧ c < b) ∧
      ((a < midpoint fl b a ∧ midpoint fl b a < b) ↔ ∃ c, HasDigits 2 53 c ∧ a < c ∧ c < b) := by
  refine ⟨⟨fun hm => ⟨_, (h _).1, hm⟩, fun ⟨c, hc, h1, h2⟩ => midpoint_lt h ha hb hc h1 h2⟩,
    ⟨fun hm => ⟨_, (h _).1, hm⟩, fun ⟨c, hc, h1, h2⟩ => ?_⟩⟩
  have := midpoint_lt (nearest_neg h) (digits_neg hb) (digits_neg ha) (digits_neg hc) (neg_lt_neg h2) (neg_lt_neg h1)
  rw [midpoint_neg] at this
  exact ⟨by linarith [this.2], by linarith [this.1]⟩

/-- **C142.**  The midpoint does not depend on the order of the ends if these are not further apart than each of them is from zero. -/
theorem midpoint_symm (h : NearestDigits 2 53 fl) {a b : ℚ} (ha : HasDigits 2 53 a) (hb : HasDigits 2 53 b) (h1 : |b - a| ≤ |a|) (h2 : |b - a| ≤ |b|) :
    midpoint fl a b = midpoint fl b a := by
  have hd := digits_sub ha hb h1 h2
  have hd' : HasDigits 2 53 (a - b) := by
    have := digits_neg hd
    rwa [neg_sub] at this
  rw [midpoint_eq h, midpoint_eq h, fl_fixed h hd, fl_fixed h hd']
  congr 1
  ring

/-- **C142.**  The tests of barycenters pass, however the sum is divided. -/
theorem tests_pass (div : Division) : tests rnd div = List.replicate 6 true := by
  cases div <;> decide +kernel

/-- **C142 (finding).**  In general, midpoints and barycenters depend on the order of the nodes: the midpoints of `0.1` and `0.5`, and the
barycenters of the triangles with the coordinates `0`, `0.1` and `0.5`. -/
theorem order_matters : midpoint rnd (rnd 0.1) (rnd 0.5) ≠ midpoint rnd (rnd 0.5) (rnd 0.1) ∧
    ∀ div, barycenter rnd div 0 [rnd 0.1, rnd 0.5] ≠ barycenter rnd div (rnd 0.1) [0, rnd 0.5] := by
  refine ⟨by decide +kernel, fun div => ?_⟩
  cases div <;> decide +kernel

/-- **C142 (finding).**  Refining ends: the midpoint of two neighbouring numbers is one of them, and a half of the segment has no length. -/
theorem no_midpoint : rnd (1 + 1 / 2 ^ 52) = 1 + 1 / 2 ^ 52 ∧ midpoint rnd 1 (1 + 1 / 2 ^ 52) = 1 := by decide +kernel

/-- The theorems are not empty: a rounding, and a number between two others. -/
example : NearestDigits 2 53 rnd ∧ 0 < midpoint rnd 0 1 ∧ midpoint rnd 0 1 < 1 ∧ midpoint rnd 3 4 = 3.5 :=
  ⟨rnd_nearest, by decide +kernel⟩

end Mito.Midpoints
