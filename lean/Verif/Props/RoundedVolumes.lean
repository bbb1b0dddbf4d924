import Verif.Geometry.RoundedVolumes
import Verif.Geometry.MidpointsLemmas
import Verif.Math.RoundingLemmas

/-!
# Volumes of cells in double arithmetic (C148)
-/

namespace Mito.RoundedVolumes

open Mito.Printing Mito.Midpoints
open Mito.Quadrature (rnd)

/-! ## Exchanging two nodes -/

section Swap

variable {α : Type} [Field α] {fl : α → α}

theorem wedge2_swap (hodd : ∀ x, fl (-x) = -fl x) {d : Nat} (i j : Fin d) (y z : Fin d → α) : wedge2 fl i j z y = -wedge2 fl i j y z := by
  unfold wedge2
  rw [← hodd, mul_comm (z i), mul_comm (z j), neg_sub]

/-- **C148.**  Exchanging the last two nodes of a triangle changes the sign of the computed volume and nothing else. -/
theorem triangle_swap (hodd : ∀ x, fl (-x) = -fl x) (p q r : Fin 2 → α) : triangle fl p r q = -triangle fl p q r := by
  unfold triangle
  rw [wedge2_swap hodd, mul_neg, hodd]

/-- **C148.**  Exchanging the last two nodes of a tetrahedron changes the sign of the computed volume and nothing else. -/
theorem tetrahedron_swap (hodd : ∀ x, fl (-x) = -fl x) (p q r s : Fin 3 → α) : tetrahedron fl p q s r = -tetrahedron fl p q r s := by
  unfold tetrahedron wedge3
  simp only [wedge2_swap hodd _ _ (director fl p r) (director fl p s), mul_neg, hodd, ← neg_add]

end Swap

theorem nearestEvenQ_spec (x : ℚ) :
    |(Quadrature.nearestEvenQ x : ℚ) - x| < 1 / 2 ∨ (|(Quadrature.nearestEvenQ x : ℚ) - x| = 1 / 2 ∧ Quadrature.nearestEvenQ x % 2 = 0) := by
  have h0 : (x.floor : ℚ) ≤ x := Rat.floor_le x
  have h1 : x < x.floor + 1 := by exact_mod_cast Rat.lt_floor_add_one x
  unfold Quadrature.nearestEvenQ
  by_cases c1 : x - x.floor < 1 / 2
  · rw [if_pos c1]
    left
    rw [abs_lt]
    constructor <;> linarith
  · rw [if_neg c1]
    by_cases c2 : 1 / 2 < x - x.floor
    · rw [if_pos c2]
      left
      rw [abs_lt]
      push_cast
      constructor <;> linarith
    · rw [if_neg c2]
      have e : x - x.floor = 1 / 2 := le_antisymm (not_lt.mp c2) (not_lt.mp c1)
      right
      by_cases c3 : x.floor % 2 = 0
      · rw [if_pos c3]
        refine ⟨?_, c3⟩
        rw [abs_of_nonpos (by linarith)]
        linarith
      · rw [if_neg c3]
        refine ⟨?_, by omega⟩
        push_cast
        rw [abs_of_nonneg (by linarith)]
        linarith

theorem nearestEvenQ_unique {x : ℚ} {n : ℤ} (hn : |(n : ℚ) - x| < 1 / 2 ∨ (|(n : ℚ) - x| = 1 / 2 ∧ n % 2 = 0)) : Quadrature.nearestEvenQ x = n := by
  have hm := nearestEvenQ_spec x
  generalize Quadrature.nearestEvenQ x = m at hm
  have tri : |(m : ℚ) - n| ≤ |(m : ℚ) - x| + |(n : ℚ) - x| := by
    have := abs_sub ((m : ℚ) - x) ((n : ℚ) - x)
    rwa [sub_sub_sub_cancel_right] at this
  have cast : |(m : ℚ) - n| = ((|m - n| : ℤ) : ℚ) := by push_cast; rfl
  rcases hm with hm | ⟨hm, em⟩ <;> rcases hn with hn | ⟨hn, en⟩
  case inr.inr =>
    have : ((|m - n| : ℤ) : ℚ) ≤ 1 := by rw [← cast]; linarith
    have h1 : |m - n| ≤ 1 := by exact_mod_cast this
    have := abs_le.mp h1
    omega
  all_goals
    have : ((|m - n| : ℤ) : ℚ) < 1 := by rw [← cast]; linarith
    have h1 : |m - n| < 1 := by exact_mod_cast this
    have := abs_lt.mp h1
    omega

/-- rounding to nearest, with ties to even, is odd -/
theorem rnd_odd (x : ℚ) : rnd (-x) = -rnd x := by
  have he : Quadrature.exponent (-x) = Quadrature.exponent x := by simp [Quadrature.exponent]
  unfold rnd
  by_cases h : x = 0
  · simp [h]
  · rw [if_neg (neg_ne_zero.mpr h), if_neg h, he, neg_div]
    have : Quadrature.nearestEvenQ (-(x / Quadrature.twoTo (Quadrature.exponent x - 52))) =
        -Quadrature.nearestEvenQ (x / Quadrature.twoTo (Quadrature.exponent x - 52)) := by
      apply nearestEvenQ_unique
      have hs := nearestEvenQ_spec (x / Quadrature.twoTo (Quadrature.exponent x - 52))
      push_cast
      rw [neg_sub_neg, abs_sub_comm]
      refine hs.imp_right fun h => ⟨h.1, by omega⟩
    rw [this]
    push_cast
    ring

/-- **C148 (finding).**  Even permutations of the nodes are not as harmless: for a flat triangle the three results have three signs, and for
another triangle they are three numbers. -/
theorem rotation_matters :
    (0 < triangle rnd (flat 0) (flat 1) (flat 2) ∧ triangle rnd (flat 1) (flat 2) (flat 0) = 0 ∧ triangle rnd (flat 2) (flat 0) (flat 1) < 0) ∧
    triangle rnd (ordinary 0) (ordinary 1) (ordinary 2) ≠ triangle rnd (ordinary 1) (ordinary 2) (ordinary 0) ∧
    triangle rnd (ordinary 1) (ordinary 2) (ordinary 0) ≠ triangle rnd (ordinary 2) (ordinary 0) (ordinary 1) := by
  decide +kernel

/-- **C148 (finding).**  The computed volume of that triangle is positive, its volume is negative. -/
theorem sign_wrong : 0 < triangle rnd (flat 0) (flat 1) (flat 2) ∧ triangle id (flat 0) (flat 1) (flat 2) < 0 := by decide +kernel

/-! ## Errors -/

section Error

variable {u : ℝ} {fl : ℝ → ℝ}

/-- the sum of the magnitudes of the terms of the area -/
noncomputable def triangleSize (p q r : Fin 2 → ℝ) : ℝ := 1 / 2 * (|q 0 - p 0| * |r 1 - p 1| + |q 1 - p 1| * |r 0 - p 0|)

theorem director_within (hfl : Rounds u fl) (hu : 0 ≤ u) {d : Nat} (p q : Fin d → ℝ) (i : Fin d) :
    Within (1 + u) (director fl p q i) (q i - p i) |q i - p i| := by
  simpa [director] using (Within.exact (q i - p i)).round hfl hu

theorem wedge2_within (hfl : Rounds u fl) (hu : 0 ≤ u) {d : Nat} (p q r : Fin d → ℝ) (i j : Fin d) :
    Within ((1 + u) ^ 4) (wedge2 fl i j (director fl p q) (director fl p r)) ((q i - p i) * (r j - p j) - (q j - p j) * (r i - p i))
      (|q i - p i| * |r j - p j| + |q j - p j| * |r i - p i|) := by
  have h := ((((director_within hfl hu p q i).mul (director_within hfl hu p r j)).round hfl hu).sub
    (((director_within hfl hu p q j).mul (director_within hfl hu p r i)).round hfl hu)).round hfl hu
  exact h.mono (by ring_nf; exact le_rfl)

/-- **C148.**  The error of the computed volume of a triangle is bounded by a multiple of the magnitudes of its terms. -/
theorem triangle_error (hfl : Rounds u fl) (hu : 0 ≤ u) (p q r : Fin 2 → ℝ) :
    |triangle fl p q r - triangle id p q r| ≤ ((1 + u) ^ 6 - 1) * triangleSize p q r := by
  have h := (((Within.exact (1 / 2)).round hfl hu).mul (wedge2_within hfl hu p q r 0 1)).round hfl hu
  rw [abs_of_pos (by norm_num : (0 : ℝ) < 1 / 2)] at h
  have h2 := h.error
  rw [show 1 * (1 + u) * (1 + u) ^ 4 * (1 + u) = (1 + u) ^ 6 by ring] at h2
  exact h2

/-- **C148.**  A computed director vanishes only where the nodes are at the same place. -/
theorem director_zero (hfl : Rounds u fl) (hu : u < 1) {d : Nat} (p q : Fin d → ℝ) : director fl p q = 0 ↔ q = p := by
  constructor
  · intro h
    funext i
    have h1 : fl (q i - p i) = 0 := congrFun h i
    have h2 := hfl (q i - p i)
    rw [h1, zero_sub, abs_neg] at h2
    have h3 : |q i - p i| ≤ 0 := by nlinarith [abs_nonneg (q i - p i)]
    exact sub_eq_zero.mp (abs_eq_zero.mp (le_antisymm h3 (abs_nonneg _)))
  · rintro rfl
    funext i
    have h2 := hfl 0
    simp only [sub_zero, abs_zero, mul_zero] at h2
    simp only [director, sub_self, Pi.zero_apply]
    exact abs_eq_zero.mp (le_antisymm h2 (abs_nonneg _))

/-- **C148.**  A triangle that is not too flat has a computed volume of the right sign. -/
theorem triangle_sign (hfl : Rounds u fl) (hu : 0 ≤ u) (p q r : Fin 2 → ℝ) (h : ((1 + u) ^ 6 - 1) * triangleSize p q r < |triangle id p q r|) :
    0 < triangle fl p q r * triangle id p q r := by
  have he := abs_le.mp (triangle_error hfl hu p q r)
  rcases le_total 0 (triangle id p q r) with h0 | h0
  · rw [abs_of_nonneg h0] at h
    have hb : 0 ≤ ((1 + u) ^ 6 - 1) * triangleSize p q r := le_trans (abs_nonneg _) (triangle_error hfl hu p q r)
    exact mul_pos (by linarith [he.1]) (by linarith)
  · rw [abs_of_nonpos h0] at h
    have hb : 0 ≤ ((1 + u) ^ 6 - 1) * triangleSize p q r := le_trans (abs_nonneg _) (triangle_error hfl hu p q r)
    exact mul_pos_of_neg_of_neg (by linarith [he.2]) (by linarith)

/-- the sum of the magnitudes of the terms of the volume -/
noncomputable def tetrahedronSize (p q r s : Fin 3 → ℝ) : ℝ :=
  1 / 6 * (|q 0 - p 0| * (|r 1 - p 1| * |s 2 - p 2| + |r 2 - p 2| * |s 1 - p 1|) +
    |q 1 - p 1| * (|r 2 - p 2| * |s 0 - p 0| + |r 0 - p 0| * |s 2 - p 2|) +
    |q 2 - p 2| * (|r 0 - p 0| * |s 1 - p 1| + |r 1 - p 1| * |s 0 - p 0|))

/-- **C148.**  The error of the computed volume of a tetrahedron is bounded by a multiple of the magnitudes of its terms. -/
theorem tetrahedron_error (hfl : Rounds u fl) (hu : 0 ≤ u) (p q r s : Fin 3 → ℝ) :
    |tetrahedron fl p q r s - tetrahedron id p q r s| ≤ ((1 + u) ^ 10 - 1) * tetrahedronSize p q r s := by
  have t : ∀ i j k : Fin 3, Within ((1 + u) ^ 6) (fl (director fl p q i * wedge2 fl j k (director fl p r) (director fl p s)))
      ((q i - p i) * ((r j - p j) * (s k - p k) - (r k - p k) * (s j - p j)))
      (|q i - p i| * (|r j - p j| * |s k - p k| + |r k - p k| * |s j - p j|)) := fun i j k =>
    (((director_within hfl hu p q i).mul (wedge2_within hfl hu p r s j k)).round hfl hu).mono (by ring_nf; exact le_rfl)
  have up : (1 + u) ^ 6 ≤ (1 + u) ^ 6 * (1 + u) := le_mul_of_one_le_right (by positivity) (by linarith)
  have h := (((Within.exact (1 / 6)).round hfl hu).mul
    ((((((t 0 1 2).add (t 1 2 0)).round hfl hu)).add ((t 2 0 1).mono up)).round hfl hu)).round hfl hu
  rw [abs_of_pos (by norm_num : (0 : ℝ) < 1 / 6)] at h
  have h2 := h.error
  rw [show 1 * (1 + u) * ((1 + u) ^ 6 * (1 + u) * (1 + u)) * (1 + u) = (1 + u) ^ 10 by ring] at h2
  exact h2

end Error

/-! ## Coordinates on a grid -/

section Grid

variable {fl : ℚ → ℚ}

/-- an integer of a given size times a power of two -/
def OnGrid (e : ℤ) (m : ℕ) (x : ℚ) : Prop := ∃ n : ℤ, |n| ≤ m ∧ x = n * 2 ^ e

theorem OnGrid.fixed (h : NearestDigits 2 53 fl) {e : ℤ} {m : ℕ} (hm : m ≤ 2 ^ 53) {x : ℚ} (hx : OnGrid e m x) : fl x = x := by
  obtain ⟨n, hn, rfl⟩ := hx
  have := HasDigits.of_le (b := 2) (p := 53) le_rfl (by norm_num) (n := n) (le_trans hn (by exact_mod_cast hm)) e
  exact fl_fixed h (by simpa using this)

theorem OnGrid.add {e : ℤ} {a b : ℕ} {x y : ℚ} (hx : OnGrid e a x) (hy : OnGrid e b y) : OnGrid e (a + b) (x + y) := by
  obtain ⟨n, hn, rfl⟩ := hx
  obtain ⟨m, hm, rfl⟩ := hy
  refine ⟨n + m, le_trans (abs_add_le n m) (by push_cast; linarith), by push_cast; ring⟩

theorem OnGrid.sub {e : ℤ} {a b : ℕ} {x y : ℚ} (hx : OnGrid e a x) (hy : OnGrid e b y) : OnGrid e (a + b) (x - y) := by
  obtain ⟨n, hn, rfl⟩ := hx
  obtain ⟨m, hm, rfl⟩ := hy
  refine ⟨n - m, le_trans (abs_sub n m) (by push_cast; linarith), by push_cast; ring⟩

theorem OnGrid.mul {e f : ℤ} {a b : ℕ} {x y : ℚ} (hx : OnGrid e a x) (hy : OnGrid f b y) : OnGrid (e + f) (a * b) (x * y) := by
  obtain ⟨n, hn, rfl⟩ := hx
  obtain ⟨m, hm, rfl⟩ := hy
  refine ⟨n * m, ?_, by rw [zpow_add₀ (by norm_num)]; push_cast; ring⟩
  rw [abs_mul]
  push_cast
  exact mul_le_mul hn hm (abs_nonneg m) (by positivity)

theorem director_grid (h : NearestDigits 2 53 fl) {e : ℤ} {a : ℕ} (ha : a + a ≤ 2 ^ 53) {d : Nat} {p q : Fin d → ℚ} (hp : ∀ i, OnGrid e a (p i))
    (hq : ∀ i, OnGrid e a (q i)) : director fl p q = director id p q ∧ ∀ i, OnGrid e (a + a) (director id p q i) := by
  have g : ∀ i, OnGrid e (a + a) (q i - p i) := fun i => (hq i).sub (hp i)
  exact ⟨funext fun i => (g i).fixed h ha, g⟩

theorem wedge2_grid (h : NearestDigits 2 53 fl) {e : ℤ} {a : ℕ} (ha : a * a + a * a ≤ 2 ^ 53) {d : Nat} {y z : Fin d → ℚ} (hy : ∀ i, OnGrid e a (y i))
    (hz : ∀ i, OnGrid e a (z i)) (i j : Fin d) : wedge2 fl i j y z = wedge2 id i j y z ∧ OnGrid (e + e) (a * a + a * a) (wedge2 id i j y z) := by
  have g1 := (hy i).mul (hz j)
  have g2 := (hy j).mul (hz i)
  have g := g1.sub g2
  refine ⟨?_, g⟩
  unfold wedge2
  rw [g1.fixed h (by omega), g2.fixed h (by omega), g.fixed h ha]
  rfl

/-- **C148.**  The directors in tests/mito.lib/geometry/cell_directors.cc:14-80, of cells with nodes at the origin and at the ends of the basis
vectors, are exact. -/
theorem directors_test (h : NearestDigits 2 53 fl) {d : Nat} (i : Fin d) :
    director fl (fun _ => 0) (fun j => if j = i then 1 else 0) = fun j => if j = i then (1 : ℚ) else 0 := by
  have := (director_grid h (e := 0) (a := 1) (by norm_num) (p := fun _ : Fin d => 0) (q := fun j => if j = i then 1 else 0)
    (fun _ => ⟨0, by norm_num, by norm_num⟩) (fun j => by
      by_cases hj : j = i
      · exact ⟨1, by norm_num, by simp [hj]⟩
      · exact ⟨0, by norm_num, by simp [hj]⟩)).1
  rw [this]
  funext j
  exact sub_zero _

/-- **C148 (finding).**  The computed directors of a triangle that is not flat can be parallel: the computed volume is then zero. -/
theorem directors_parallel : director rnd ![1 / 2 ^ 60, 0] ![1, 1] = ![1, 1] ∧ director rnd ![1 / 2 ^ 60, 0] ![2, 2] = ![2, 2] ∧
    triangle rnd ![1 / 2 ^ 60, 0] ![1, 1] ![2, 2] = 0 ∧ triangle id (![1 / 2 ^ 60, 0] : Fin 2 → ℚ) ![1, 1] ![2, 2] < 0 := by
  decide +kernel

/-- **C148.**  On grids of up to `2²⁵` steps on each side of the origin, whatever the step, the volumes of triangles are exact. -/
theorem triangle_exact (h : NearestDigits 2 53 fl) {e : ℤ} {p q r : Fin 2 → ℚ} (hp : ∀ i, OnGrid e (2 ^ 25) (p i))
    (hq : ∀ i, OnGrid e (2 ^ 25) (q i)) (hr : ∀ i, OnGrid e (2 ^ 25) (r i)) : triangle fl p q r = triangle id p q r := by
  obtain ⟨e1, g1⟩ := director_grid h (by norm_num) hp hq
  obtain ⟨e2, g2⟩ := director_grid h (by norm_num) hp hr
  obtain ⟨e3, g3⟩ := wedge2_grid h (by norm_num) g1 g2 0 1
  have hh : OnGrid (-1) 1 (1 / 2) := ⟨1, by norm_num, by norm_num⟩
  unfold triangle
  rw [e1, e2, e3, hh.fixed h (by norm_num), (hh.mul g3).fixed h (by norm_num)]
  rfl

/-- **C148.**  On grids of up to `2¹⁵` steps on each side of the origin the volumes of tetrahedra are exact but for the factor `1/6` and the last
product. -/
theorem tetrahedron_grid (h : NearestDigits 2 53 fl) {e : ℤ} {p q r s : Fin 3 → ℚ} (hp : ∀ i, OnGrid e (2 ^ 15) (p i))
    (hq : ∀ i, OnGrid e (2 ^ 15) (q i)) (hr : ∀ i, OnGrid e (2 ^ 15) (r i)) (hs : ∀ i, OnGrid e (2 ^ 15) (s i)) :
    tetrahedron fl p q r s = fl (fl (1 / 6) * (6 * tetrahedron id p q r s)) := by
  obtain ⟨e1, g1⟩ := director_grid h (by norm_num) hp hq
  obtain ⟨e2, g2⟩ := director_grid h (by norm_num) hp hr
  obtain ⟨e3, g3⟩ := director_grid h (by norm_num) hp hs
  obtain ⟨f1, k1⟩ := wedge2_grid h (by norm_num) g2 g3 1 2
  obtain ⟨f2, k2⟩ := wedge2_grid h (by norm_num) g2 g3 2 0
  obtain ⟨f3, k3⟩ := wedge2_grid h (by norm_num) g2 g3 0 1
  have m1 := (g1 0).mul k1
  have m2 := (g1 1).mul k2
  have m3 := (g1 2).mul k3
  unfold tetrahedron wedge3
  rw [e1, e2, e3, f1, f2, f3, m1.fixed h (by norm_num), m2.fixed h (by norm_num), m3.fixed h (by norm_num), (m1.add m2).fixed h (by norm_num),
    ((m1.add m2).add m3).fixed h (by norm_num)]
  congr 2
  simp only [id]
  ring

/-- **C148.**  On such grids the relative error of the volumes of tetrahedra is that of two roundings; in particular flat tetrahedra have the
volume zero and the others one of the right sign. -/
theorem tetrahedron_accurate (h : NearestDigits 2 53 fl) {e : ℤ} {p q r s : Fin 3 → ℚ} (hp : ∀ i, OnGrid e (2 ^ 15) (p i))
    (hq : ∀ i, OnGrid e (2 ^ 15) (q i)) (hr : ∀ i, OnGrid e (2 ^ 15) (r i)) (hs : ∀ i, OnGrid e (2 ^ 15) (s i)) :
    |tetrahedron fl p q r s - tetrahedron id p q r s| ≤ 3 * unit * |tetrahedron id p q r s| := by
  rw [tetrahedron_grid h hp hq hr hs]
  generalize tetrahedron id p q r s = v
  have h1 := fl_error h (1 / 6)
  have h2 := fl_error h (fl (1 / 6) * (6 * v))
  have e1 : fl (1 / 6) * (6 * v) - v = (fl (1 / 6) - 1 / 6) * 6 * v := by ring
  have h3 : |fl (1 / 6) * (6 * v) - v| ≤ unit * |v| := by
    rw [e1, abs_mul, abs_mul]
    have : |fl (1 / 6) - 1 / 6| * |(6 : ℚ)| ≤ unit := by
      rw [abs_of_pos (by norm_num : (0 : ℚ) < 1 / 6)] at h1
      rw [abs_of_pos (by norm_num : (0 : ℚ) < 6)]
      linarith
    exact mul_le_mul_of_nonneg_right this (abs_nonneg v)
  have h4 : |fl (1 / 6) * (6 * v)| ≤ (1 + unit) * |v| := by
    have := abs_add_le (fl (1 / 6) * (6 * v) - v) v
    rw [sub_add_cancel] at this
    linarith
  have h5 : |fl (fl (1 / 6) * (6 * v)) - v| ≤ |fl (fl (1 / 6) * (6 * v)) - fl (1 / 6) * (6 * v)| + |fl (1 / 6) * (6 * v) - v| := by
    have := abs_add_le (fl (fl (1 / 6) * (6 * v)) - fl (1 / 6) * (6 * v)) (fl (1 / 6) * (6 * v) - v)
    rwa [sub_add_sub_cancel] at this
  have h6 : unit * |fl (1 / 6) * (6 * v)| ≤ unit * ((1 + unit) * |v|) := mul_le_mul_of_nonneg_left h4 unit_pos.le
  have h7 : unit * ((1 + unit) * |v|) ≤ 2 * unit * |v| := by
    have : unit * (1 + unit) ≤ 2 * unit := by norm_num [unit]
    calc unit * ((1 + unit) * |v|) = unit * (1 + unit) * |v| := by ring
      _ ≤ 2 * unit * |v| := mul_le_mul_of_nonneg_right this (abs_nonneg v)
  linarith

end Grid

/-- The theorems are not empty: the triangles and tetrahedra of tests/mito.lib/manifolds/triangle_2D.cc:21-58 and
tests/mito.lib/manifolds/tetrahedron_3D.cc:25-34. -/
example : NearestDigits 2 53 rnd ∧ (∀ x, rnd (-x) = -rnd x) ∧ (∀ i, OnGrid 0 (2 ^ 25) ((![1, 0] : Fin 2 → ℚ) i)) ∧ triangle rnd ![0, 0] ![1, 0] ![0, 1] = 1 / 2 ∧
    triangle rnd ![0, 0] ![0, 1] ![1, 0] = -1 / 2 ∧ tetrahedron rnd ![0, 0, 0] ![1, 0, 0] ![0, 1, 0] ![0, 0, 1] = rnd (1 / 6) := by
  refine ⟨rnd_nearest, rnd_odd, fun i => ?_, by decide +kernel, by decide +kernel, by decide +kernel⟩
  fin_cases i
  · exact ⟨1, by norm_num, by norm_num⟩
  · exact ⟨0, by norm_num, by norm_num⟩

end Mito.RoundedVolumes
