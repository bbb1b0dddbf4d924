import Verif.Geometry.RoundedMidpoint
import Verif.Geometry.Coordinates
import Verif.Functions.NearestLemmas
import Verif.Quadrature.DoublesLemmas
import Verif.Mesh.RefineRounded

/-! # C156: differences, sums and midpoints of cartesian coordinates in double arithmetic -/

namespace Mito.RoundedMidpoint

open Functions Quadrature

variable {d : Nat}

/-- C156.  Without rounding these are the operators of cartesian coordinates. -/
theorem rounded_exact (A B v : Fin d → ℝ) : sub id A B = (Geometry.cartesian d).sub A B ∧ add id A v = (Geometry.cartesian d).add A v ∧
    midpoint id A B = (Geometry.cartesian d).midpoint A B := by
  refine ⟨rfl, rfl, ?_⟩
  funext i
  simp only [midpoint, add, sub, Geometry.System.midpoint, Geometry.cartesian, id, Pi.smul_apply, smul_eq_mul]
  norm_num

/-- half of a double is a double -/
theorem half {x : ℝ} (h : IsDouble x) : IsDouble (1 / 2 * x) := by
  obtain ⟨m, e, hm, rfl⟩ := h
  refine ⟨m, e - 1, hm, ?_⟩
  rw [zpow_sub₀ (by norm_num), zpow_one]
  ring

/-- Sterbenz: the difference of doubles that differ by a factor of two at most is a double -/
theorem sterbenz_le {a b : ℝ} (ha : IsDouble a) (hb : IsDouble b) (h0 : 0 < a) (h1 : a ≤ b) (h2 : b ≤ 2 * a) : IsDouble (b - a) := by
  obtain ⟨m, q, hm, hm', rfl⟩ := ha.digits h0
  have hq := two_pos q
  have hk : (2 : ℝ) ^ (q + 52) ≤ |b| := by
    rw [abs_of_pos (h0.trans_le h1), zpow_add₀ (by norm_num), mul_comm]
    refine le_trans (mul_le_mul_of_nonneg_right ?_ hq.le) h1
    exact_mod_cast hm
  obtain ⟨n, hn⟩ := hb.multiple hk
  rw [add_sub_cancel_right] at hn
  refine ⟨n - m, q, ?_, by rw [hn]; push_cast; ring⟩
  rw [hn] at h1 h2
  have e1 : (m : ℝ) ≤ n := le_of_mul_le_mul_right h1 hq
  have e2 : (n : ℝ) ≤ 2 * m := le_of_mul_le_mul_right (by linarith) hq
  have e1' : m ≤ n := by exact_mod_cast e1
  have e2' : n ≤ 2 * m := by exact_mod_cast e2
  rw [abs_of_nonneg (by omega)]
  omega

theorem sterbenz {a b : ℝ} (ha : IsDouble a) (hb : IsDouble b) (h0 : 0 < a) (h1 : a ≤ 2 * b) (h2 : b ≤ 2 * a) : IsDouble (b - a) := by
  rcases le_total a b with h | h
  · exact sterbenz_le ha hb h0 h h2
  · have := (sterbenz_le hb ha (by linarith) h h1).neg
    rwa [neg_sub] at this

section
variable {fl : ℝ → ℝ} (hfl : Nearest fl)
include hfl

theorem fl_le {y b : ℝ} (hb : IsDouble b) (h : y ≤ b) : fl y ≤ b := by
  have := (hfl y).2 b hb
  rw [abs_of_nonneg (sub_nonneg.mpr h)] at this
  linarith [le_abs_self (fl y - y)]

theorem le_fl {y b : ℝ} (hb : IsDouble b) (h : b ≤ y) : b ≤ fl y := by
  have := (hfl y).2 b hb
  rw [abs_sub_comm b y, abs_of_nonneg (sub_nonneg.mpr h)] at this
  linarith [neg_abs_le (fl y - y)]

variable {A B : Fin d → ℝ} (hA : ∀ i, IsDouble (A i)) (hB : ∀ i, IsDouble (B i))
include hA hB

omit hA hB in
theorem midpoint_apply (A B : Fin d → ℝ) (i : Fin d) : midpoint fl A B i = fl (A i + 1 / 2 * fl (B i - A i)) := by
  simp only [midpoint, add, sub]
  rw [hfl.self (half (hfl _).1)]

/-- C156.  In double arithmetic the midpoint lies between the points. -/
theorem midpoint_between (i : Fin d) : min (A i) (B i) ≤ midpoint fl A B i ∧ midpoint fl A B i ≤ max (A i) (B i) := by
  rw [midpoint_apply hfl]
  have hr := Nearest.rounds hfl (B i - A i)
  have hu : 1 / 2 ^ 53 * |B i - A i| ≤ |B i - A i| := by
    have := abs_nonneg (B i - A i)
    nlinarith
  rcases le_total (A i) (B i) with h | h
  · rw [min_eq_left h, max_eq_right h]
    have h0 : 0 ≤ fl (B i - A i) := le_fl hfl .zero (by linarith)
    rw [abs_of_nonneg (sub_nonneg.mpr h)] at hr hu
    have := le_abs_self (fl (B i - A i) - (B i - A i))
    exact ⟨le_fl hfl (hA i) (by linarith), fl_le hfl (hB i) (by linarith)⟩
  · rw [min_eq_right h, max_eq_left h]
    have h0 : fl (B i - A i) ≤ 0 := fl_le hfl .zero (by linarith)
    rw [abs_of_nonpos (sub_nonpos.mpr h)] at hr hu
    have := neg_abs_le (fl (B i - A i) - (B i - A i))
    exact ⟨le_fl hfl (hB i) (by linarith), fl_le hfl (hA i) (by linarith)⟩

/-- C156.  If coordinates differ by a factor of two at most, `A + (B - A)` is `B`, and the midpoint is the double next to the exact one, from either
side. -/
theorem near_points (h0 : ∀ i, 0 < A i) (h1 : ∀ i, A i ≤ 2 * B i) (h2 : ∀ i, B i ≤ 2 * A i) : add fl A (sub fl B A) = B ∧
    (midpoint fl A B = fun i => fl ((A i + B i) / 2)) ∧ midpoint fl A B = midpoint fl B A := by
  have e : ∀ i, fl (B i - A i) = B i - A i := fun i => hfl.self (sterbenz (hA i) (hB i) (h0 i) (h1 i) (h2 i))
  have e' : ∀ i, fl (A i - B i) = A i - B i := fun i =>
    hfl.self (sterbenz (hB i) (hA i) (by linarith [h0 i, h1 i]) (h2 i) (h1 i))
  have m1 : ∀ i, midpoint fl A B i = fl ((A i + B i) / 2) := fun i => by
    rw [midpoint_apply hfl, e]
    congr 1
    ring
  have m2 : ∀ i, midpoint fl B A i = fl ((A i + B i) / 2) := fun i => by
    rw [midpoint_apply hfl, e']
    congr 1
    ring
  refine ⟨?_, funext m1, funext fun i => (m1 i).trans (m2 i).symm⟩
  funext i
  simp only [add, sub, e]
  rw [add_sub_cancel]
  exact hfl.self (hB i)

/-- C156.  The same if one of them is zero. -/
theorem zero_points (i : Fin d) (h : A i = 0 ∨ B i = 0) : add fl A (sub fl B A) i = B i ∧ midpoint fl A B i = (A i + B i) / 2 := by
  rw [midpoint_apply hfl]
  simp only [add, sub]
  rcases h with h | h <;> rw [h]
  · rw [sub_zero, zero_add, zero_add, zero_add, hfl.self (hB i), hfl.self (hB i), hfl.self (half (hB i))]
    exact ⟨rfl, by ring⟩
  · rw [zero_sub, hfl.self (hA i).neg, add_neg_cancel, hfl.self .zero]
    refine ⟨rfl, ?_⟩
    rw [show A i + 1 / 2 * -A i = 1 / 2 * A i by ring, hfl.self (half (hA i))]
    ring

end

/-- C156.  The test of cartesian coordinates, tests/mito.lib/geometry/coordinates.cc:10-18, passes. -/
theorem coordinates_test : add rnd ![0, 2] (sub rnd ![2, 0] ![0, 2]) = ![2, 0] := by decide +kernel

/-- C156.  In general `A + (B - A)` is not `B`, and the midpoint depends on the order of the points. -/
theorem rounded_fails : add rnd ![2 ^ 53] (sub rnd ![1 / 2] ![2 ^ 53]) = ![0] ∧
    add rnd ![rnd (7 / 10)] (sub rnd ![rnd (1 / 10)] ![rnd (7 / 10)]) ≠ ![rnd (1 / 10)] ∧
    midpoint rnd ![rnd (1 / 10)] ![rnd (1 / 2)] ≠ midpoint rnd ![rnd (1 / 2)] ![rnd (1 / 10)] := by decide +kernel

/-- C156.  The computed arithmetic is that of the rounding of IEEE 754. -/
theorem midpoint_in_doubles (A B : Fin d → ℚ) (i : Fin d) :
    midpoint nearest (fun i => (A i : ℝ)) (fun i => (B i : ℝ)) i = (midpoint rnd A B i : ℚ) := by
  simp only [midpoint, add, sub]
  rw [rnd_cast]
  push_cast [rnd_cast]
  rfl

/-- the nodes of two triangles at the edge from (0.1, 0) to (0.5, 0) -/
noncomputable def corners : Fin 4 → Refine.PNode ℝ
  | 0 => ⟨0, fun i => if i = 0 then nearest (1 / 10) else 0⟩
  | 1 => ⟨1, fun i => if i = 0 then nearest (1 / 2) else 0⟩
  | 2 => ⟨2, fun i => if i = 1 then 1 else 0⟩
  | 3 => ⟨3, fun i => if i = 1 then -1 else 0⟩

/-- C156.  So a mesh of two triangles, refined once, has two nodes in the middle of the edge that they share, and they are at different places. -/
theorem refined_apart : ∃ a b, (∃ c ∈ (Refine.tetraWith (Refine.flMidpoint nearest) 1 4 [[corners 0, corners 1, corners 2], [corners 1, corners 0, corners 3]]).2,
      a ∈ c ∧ corners 0 ∈ c) ∧
    (∃ c ∈ (Refine.tetraWith (Refine.flMidpoint nearest) 1 4 [[corners 0, corners 1, corners 2], [corners 1, corners 0, corners 3]]).2,
      b ∈ c ∧ corners 1 ∈ c) ∧
    a = Refine.midnodeWith (Refine.flMidpoint nearest) 4 (corners 0) (corners 1) ∧
    b = Refine.midnodeWith (Refine.flMidpoint nearest) 7 (corners 1) (corners 0) ∧ a.pos 0 ≠ b.pos 0 := by
  refine ⟨_, _, ⟨[corners 0, Refine.midnodeWith (Refine.flMidpoint nearest) 4 (corners 0) (corners 1),
      Refine.midnodeWith (Refine.flMidpoint nearest) 6 (corners 2) (corners 0)], ?_, ?_, ?_⟩,
    ⟨[corners 1, Refine.midnodeWith (Refine.flMidpoint nearest) 7 (corners 1) (corners 0),
      Refine.midnodeWith (Refine.flMidpoint nearest) 9 (corners 3) (corners 1)], ?_, ?_, ?_⟩, rfl, rfl, ?_⟩
  · exact List.mem_of_getElem? (i := 0) rfl
  · simp
  · simp
  · exact List.mem_of_getElem? (i := 4) rfl
  · simp
  · simp
  · have h := rounded_fails.2.2
    intro e
    refine h (funext fun i => ?_)
    obtain rfl : i = 0 := Subsingleton.elim _ _
    have e1 := midpoint_in_doubles ![rnd (1 / 10)] ![rnd (1 / 2)] 0
    have e2 := midpoint_in_doubles ![rnd (1 / 2)] ![rnd (1 / 10)] 0
    have hc : ∀ q : ℚ, nearest q = (rnd q : ℚ) := fun q => (rnd_cast q).symm
    have c1 : nearest (1 / 10) = (rnd (1 / 10) : ℚ) := by simpa using hc (1 / 10)
    have c2 : nearest (1 / 2) = (rnd (1 / 2) : ℚ) := by simpa using hc (1 / 2)
    simp only [Refine.midnodeWith, Refine.flMidpoint, corners, if_true, c1, c2] at e
    simp only [midpoint, add, sub, Matrix.cons_val_zero] at e1 e2
    have := e1.symm.trans (e.trans e2)
    exact_mod_cast this

/-- non-vacuity: two such points -/
example : Nearest nearest ∧ IsDouble 3 ∧ IsDouble 4 ∧ (3 : ℝ) ≤ 2 * 4 ∧ (4 : ℝ) ≤ 2 * 3 :=
  ⟨nearest_nearest, ⟨3, 0, by norm_num, by norm_num⟩, ⟨4, 0, by norm_num, by norm_num⟩, by norm_num, by norm_num⟩

end Mito.RoundedMidpoint
