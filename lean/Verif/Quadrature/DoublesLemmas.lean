import Verif.Quadrature.Doubles
import Verif.Quadrature.Rounded
import Verif.Spec.Rounding
import Verif.Quadrature.RoundedLemmas

/-! # Lemmas on double arithmetic on rational numbers -/

namespace Mito.Quadrature

open Mito.Functions Mito.Geometry

theorem abs_cast_eq (q : ℚ) : |(q : ℝ)| = (q.num.natAbs : ℝ) / q.den := by
  rw [Rat.cast_def, abs_div, Nat.abs_cast]
  congr 1
  rw [← Int.cast_abs, Int.abs_eq_natAbs, Int.cast_natCast]

theorem exponent_eq {q : ℚ} (hq : q ≠ 0) : exponent q = Int.log 2 |(q : ℝ)| := by
  have hpos : 0 < |(q : ℝ)| := abs_pos.mpr (by exact_mod_cast hq)
  have hn : q.num.natAbs ≠ 0 := by simpa using hq
  have hd : q.den ≠ 0 := q.den_nz
  have n1 := Nat.log2_self_le hn
  have n2 := Nat.lt_log2_self (n := q.num.natAbs)
  have d1 := Nat.log2_self_le hd
  have d2 := Nat.lt_log2_self (n := q.den)
  have hdr : (0 : ℝ) < q.den := by exact_mod_cast Nat.pos_of_ne_zero hd
  have key : ∀ e : ℤ, (2 : ℝ) ^ e ≤ |(q : ℝ)| → |(q : ℝ)| < (2 : ℝ) ^ (e + 1) → e = Int.log 2 |(q : ℝ)| := by
    intro e h1 h2
    have l1 := (Int.zpow_le_iff_le_log (b := 2) (by norm_num) hpos (x := e)).mp (by exact_mod_cast h1)
    have l2 := (Int.lt_zpow_iff_log_lt (b := 2) (by norm_num) hpos (x := e + 1)).mp (by exact_mod_cast h2)
    omega
  have e1 : (2 : ℝ) ^ ((q.num.natAbs.log2 : ℤ) - q.den.log2) = 2 ^ q.num.natAbs.log2 / 2 ^ q.den.log2 := by
    rw [zpow_sub₀ (by norm_num), zpow_natCast, zpow_natCast]
  have n1' : (2 : ℝ) ^ q.num.natAbs.log2 ≤ q.num.natAbs := by exact_mod_cast n1
  have n2' : (q.num.natAbs : ℝ) < 2 ^ (q.num.natAbs.log2 + 1) := by exact_mod_cast n2
  have d1' : (2 : ℝ) ^ q.den.log2 ≤ q.den := by exact_mod_cast d1
  have d2' : (q.den : ℝ) < 2 ^ (q.den.log2 + 1) := by exact_mod_cast d2
  have p1 : (0 : ℝ) < 2 ^ q.den.log2 := by positivity
  have p2 : (0 : ℝ) < 2 ^ q.num.natAbs.log2 := by positivity
  unfold exponent
  simp only
  split_ifs with h
  · have h' : (2 : ℝ) ^ q.num.natAbs.log2 * q.den ≤ q.num.natAbs * 2 ^ q.den.log2 := by exact_mod_cast h
    apply key
    · rw [e1, abs_cast_eq, div_le_div_iff₀ p1 hdr]; exact h'
    · rw [zpow_add_one₀ (by norm_num), e1, abs_cast_eq, div_mul_eq_mul_div, div_lt_div_iff₀ hdr p1, ← pow_succ]
      calc (q.num.natAbs : ℝ) * 2 ^ q.den.log2 < 2 ^ (q.num.natAbs.log2 + 1) * 2 ^ q.den.log2 := by
            exact mul_lt_mul_of_pos_right n2' p1
        _ ≤ 2 ^ (q.num.natAbs.log2 + 1) * q.den := mul_le_mul_of_nonneg_left d1' (by positivity)
  · have h' : (q.num.natAbs : ℝ) * 2 ^ q.den.log2 < 2 ^ q.num.natAbs.log2 * q.den := by exact_mod_cast not_le.mp h
    apply key
    · rw [zpow_sub_one₀ (by norm_num), e1, abs_cast_eq, ← div_eq_mul_inv, div_div, ← pow_succ, div_le_div_iff₀ (by positivity) hdr]
      calc (2 : ℝ) ^ q.num.natAbs.log2 * q.den ≤ 2 ^ q.num.natAbs.log2 * 2 ^ (q.den.log2 + 1) :=
            mul_le_mul_of_nonneg_left d2'.le p2.le
        _ ≤ q.num.natAbs * 2 ^ (q.den.log2 + 1) := mul_le_mul_of_nonneg_right n1' (by positivity)
    · rw [sub_add_cancel, e1, abs_cast_eq, div_lt_div_iff₀ hdr p1]; exact h'

theorem twoTo_cast (e : ℤ) : ((twoTo e : ℚ) : ℝ) = 2 ^ e := by
  unfold twoTo
  split_ifs with h
  · push_cast
    rw [← zpow_natCast, Int.toNat_of_nonneg h]
  · push_cast
    rw [one_div, ← zpow_natCast, Int.toNat_of_nonneg (by omega), zpow_neg, inv_inv]

theorem nearestEvenQ_cast (q : ℚ) : nearestEvenQ q = nearestEven (q : ℝ) := by
  have hf : ⌊(q : ℝ)⌋ = q.floor := by rw [Rat.floor_cast]; rfl
  have hr : Int.fract (q : ℝ) = ((q - q.floor : ℚ) : ℝ) := by
    rw [Int.fract, hf]; push_cast; rfl
  unfold nearestEvenQ nearestEven
  rw [hr, hf]
  have c1 : (((q - q.floor : ℚ) : ℝ) < 1 / 2) ↔ (q - q.floor < 1 / 2) := by
    rw [show (1 / 2 : ℝ) = ((1 / 2 : ℚ) : ℝ) by norm_num, Rat.cast_lt]
  have c2 : ((1 / 2 : ℝ) < ((q - q.floor : ℚ) : ℝ)) ↔ (1 / 2 < q - q.floor) := by
    rw [show (1 / 2 : ℝ) = ((1 / 2 : ℚ) : ℝ) by norm_num, Rat.cast_lt]
  simp only [c1, c2, Int.even_iff]

/-- rounding of rational numbers is rounding -/
theorem rnd_cast (q : ℚ) : ((rnd q : ℚ) : ℝ) = nearest q := by
  unfold rnd nearest
  by_cases hq : q = 0
  · subst hq
    simp [nearestEven]
  · rw [if_neg hq]
    push_cast
    rw [twoTo_cast, ← exponent_eq hq, nearestEvenQ_cast]
    push_cast
    rw [twoTo_cast]

/-- a triangle with rational nodes -/
noncomputable def QTriangle.cell (c : QTriangle) (key : Nat) : Cell 1 2 := ⟨key, fun i j => (c i j : ℝ)⟩

theorem qArea_cast (c : QTriangle) (k : Nat) : ((qArea c : ℚ) : ℝ) = flArea nearest (c.cell k) := by
  simp only [qArea, flArea, QTriangle.cell, rnd_cast]
  push_cast
  simp only [rnd_cast]
  push_cast
  simp only [rnd_cast]
  push_cast
  simp only [rnd_cast]
  push_cast
  rfl

/-- rational numbers as real numbers -/
noncomputable def realPoint {d : Nat} (x : Fin d → ℚ) : Fin d → ℝ := fun i => (x i : ℝ)

theorem qPoint_cast (c : QTriangle) (k : Nat) (ξ : Fin 2 → ℚ) : realPoint (qPoint c ξ) = flPoint nearest (c.cell k) (realPoint ξ) := by
  funext i
  simp only [qPoint, flPoint, QTriangle.cell, realPoint, rnd_cast]
  push_cast
  simp only [rnd_cast]
  push_cast
  simp only [rnd_cast]
  push_cast
  simp only [rnd_cast]
  push_cast
  simp only [rnd_cast]
  push_cast
  rfl

theorem qAddCell_cast {f : Val (.vec 2) → ℝ} {g : (Fin 2 → ℚ) → ℚ} (hfg : ∀ x, f (realPoint x) = (g x : ℝ)) (pts : List (Fin 2 → ℚ)) (ws : List ℚ)
    (r : ℚ) (c : QTriangle) (k : Nat) : ((qAddCell g pts ws r c : ℚ) : ℝ) =
      flAddCell nearest f (flArea nearest (c.cell k)) ((pts.map realPoint).map (flPoint nearest (c.cell k))) (ws.map fun w : ℚ => (w : ℝ)) r := by
  unfold qAddCell flAddCell
  have e : ((pts.map realPoint).map (flPoint nearest (c.cell k))).zip (ws.map fun w : ℚ => (w : ℝ)) =
      (pts.zip ws).map fun p => (flPoint nearest (c.cell k) (realPoint p.1), (p.2 : ℝ)) := by
    rw [List.map_map, List.zip_map]; rfl
  rw [e]
  generalize pts.zip ws = l
  induction l generalizing r with
  | nil => rfl
  | cons p l ih =>
    simp only [List.foldl_cons, List.map_cons]
    rw [ih]
    congr 1
    rw [rnd_cast, Rat.cast_add, rnd_cast, Rat.cast_mul, rnd_cast, Rat.cast_mul, ← hfg, qPoint_cast c k, qArea_cast c k]

theorem qLoop_cast {f : Val (.vec 2) → ℝ} {g : (Fin 2 → ℚ) → ℚ} (hfg : ∀ x, f (realPoint x) = (g x : ℝ)) (t : Table 2) (pts : List (Fin 2 → ℚ))
    {field : DiscreteField.Field Nat (List (Val (.vec 2)))} (cells : List (QTriangle × Nat))
    (hread : ∀ p ∈ cells, DiscreteField.read field p.2 = some ((pts.map realPoint).map (flPoint nearest (p.1.cell p.2)))) (r : ℚ) :
    flIntegrateLoop nearest field t (flArea nearest) f (cells.map fun p => p.1.cell p.2) r =
      .value ((cells.map Prod.fst).foldl (qAddCell g pts (storedWeights t)) r : ℚ) := by
  induction cells generalizing r with
  | nil => rfl
  | cons p l ih =>
    have h0 := hread p (by simp)
    simp only [List.map_cons, flIntegrateLoop, List.foldl_cons]
    have : (p.1.cell p.2).key = p.2 := rfl
    rw [this, h0]
    simp only
    have hw : (t.rule.map fun p => nearest p.2) = (storedWeights t).map fun w : ℚ => (w : ℝ) := by
      simp [Table.rule, storedWeights, rnd_cast, Function.comp_def]
    rw [hw, ← qAddCell_cast hfg pts (storedWeights t) r p.1 p.2]
    exact ih (fun q hq => hread q (by simp [hq])) _

/-- the points of the rules for triangles as they are stored -/
theorem stored_points_cast :
    (storedPoints triangle1).map realPoint = flTriangle1 nearest ∧ (storedPoints triangle2).map realPoint = flTriangle2 nearest ∧
    storedTriangle3.map realPoint = flTriangle3 nearest ∧ (storedPoints triangle4).map realPoint = flTriangle4 nearest := by
  refine ⟨?_, ?_, ?_, ?_⟩
  · simp only [storedPoints, triangle1, flTriangle1, List.map_cons, List.map_nil, List.cons.injEq, and_true]
    funext i
    fin_cases i <;> simp [realPoint, rnd_cast] <;> norm_num
  · simp only [storedPoints, triangle2, flTriangle2, List.map_cons, List.map_nil, List.cons.injEq, and_true]
    refine ⟨?_, ?_, ?_⟩ <;> funext i <;> fin_cases i <;> simp [realPoint, rnd_cast] <;> norm_num
  · simp only [storedTriangle3, flTriangle3, List.map_cons, List.map_nil, List.cons.injEq, and_true]
    refine ⟨?_, ?_, ?_, ?_, ?_, ?_⟩ <;> funext i <;> fin_cases i <;> simp [realPoint, rnd_cast]
  · simp only [storedPoints, triangle4, flTriangle4, List.map_cons, List.map_nil, List.cons.injEq, and_true]
    refine ⟨?_, ?_, ?_, ?_, ?_, ?_⟩ <;> funext i <;> fin_cases i <;> simp [realPoint, rnd_cast]

end Mito.Quadrature
