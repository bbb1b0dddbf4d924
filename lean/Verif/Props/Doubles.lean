import Verif.Quadrature.DoublesLemmas
import Verif.Props.Rounding
import Verif.Props.Quadrature

/-!
# C122: the checks of quadrature rules at compile time, in double arithmetic

`QuadratureRule` asks the compiler whether the weights add up to `1.0`, exactly.  In exact arithmetic they do not; in double arithmetic they do.
-/

namespace Mito.Quadrature

open Mito.Functions Mito.Geometry

/-- The arithmetic on rational numbers is the rounding of C95, and rounds with a relative error of at most `2⁻⁵³`. -/
theorem rnd_rounds (q : ℚ) : ((rnd q : ℚ) : ℝ) = nearest q ∧ |rnd q - q| ≤ 1 / 2 ^ 53 * |q| := by
  refine ⟨rnd_cast q, ?_⟩
  have h := nearest_rounds (q : ℝ)
  rw [← rnd_cast] at h
  have e : ((|rnd q - q| : ℚ) : ℝ) ≤ ((1 / 2 ^ 53 * |q| : ℚ) : ℝ) := by
    push_cast
    calc |(rnd q : ℝ) - q| ≤ 2 ^ (-53 : ℤ) * |(q : ℝ)| := h
      _ = 1 / 2 ^ 53 * |(q : ℝ)| := by rw [zpow_neg, one_div]; norm_cast
  exact_mod_cast e

/-- The weights of all rules pass the check: the library compiles. -/
theorem weights_checked :
    checkWeights (storedWeights segment1) ∧ checkWeights (storedWeights segment2) ∧ checkWeights (storedWeights triangle1) ∧
    checkWeights (storedWeights triangle2) ∧ checkWeights (storedWeights triangle3) ∧ checkWeights (storedWeights triangle4) ∧
    checkWeights (storedWeights tetrahedron1) ∧ checkWeights (storedWeights tetrahedron2) := by
  decide +kernel

/-- Two of them by rounding only: neither the weights that are written in the tables nor those that are stored add up to one. -/
theorem checked_by_rounding :
    (triangle3.map Prod.snd).sum ≠ 1 ∧ (triangle4.map Prod.snd).sum ≠ 1 ∧ (storedWeights triangle2).sum ≠ 1 ∧
    (storedWeights triangle3).sum ≠ 1 ∧ (storedWeights triangle4).sum ≠ 1 := by
  decide +kernel

/-- The check depends on the order of the rows of a table: with its rows in another order the rule of degree three would not
compile. -/
theorem check_depends_on_order :
    ∃ ws : List ℚ, ws.Perm (storedWeights triangle3) ∧ checkWeights ws = false ∧ weightsSum ws = 1 - 1 / 2 ^ 53 := by
  let w1 : ℚ := rnd 0.28114980244097964825351432270207695
  let w2 : ℚ := rnd 0.05218353089235368507981901063125638
  refine ⟨[w2, w2, w1, w2, w1, w1], ?_, by decide +kernel, by decide +kernel⟩
  show [w2, w2, w1, w2, w1, w1].Perm [w1, w1, w1, w2, w2, w2]
  rw [List.perm_iff_count]
  intro a
  simp only [List.count_cons, List.count_nil]
  omega

theorem foldl_error (ws : List ℚ) (s : ℚ) :
    |ws.foldl (fun s w => rnd (w + s)) s - (s + ws.sum)| ≤ ((1 + 1 / 2 ^ 53) ^ ws.length - 1) * (|s| + (ws.map abs).sum) := by
  induction ws generalizing s with
  | nil => simp
  | cons w ws ih =>
    simp only [List.foldl_cons, List.sum_cons, List.length_cons, List.map_cons]
    have h1 := (rnd_rounds (w + s)).2
    have h2 := ih (rnd (w + s))
    have h3 : |w + s| ≤ |w| + |s| := abs_add_le w s
    have h4 : |rnd (w + s)| ≤ |rnd (w + s) - (w + s)| + |w + s| := by
      have := abs_add_le (rnd (w + s) - (w + s)) (w + s)
      rwa [sub_add_cancel] at this
    set u : ℚ := 1 / 2 ^ 53
    have hu : 0 ≤ u := by positivity
    have hp : 1 ≤ (1 + u) ^ ws.length := one_le_pow₀ (by linarith)
    set P := (1 + u) ^ ws.length
    have hB : 0 ≤ (ws.map abs).sum := List.sum_nonneg (by simp only [List.mem_map]; rintro x ⟨y, _, rfl⟩; exact abs_nonneg y)
    set B := (ws.map abs).sum
    have h5 : |ws.foldl (fun s w => rnd (w + s)) (rnd (w + s)) - (s + (w + ws.sum))| ≤
        |ws.foldl (fun s w => rnd (w + s)) (rnd (w + s)) - (rnd (w + s) + ws.sum)| + |rnd (w + s) - (w + s)| := by
      have := abs_add_le (ws.foldl (fun s w => rnd (w + s)) (rnd (w + s)) - (rnd (w + s) + ws.sum)) (rnd (w + s) - (w + s))
      refine le_trans (le_of_eq ?_) this
      congr 1
      ring
    have hA : |rnd (w + s) - (w + s)| ≤ u * (|w| + |s|) := h1.trans (mul_le_mul_of_nonneg_left h3 hu)
    have hr : |rnd (w + s)| ≤ (1 + u) * (|w| + |s|) := by linarith
    have h6 := mul_le_mul_of_nonneg_left (add_le_add_left hr B) (show 0 ≤ P - 1 by linarith)
    have h7 : (1 + u) ^ (ws.length + 1) = P * (1 + u) := pow_succ _ _
    rw [h7]
    have h8 := mul_nonneg (mul_nonneg (show 0 ≤ P by linarith) hu) hB
    nlinarith

/-- What the check guarantees for any table: weights that pass it add up to one up to the rounding errors of the sum. -/
theorem check_is_sound (ws : List ℚ) (h : checkWeights ws = true) :
    |ws.sum - 1| ≤ ((1 + 1 / 2 ^ 53) ^ ws.length - 1) * (ws.map abs).sum := by
  have he := foldl_error ws 0
  have h1 : ws.foldl (fun s w => rnd (w + s)) 0 = 1 := by simpa [checkWeights, weightsSum] using h
  rw [h1] at he
  simpa [abs_sub_comm] using he

/-- The eight tests of the rules on the parametric simplices, which the compiler runs too, pass. -/
theorem parametric_tests_pass : ∀ b ∈ parametricSegment ++ parametricTriangle ++ parametricTetrahedron, b = true := by
  decide +kernel

/-- Integration over triangles in double arithmetic can be computed: `flIntegrate` of C95 with rounding to the nearest is `qIntegrate`. -/
theorem integrate_in_doubles (debug : Bool) {f : Val (.vec 2) → ℝ} {g : (Fin 2 → ℚ) → ℚ} (hfg : ∀ x, f (realPoint x) = (g x : ℝ)) (t : Table 2)
    (pts : List (Fin 2 → ℚ)) (cells : List (QTriangle × Nat)) (hk : (cells.map Prod.snd).Nodup) :
    flIntegrate nearest debug t (flArea nearest) (fun c => (pts.map realPoint).map (flPoint nearest c)) (cells.map fun p => p.1.cell p.2) f =
      .value (qIntegrate g pts (storedWeights t) (cells.map Prod.fst) : ℚ) := by
  have hk' : ((cells.map fun p => p.1.cell p.2).map Cell.key).Nodup := by
    rw [List.map_map]
    exact hk
  obtain ⟨field, hf, hr⟩ := field_read debug (fun c => (pts.map realPoint).map (flPoint nearest c)) _ hk'
  rw [flIntegrate, hf]
  simp only
  have := qLoop_cast hfg t pts (field := field) cells (fun p hp => hr _ (List.mem_map.mpr ⟨p, hp, rfl⟩)) 0
  rw [Rat.cast_zero] at this
  exact this

/-- The cells of the test of integration over a square, with their numbers -/
def squareMesh : List (QTriangle × Nat) := squareCells.zipIdx

/-- The test of integration over a square passes in double arithmetic; the integrals of `1`, `x` and `x²` are the nearest numbers to the exact ones,
and that of `x y` is one step below `0.25`. -/
theorem square_test_passes (debug : Bool) : (∀ b ∈ squareTest, b = true) ∧
    flIntegrate nearest debug triangle2 (flArea nearest) (fun c => (flTriangle2 nearest).map (flPoint nearest c)) (squareMesh.map fun p => p.1.cell p.2)
      (fun _ => 1) = .value 1 ∧
    flIntegrate nearest debug triangle2 (flArea nearest) (fun c => (flTriangle2 nearest).map (flPoint nearest c)) (squareMesh.map fun p => p.1.cell p.2)
      (fun x => x 0) = .value (1 / 2) ∧
    flIntegrate nearest debug triangle2 (flArea nearest) (fun c => (flTriangle2 nearest).map (flPoint nearest c)) (squareMesh.map fun p => p.1.cell p.2)
      (fun x => nearest (x 0 * x 1)) = .value (1 / 4 - 1 / 2 ^ 55) ∧
    flIntegrate nearest debug triangle2 (flArea nearest) (fun c => (flTriangle2 nearest).map (flPoint nearest c)) (squareMesh.map fun p => p.1.cell p.2)
      (fun x => nearest (x 0 * x 0)) = .value (nearest (1 / 3)) := by
  have hk : (squareMesh.map Prod.snd).Nodup := by decide
  rw [← stored_points_cast.2.1]
  refine ⟨by decide +kernel, ?_, ?_, ?_, ?_⟩
  · rw [integrate_in_doubles debug (g := fun _ => 1) (fun x => by simp) triangle2 (storedPoints triangle2) squareMesh hk]
    have : qIntegrate (fun _ => 1) (storedPoints triangle2) (storedWeights triangle2) (squareMesh.map Prod.fst) = 1 := by decide +kernel
    rw [this]; norm_num
  · rw [integrate_in_doubles debug (g := fun x => x 0) (fun x => rfl) triangle2 (storedPoints triangle2) squareMesh hk]
    have : qIntegrate (fun x => x 0) (storedPoints triangle2) (storedWeights triangle2) (squareMesh.map Prod.fst) = 1 / 2 := by decide +kernel
    rw [this]; norm_num
  · rw [integrate_in_doubles debug (g := fun x => rnd (x 0 * x 1)) (fun x => by rw [rnd_cast]; simp [realPoint]) triangle2 (storedPoints triangle2)
      squareMesh hk]
    have : qIntegrate (fun x => rnd (x 0 * x 1)) (storedPoints triangle2) (storedWeights triangle2) (squareMesh.map Prod.fst) = 1 / 4 - 1 / 2 ^ 55 := by
      decide +kernel
    rw [this]; norm_num
  · rw [integrate_in_doubles debug (g := fun x => rnd (x 0 * x 0)) (fun x => by rw [rnd_cast]; simp [realPoint]) triangle2 (storedPoints triangle2)
      squareMesh hk]
    have : qIntegrate (fun x => rnd (x 0 * x 0)) (storedPoints triangle2) (storedWeights triangle2) (squareMesh.map Prod.fst) = rnd (1 / 3) := by
      decide +kernel
    rw [this, rnd_cast]; norm_num

/-! ### examples -/

/-- numbers with 53 binary digits are not changed, others are; ties go to the even one -/
example : rnd (1 / 3) = 6004799503160661 / 2 ^ 54 ∧ rnd (1 / 2 + 1 / 2 ^ 53) = 1 / 2 + 1 / 2 ^ 53 ∧ rnd (2 ^ 53 + 1) = 2 ^ 53 ∧ rnd (2 ^ 53 + 3) = 2 ^ 53 + 4 ∧
    rnd (-1 / 3) = -rnd (1 / 3) ∧ rnd 0 = 0 := by
  decide +kernel

/-- a rule whose weights are wrong in the sixteenth digit does not compile -/
example : checkWeights [rnd (3333333333333337 / 10 ^ 16), rnd (1 / 3), rnd (1 / 3)] = false ∧ checkWeights [rnd (1 / 2), rnd (1 / 3)] = false := by
  decide +kernel

/-- the bound of `check_is_sound` for six weights is below `10⁻¹⁵` -/
example : ((1 + 1 / 2 ^ 53 : ℚ) ^ 6 - 1) * ((storedWeights triangle3).map abs).sum ≤ 1e-15 := by
  decide +kernel

/-- a test with the wrong power fails -/
example : near (rnd (rnd (1 / 2) * weightedSum (power · 3) (firsts (storedPoints triangle2) (storedWeights triangle2)))) (rnd (1 / 20)) = false := by
  decide +kernel

/-- The comparisons of the tests at the bounds: the difference must be less than the tolerance, and four steps are equal while five are not. -/
theorem comparisons : near (rnd (1 / 10 ^ 16)) 0 = false ∧ near 0 (rnd (1 / 10 ^ 16)) = false ∧ near (rnd (9 / 10 ^ 17)) 0 = true ∧
    doubleEq 1 (1 + 4 / 2 ^ 52) = true ∧ doubleEq 1 (1 + 5 / 2 ^ 52) = false ∧
    doubleEq (1 + 4 / 2 ^ 52) 1 = true ∧ doubleEq (1 + 5 / 2 ^ 52) 1 = false ∧
    place (1 / 2 ^ 1022) = 2 ^ 52 ∧ place 0 = 0 ∧ place 1 = 1023 * 2 ^ 52 ∧ weightedSum id [] = 0 ∧
    firsts [(![1, 2] : Fin 2 → ℚ)] [3] = [(1, 3)] := by decide +kernel

end Mito.Quadrature
