import Verif.Mesh.RefineRoundedLemmas
import Verif.Quadrature.RoundedLemmas

/-! # C95: rounding errors of refinement and integration -/

namespace Mito

/-! ## Rounding to the nearest number -/

theorem nearestEven_error (x : ℝ) : |(nearestEven x : ℝ) - x| ≤ 1 / 2 := by
  have h := Int.floor_add_fract x
  have h0 := Int.fract_nonneg x
  have h1 := Int.fract_lt_one x
  rw [nearestEven, abs_le]
  split_ifs <;> push_cast <;> constructor <;> linarith

/-- `double` rounds with a relative error of at most `2⁻⁵³` -/
theorem nearest_rounds : Rounds (2 ^ (-53 : ℤ)) nearest := by
  intro x
  rw [nearest]
  set s : ℝ := 2 ^ (Int.log 2 |x| - 52) with hs
  have hs0 : 0 < s := by positivity
  have h := nearestEven_error (x / s)
  have e : s * (nearestEven (x / s) : ℝ) - x = s * ((nearestEven (x / s) : ℝ) - x / s) := by
    rw [mul_sub, mul_div_cancel₀ _ hs0.ne']
  rw [e, abs_mul, abs_of_pos hs0]
  rcases eq_or_ne x 0 with rfl | hx
  · simp [nearestEven]
  · have h2 := Int.zpow_log_le_self (b := 2) (by norm_num) (abs_pos.mpr hx)
    push_cast at h2
    have h3 : s * (1 / 2) = 2 ^ (-53 : ℤ) * 2 ^ Int.log 2 |x| := by
      rw [hs, ← zpow_add₀ (by norm_num : (2 : ℝ) ≠ 0), show (1 / 2 : ℝ) = 2 ^ (-1 : ℤ) by norm_num, ← zpow_add₀ (by norm_num : (2 : ℝ) ≠ 0)]
      congr 1
      ring
    calc s * |(nearestEven (x / s) : ℝ) - x / s| ≤ s * (1 / 2) := mul_le_mul_of_nonneg_left h hs0.le
      _ = 2 ^ (-53 : ℤ) * 2 ^ Int.log 2 |x| := h3
      _ ≤ 2 ^ (-53 : ℤ) * |x| := mul_le_mul_of_nonneg_left h2 (by positivity)

/-! ## Refinement -/

namespace Refine

/-- the functions with a parameter are those of `Verif/Mesh/Refine.lean` -/
theorem tetraWith_midpoint (n k : Nat) (cells : List (List (PNode ℝ))) : tetraWith midpoint n k cells = tetra n k cells := by
  cases n with
  | zero => rfl
  | succ n =>
    have : subdivideCellWith midpoint n = subdivideCell n := by
      funext k c
      unfold subdivideCellWith subdivideCell
      split
      · exact subdivideSegmentWith_midpoint ..
      · exact subdivideTriangleWith_midpoint ..
      · exact subdivideTetrahedronWith_midpoint ..
      · rename_i h1 h2 h3
        split
        · exact absurd rfl (h1 _ _)
        · exact absurd rfl (h2 _ _ _)
        · exact absurd rfl (h3 _ _ _ _)
        · rfl
    rw [tetraWith, this]
    rfl

/-- After `n` refinements with rounding the cells have the nodes that they should have, and the coordinates of the nodes have an error of about
`4 n u` times the largest coordinate of the coarse mesh. -/
theorem refine_rounded {u R : ℝ} {fl : ℝ → ℝ} (hfl : Rounds u fl) (hu : 0 ≤ u) (n k : Nat) (cells : List (List (PNode ℝ)))
    (hR : ∀ c ∈ cells, ∀ a ∈ c, ∀ i, |a.pos i| ≤ R) :
    (tetraWith (flMidpoint fl) n k cells).1 = (tetra n k cells).1 ∧
      List.Forall₂ (List.Forall₂ (Close (R * ((1 + u) ^ (4 * n) - 1)))) (tetra n k cells).2 (tetraWith (flMidpoint fl) n k cells).2 := by
  have key : NearCells R ((1 + u) ^ (4 * n)) (tetra n k cells) (tetraWith (flMidpoint fl) n k cells) := by
    have h0 : List.Forall₂ (List.Forall₂ (Near R 1)) cells cells := by
      rw [List.forall₂_same]
      intro c hc
      rw [List.forall₂_same]
      exact fun a ha => ⟨rfl, fun i => (Within.exact _).weaken (hR c hc a ha i)⟩
    cases n with
    | zero => exact ⟨rfl, by rw [Nat.mul_zero, pow_zero]; exact h0⟩
    | succ n =>
      rw [← one_mul ((1 + u) ^ (4 * (n + 1)))]
      exact each_near (rel := List.Forall₂ (Near R 1)) (fun k c c' hc => cell_near hfl hu n k hc) h0 k
  refine ⟨key.1, key.2.imp fun c c' hc => hc.imp fun a a' ha => ⟨ha.1, fun i => ?_⟩⟩
  rw [mul_comm]
  exact (ha.2 i).error

/-- a segment of length one, refined ten times -/
example : List.Forall₂ (List.Forall₂ (Close 1e-14)) (tetra 10 2 [[⟨0, fun _ => 0⟩, ⟨1, fun _ => 1⟩]]).2
    (tetraWith (flMidpoint nearest) 10 2 [[⟨0, fun _ => 0⟩, ⟨1, fun _ => 1⟩]]).2 := by
  refine (refine_rounded (R := 1) nearest_rounds (by positivity) 10 2 _ ?_).2.imp fun c c' h => h.imp fun a a' h => ⟨h.1, fun i => (h.2 i).trans ?_⟩
  · intro c hc a ha i
    simp only [List.mem_singleton] at hc
    subst hc
    simp only [List.mem_cons, List.not_mem_nil, or_false] at ha
    rcases ha with rfl | rfl <;> simp
  · norm_num

/-- the midpoints of an edge that two neighbours compute, each from its own end, are different -/
theorem midpoint_asymmetric : flMidpoint nearest (fun _ => -1) (fun _ => 2 ^ 53) 0 = 2 ^ 52 - 1 ∧
    flMidpoint nearest (fun _ => 2 ^ 53) (fun _ => -1) 0 = 2 ^ 52 := by
  have lg {x : ℝ} {k : ℕ} (h : (2 : ℝ) ^ k ≤ x) (h' : x < 2 ^ (k + 1)) : Int.log 2 |x| = k := by
    have h0 : 0 < x := lt_of_lt_of_le (by positivity) h
    rw [abs_of_pos h0]
    refine le_antisymm ?_ ?_
    · have : Int.log 2 x < (k : ℤ) + 1 := by
        rw [Int.lt_zpow_iff_log_lt (by norm_num) h0 |>.symm]
        push_cast
        exact_mod_cast h'
      omega
    · rw [← Int.zpow_le_iff_le_log (by norm_num) h0]
      push_cast
      exact_mod_cast h
  have int (z : ℤ) : nearestEven z = z := by simp [nearestEven]
  have n1 : nearest (2 ^ 53 + 1) = 2 ^ 53 := by
    rw [nearest, lg (k := 53) (by norm_num) (by norm_num)]
    have hf : ⌊((2 : ℝ) ^ 53 + 1) / 2 ^ (((53 : ℕ) : ℤ) - 52)⌋ = 2 ^ 52 := by
      rw [Int.floor_eq_iff]
      norm_num
    have hfr : Int.fract (((2 : ℝ) ^ 53 + 1) / 2 ^ (((53 : ℕ) : ℤ) - 52)) = 1 / 2 := by
      rw [Int.fract, hf]
      norm_num
    rw [nearestEven, hf, hfr]
    norm_num
    decide
  have n2 : nearest (2 ^ 52) = 2 ^ 52 := by
    rw [nearest, lg (k := 52) (by norm_num) (by norm_num)]
    have : (2 : ℝ) ^ 52 / 2 ^ (((52 : ℕ) : ℤ) - 52) = ((2 ^ 52 : ℤ) : ℝ) := by norm_num
    rw [this, int]
    norm_num
  have n3 : nearest (2 ^ 52 - 1) = 2 ^ 52 - 1 := by
    rw [nearest, lg (k := 51) (by norm_num) (by norm_num)]
    have : ((2 : ℝ) ^ 52 - 1) / 2 ^ (((51 : ℕ) : ℤ) - 52) = (((2 ^ 52 - 1) * 2 : ℤ) : ℝ) := by norm_num
    rw [this, int]
    norm_num
  have n4 : nearest (-(2 ^ 53 + 1)) = -2 ^ 53 := by
    rw [nearest, abs_neg, lg (k := 53) (by norm_num) (by norm_num)]
    have hf : ⌊-((2 : ℝ) ^ 53 + 1) / 2 ^ (((53 : ℕ) : ℤ) - 52)⌋ = -2 ^ 52 - 1 := by
      rw [Int.floor_eq_iff]
      norm_num
    have hfr : Int.fract (-((2 : ℝ) ^ 53 + 1) / 2 ^ (((53 : ℕ) : ℤ) - 52)) = 1 / 2 := by
      rw [Int.fract, hf]
      norm_num
    rw [nearestEven, hf, hfr]
    norm_num
    decide
  have n5 : nearest (-2 ^ 52) = -2 ^ 52 := by
    rw [nearest, abs_neg, lg (k := 52) (by norm_num) (by norm_num)]
    have : -(2 : ℝ) ^ 52 / 2 ^ (((52 : ℕ) : ℤ) - 52) = ((-2 ^ 52 : ℤ) : ℝ) := by norm_num
    rw [this, int]
    norm_num
  constructor
  · show nearest (-1 + nearest (1 / 2 * nearest (2 ^ 53 - -1))) = _
    rw [show (2 : ℝ) ^ 53 - -1 = 2 ^ 53 + 1 by ring, n1, show (1 : ℝ) / 2 * 2 ^ 53 = 2 ^ 52 by norm_num, n2,
      show (-1 : ℝ) + 2 ^ 52 = 2 ^ 52 - 1 by ring, n3]
  · show nearest (2 ^ 53 + nearest (1 / 2 * nearest (-1 - 2 ^ 53))) = _
    rw [show (-1 : ℝ) - 2 ^ 53 = -(2 ^ 53 + 1) by ring, n4, show (1 : ℝ) / 2 * -2 ^ 53 = -2 ^ 52 by norm_num, n5,
      show (2 : ℝ) ^ 53 + -2 ^ 52 = 2 ^ 52 by norm_num, n2]

end Refine

/-! ## Integration -/

namespace Quadrature

open Functions Geometry

variable {n d : Nat} {u v : ℝ} {fl : ℝ → ℝ}

/-- The integral computed with rounding: `u` is the relative error of an operation, `v` that of the volumes of the cells, and `φ` the error of the values of
the function at the quadrature points.  Each addition to the result adds an error, and there is one for each quadrature point of each cell. -/
theorem integrate_rounded (hfl : Rounds u fl) (hu : 0 ≤ u) (hv : 0 ≤ v) (debug : Bool) (t : Table (n + 1)) (volume' volume : Cell n d → ℝ)
    (points : Cell n d → List (Val (.vec d))) (cells : List (Cell n d)) (f' f : Val (.vec d) → ℝ) {φ : ℝ}
    (hkeys : (cells.map Cell.key).Nodup) (hvol : ∀ c ∈ cells, |volume' c - volume c| ≤ v * |volume c|)
    (hl : ∀ c ∈ cells, (points c).length = t.length)
    (hφ : ∀ c ∈ cells, ∀ p ∈ (points c).zip t.rule, |f' p.1 - f ((parametrization c.nodes).eval p.2.1)| ≤ φ) :
    ∃ r, flIntegrate fl debug t volume' points cells f' = .value r ∧
      |r - quadratureSum t volume cells f| ≤
        ((1 + u) ^ (cells.length * t.length + 3) * (1 + v) - 1) * magnitude t volume cells f +
          (1 + u) ^ (cells.length * t.length + 3) * (1 + v) * φ * magnitude t volume cells (fun _ => 1) := by
  obtain ⟨field, hf, hr⟩ := field_read debug points cells hkeys
  have hV (c) (hc : c ∈ cells) : Within (1 + v) (volume' c) (volume c) |volume c| := ⟨by linarith, by simpa using hvol c hc, le_refl _⟩
  have h1 : (1 : ℝ) ≤ (1 + u) ^ 3 * (1 + v) := by
    have : (1 : ℝ) ≤ (1 + u) ^ 3 := one_le_pow₀ (by linarith)
    nlinarith
  have h0 : Within ((1 + u) ^ 3 * (1 + v)) 0 0 0 := ⟨h1, by simp, by simp⟩
  obtain ⟨r, hr, hw⟩ := loop_within (v := v) hfl hu t volume' volume f' points cells hr hl hV (le_refl _) h0
  refine ⟨r, by rw [flIntegrate, hf]; exact hr, ?_⟩
  have eG : (1 + u) ^ 3 * (1 + v) * (1 + u) ^ (cells.length * t.length) = (1 + u) ^ (cells.length * t.length + 3) * (1 + v) := by ring
  rw [eG, zero_add, zero_add] at hw
  set G := (1 + u) ^ (cells.length * t.length + 3) * (1 + v)
  have hG := hw.one_le
  have key := sums_error t volume points cells f' f hl hφ
  have h2 := hw.error
  have h3 : |r - quadratureSum t volume cells f| ≤ |r - (cells.map fun c => cellSum f' (points c) t.rule * volume c).sum| +
      |(cells.map fun c => cellSum f' (points c) t.rule * volume c).sum - quadratureSum t volume cells f| := abs_sub_le _ _ _
  have h4 := mul_le_mul_of_nonneg_left key.2 (show 0 ≤ G - 1 by linarith)
  have h5 := key.1
  nlinarith

/-- Integration on triangles with all its roundings: those of the tables, of the quadrature points, of the areas and of the sum.  `κ` bounds the cancellation in
the area of a triangle, which grows as the triangle becomes flat, and `δ` the error of the function itself. -/
theorem triangles_rounded (hfl : Rounds u fl) (hu : 0 ≤ u) (debug : Bool) {t : Table 2} {pts : List (Fin 2 → ℝ)} (ht : (t, pts) ∈ triangleRules fl)
    (cells : List (Cell 1 2)) (f' f : Val (.vec 2) → ℝ) {R κ L δ F : ℝ} (hR0 : 0 ≤ R) (hκ0 : 0 ≤ κ) (hL0 : 0 ≤ L)
    (hkeys : (cells.map Cell.key).Nodup) (hR : ∀ c ∈ cells, ∀ a i, |c.nodes a i| ≤ R)
    (hκ : ∀ c ∈ cells, 1 / 2 * (|c.nodes 1 0 - c.nodes 0 0| * |c.nodes 2 1 - c.nodes 0 1| +
      |c.nodes 1 1 - c.nodes 0 1| * |c.nodes 2 0 - c.nodes 0 0|) ≤ κ * |c.volume|)
    (hL : ∀ x y η, (∀ i, |x i - y i| ≤ η) → |f x - f y| ≤ L * η) (hδ : ∀ x, |f' x - f x| ≤ δ)
    (hF : ∀ c ∈ cells, ∀ p ∈ t.rule, |f ((parametrization c.nodes).eval p.1)| ≤ F) :
    ∃ r, flIntegrate fl debug t (flArea fl) (fun c => pts.map (flPoint fl c)) cells f' = .value r ∧
      |r - quadratureSum t Cell.volume cells f| ≤
        (((1 + u) ^ (cells.length * t.length + 3) * (1 + κ * ((1 + u) ^ 5 - 1)) - 1) * F +
          (1 + u) ^ (cells.length * t.length + 3) * (1 + κ * ((1 + u) ^ 5 - 1)) * (δ + L * (9 * R * ((1 + u) ^ 8 - 1)))) *
        (cells.map fun c => |c.volume|).sum := by
  have hst : Stored u t pts := by
    obtain ⟨s1, s2, s3, s4⟩ := stored_tables hfl hu
    simp only [triangleRules, List.mem_cons, Prod.mk.injEq, List.not_mem_nil, or_false] at ht
    rcases ht with ⟨rfl, rfl⟩ | ⟨rfl, rfl⟩ | ⟨rfl, rfl⟩ | ⟨rfl, rfl⟩ <;> assumption
  have hw : (t.rule.map fun p => |p.2|).sum ≤ 1 := by
    simp only [triangleRules, List.mem_cons, Prod.mk.injEq, List.not_mem_nil, or_false] at ht
    rcases ht with ⟨rfl, _⟩ | ⟨rfl, _⟩ | ⟨rfl, _⟩ | ⟨rfl, _⟩ <;>
      simp only [Table.rule, triangle1, triangle2, triangle3, triangle4, List.map_cons, List.map_nil, List.sum_cons, List.sum_nil] <;>
      norm_num [abs_of_pos]
  have hlen : pts.length = t.length := by rw [← hst.length_eq]; simp [Table.rule]
  have q (k : Nat) : (1 : ℝ) ≤ (1 + u) ^ k := one_le_pow₀ (by linarith)
  have hv : 0 ≤ κ * ((1 + u) ^ 5 - 1) := mul_nonneg hκ0 (by linarith [q 5])
  have hvol : ∀ c ∈ cells, |flArea fl c - c.volume| ≤ κ * ((1 + u) ^ 5 - 1) * |c.volume| := by
    intro c hc
    refine (area_within hfl hu c).error.trans ?_
    have := mul_le_mul_of_nonneg_left (hκ c hc) (show 0 ≤ (1 + u) ^ 5 - 1 by linarith [q 5])
    linarith
  have hφ : ∀ c ∈ cells, ∀ p ∈ (pts.map (flPoint fl c)).zip t.rule,
      |f' p.1 - f ((parametrization c.nodes).eval p.2.1)| ≤ δ + L * (9 * R * ((1 + u) ^ 8 - 1)) := by
    intro c hc p hp
    rw [List.zip_map_left, List.mem_map] at hp
    obtain ⟨⟨ξ', p⟩, hp, rfl⟩ := hp
    have hpp : ∀ i, Within ((1 + u) ^ 3) (ξ' i) (p.1 i) 2 := by
      have := List.Forall₂.flip hst
      exact (List.forall₂_iff_zip.mp this).2 hp
    have h1 := hL (flPoint fl c ξ') ((parametrization c.nodes).eval p.1) (9 * R * ((1 + u) ^ 8 - 1)) fun i => by
      rw [mul_comm]
      exact (point_within hfl hu c (hR c hc) (hpp 0) (hpp 1) i).error
    have h2 := hδ (flPoint fl c ξ')
    refine (abs_sub_le _ (f (flPoint fl c ξ')) _).trans ?_
    exact add_le_add h2 h1
  obtain ⟨r, hr, he⟩ := integrate_rounded hfl hu hv debug t (flArea fl) Cell.volume (fun c => pts.map (flPoint fl c)) cells f' f hkeys hvol
    (fun c _ => by rw [List.length_map, hlen]) hφ
  refine ⟨r, hr, he.trans ?_⟩
  have hG : (1 : ℝ) ≤ (1 + u) ^ (cells.length * t.length + 3) * (1 + κ * ((1 + u) ^ 5 - 1)) := by
    nlinarith [q (cells.length * t.length + 3)]
  have hδ0 : 0 ≤ δ := (abs_nonneg _).trans (hδ 0)
  have hφ0 : 0 ≤ δ + L * (9 * R * ((1 + u) ^ 8 - 1)) :=
    add_nonneg hδ0 (mul_nonneg hL0 (mul_nonneg (by linarith) (by linarith [q 8])))
  set G := (1 + u) ^ (cells.length * t.length + 3) * (1 + κ * ((1 + u) ^ 5 - 1))
  set φ := δ + L * (9 * R * ((1 + u) ^ 8 - 1))
  have m1 : magnitude t Cell.volume cells (fun _ => 1) ≤ (cells.map fun c => |c.volume|).sum := by
    rw [magnitude_one]
    refine List.sum_le_sum fun c _ => ?_
    have := mul_le_mul_of_nonneg_left hw (abs_nonneg c.volume)
    linarith
  have mF : magnitude t Cell.volume cells f ≤ F * (cells.map fun c => |c.volume|).sum := by
    rw [magnitude, ← List.sum_map_mul_left]
    refine List.sum_le_sum fun c hc => ?_
    have h1 : (t.rule.map fun p => |p.2| * |f ((parametrization c.nodes).eval p.1)|).sum ≤ (t.rule.map fun p => |p.2| * F).sum :=
      List.sum_le_sum fun p hp => mul_le_mul_of_nonneg_left (hF c hc p hp) (abs_nonneg _)
    rw [List.sum_map_mul_right] at h1
    have hF0 : 0 ≤ F ∨ t.rule = [] := by
      rcases hrule : t.rule with _ | ⟨p, l⟩
      · exact .inr rfl
      · exact .inl ((abs_nonneg _).trans (hF c hc p (by rw [hrule]; exact List.mem_cons_self ..)))
    have h2 : (t.rule.map fun p => |p.2| * |f ((parametrization c.nodes).eval p.1)|).sum ≤ F := by
      rcases hF0 with hF0 | hnil
      · nlinarith
      · exfalso
        rw [Table.rule, List.map_eq_nil_iff] at hnil
        simp only [triangleRules, List.mem_cons, Prod.mk.injEq, List.not_mem_nil, or_false] at ht
        rcases ht with ⟨rfl, _⟩ | ⟨rfl, _⟩ | ⟨rfl, _⟩ | ⟨rfl, _⟩ <;> cases hnil
    have := mul_le_mul_of_nonneg_left h2 (abs_nonneg c.volume)
    linarith
  have e1 := mul_le_mul_of_nonneg_left mF (show 0 ≤ G - 1 by linarith)
  have e2 := mul_le_mul_of_nonneg_left m1 (mul_nonneg (by linarith : 0 ≤ G) hφ0)
  nlinarith

/-- two triangles, the function `x`, and `double`: the integral is computed with an error below `10⁻¹³` -/
example : ∃ r, flIntegrate nearest true triangle2 (flArea nearest) (fun c => (flTriangle2 nearest).map (flPoint nearest c)) [lower, upper]
    (fun x => x 0) = .value r ∧ |r - quadratureSum triangle2 Cell.volume [lower, upper] (fun x => x 0)| ≤ 1e-13 := by
  obtain ⟨r, hr, he⟩ := triangles_rounded (κ := 1) (R := 1) (L := 1) (δ := 0) (F := 1) nearest_rounds (by positivity) true
    (t := triangle2) (pts := flTriangle2 nearest) (by simp [triangleRules]) [lower, upper] (fun x => x 0) (fun x => x 0)
    (by norm_num) (by norm_num) (by norm_num) (by decide)
    (by
      intro c hc a i
      simp only [List.mem_cons, List.not_mem_nil, or_false] at hc
      rcases hc with rfl | rfl <;> fin_cases a <;> fin_cases i <;> simp [lower, upper])
    (by
      intro c hc
      simp only [List.mem_cons, List.not_mem_nil, or_false] at hc
      rcases hc with rfl | rfl
      · rw [Cell.volume, lower_volume]; simp [lower]
      · rw [Cell.volume, upper_volume]; simp [upper])
    (fun x y η h => by rw [one_mul]; exact h 0) (fun x => by simp)
    (by
      intro c hc p hp
      rw [Fem.tri_parametrization]
      simp only [List.mem_cons, List.not_mem_nil, or_false] at hc
      simp only [Table.rule, triangle2, List.map_cons, List.map_nil, List.mem_cons, List.not_mem_nil, or_false] at hp
      rcases hc with rfl | rfl <;> rcases hp with rfl | rfl | rfl <;> simp [lower, upper] <;> norm_num [abs_le])
  refine ⟨r, hr, he.trans ?_⟩
  simp only [List.map_cons, List.map_nil, List.sum_cons, List.sum_nil, Cell.volume, lower_volume, upper_volume]
  norm_num [triangle2]

end Quadrature

end Mito
