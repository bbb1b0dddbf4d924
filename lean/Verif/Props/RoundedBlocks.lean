import Verif.Fem.RoundedBlocks
import Verif.Geometry.MidpointsLemmas
import Verif.Math.RoundingLemmas

/-!
# Symmetry of matrices in double arithmetic (C143)

In exact arithmetic the matrices of the blocks are symmetric (C52, C54).  `factor * dphi_a * dphi_b` is not when it is rounded.
-/

namespace Mito.RoundedBlocks

open Mito.Printing Mito.Midpoints
open Mito.Quadrature (rnd)

variable {n : Nat}

theorem dot_exact {α : Type} [Field α] (u v : List α) (s : α) :
    (u.zip v).foldl (fun s p => s + p.1 * p.2) s = s + ((u.zip v).map fun p => p.1 * p.2).sum := by
  induction u generalizing v s with
  | nil => simp
  | cons x u ih => cases v with
    | nil => simp
    | cons y v => simp [ih, add_assoc]

theorem zip_sum_comm {α : Type} [Field α] (f : α) (u v : List α) :
    (((u.map (f * ·)).zip v).map fun p => p.1 * p.2).sum = (((v.map (f * ·)).zip u).map fun p => p.1 * p.2).sum := by
  induction u generalizing v with
  | nil => simp
  | cons x u ih => cases v with
    | nil => simp
    | cons y v =>
      simp only [List.map_cons, List.zip_cons_cons, List.sum_cons, ih v]
      ring

/-- the value of an entry without rounding -/
noncomputable def exactEntry (parts : List (Part ℝ n)) : ℝ :=
  (parts.map fun p => (p.points.map fun q => (((q.values p.row).zip (q.values p.col)).map fun x => q.factor * x.1 * x.2).sum).sum).sum

/-- the sum of the magnitudes of its terms -/
noncomputable def size (parts : List (Part ℝ n)) : ℝ :=
  (parts.map fun p => (p.points.map fun q => (((q.values p.row).zip (q.values p.col)).map fun x => |q.factor| * |x.1| * |x.2|).sum).sum).sum

theorem zip_swap {α : Type} [Field α] (g : α → α) (f : α) (u v : List α) :
    ((u.zip v).map fun x => g f * g x.1 * g x.2).sum = ((v.zip u).map fun x => g f * g x.1 * g x.2).sum := by
  induction u generalizing v with
  | nil => simp
  | cons x u ih => cases v with
    | nil => simp
    | cons y v =>
      simp only [List.zip_cons_cons, List.map_cons, List.sum_cons, ih v]
      ring

/-- without rounding the matrix is symmetric -/
theorem exactEntry_swap (parts : List (Part ℝ n)) : exactEntry (parts.map Part.swap) = exactEntry parts ∧ size (parts.map Part.swap) = size parts := by
  constructor
  · simp only [exactEntry, List.map_map]
    congr 1
    refine List.map_congr_left fun p _ => congrArg List.sum (List.map_congr_left fun q _ => ?_)
    exact zip_swap id q.factor _ _
  · simp only [size, List.map_map]
    congr 1
    refine List.map_congr_left fun p _ => congrArg List.sum (List.map_congr_left fun q _ => ?_)
    exact zip_swap (fun x => |x|) q.factor _ _

theorem entry_within {u : ℝ} (hu : 0 ≤ u) {fl : ℝ → ℝ} (hfl : Rounds u fl) {Q D : Nat} (parts : List (Part ℝ n))
    (hQ : ∀ p ∈ parts, p.points.length = Q) (hD : ∀ p ∈ parts, ∀ q ∈ p.points, ∀ a, (q.values a).length = D) :
    Within ((1 + u) ^ (2 + D + Q + parts.length)) (entry fl parts) (exactEntry parts) (size parts) := by
  have h1u : 1 ≤ 1 + u := by linarith
  have zero (k : Nat) : Within ((1 + u) ^ k) (0 : ℝ) 0 0 := ⟨one_le_pow₀ h1u, by simp, by simp⟩
  have hterm : ∀ p ∈ parts, ∀ q ∈ p.points, Within ((1 + u) ^ (2 + D)) (term fl q p.row p.col)
      (((q.values p.row).zip (q.values p.col)).map fun x => q.factor * x.1 * x.2).sum
      (((q.values p.row).zip (q.values p.col)).map fun x => |q.factor| * |x.1| * |x.2|).sum := by
    intro p hp q hq
    have := foldl_within hfl hu (α := ℝ × ℝ) (fun x => fl (fl (q.factor * x.1) * x.2)) (fun x => q.factor * x.1 * x.2)
      (fun x => |q.factor| * |x.1| * |x.2|) ((q.values p.row).zip (q.values p.col)) (ρ := (1 + u) ^ 2) (r' := 0) (r := 0) (m := 0)
      (fun x _ => by
        have := ((((Within.exact q.factor).mul (Within.exact x.1)).round hfl hu).mul (Within.exact x.2)).round hfl hu
        refine this.mono (le_of_eq ?_)
        ring) (zero 2)
    rw [List.length_zip, hD p hp q hq, hD p hp q hq, Nat.min_self, ← pow_add, zero_add, zero_add] at this
    have e : term fl q p.row p.col = ((q.values p.row).zip (q.values p.col)).foldl (fun s x => fl (s + fl (fl (q.factor * x.1) * x.2))) 0 := by
      rw [term, dot, List.zip_map_left, List.foldl_map]
      rfl
    rw [e]
    exact this
  have hblock : ∀ p ∈ parts, Within ((1 + u) ^ (2 + D + Q)) (block fl p.points p.row p.col)
      (p.points.map fun q => (((q.values p.row).zip (q.values p.col)).map fun x => q.factor * x.1 * x.2).sum).sum
      (p.points.map fun q => (((q.values p.row).zip (q.values p.col)).map fun x => |q.factor| * |x.1| * |x.2|).sum).sum := by
    intro p hp
    have := foldl_within hfl hu (fun q => term fl q p.row p.col) _ _ p.points (hterm p hp) (zero (2 + D))
    rwa [hQ p hp, ← pow_add, zero_add, zero_add] at this
  have := foldl_within hfl hu (fun p => block fl p.points p.row p.col) _ _ parts hblock (zero (2 + D + Q))
  rwa [← pow_add, zero_add, zero_add] at this

/-- **C143.**  The entries of an assembled matrix have a small error, and the two entries of a pair of nodes differ by at most twice as much: with
`Q` quadrature points, `D` components and `m` elements that have both nodes. -/
theorem nearly_symmetric {u : ℝ} (hu : 0 ≤ u) {fl : ℝ → ℝ} (hfl : Rounds u fl) {Q D : Nat} (parts : List (Part ℝ n))
    (hQ : ∀ p ∈ parts, p.points.length = Q) (hD : ∀ p ∈ parts, ∀ q ∈ p.points, ∀ a, (q.values a).length = D) :
    |entry fl parts - exactEntry parts| ≤ ((1 + u) ^ (2 + D + Q + parts.length) - 1) * size parts ∧
      |entry fl parts - entry fl (parts.map Part.swap)| ≤ 2 * ((1 + u) ^ (2 + D + Q + parts.length) - 1) * size parts := by
  have h1 := (entry_within hu hfl parts hQ hD).error
  have h2 := (entry_within hu hfl (parts.map Part.swap)
    (fun p hp => by obtain ⟨p', hp', rfl⟩ := List.mem_map.mp hp; exact hQ p' hp')
    (fun p hp => by obtain ⟨p', hp', rfl⟩ := List.mem_map.mp hp; exact hD p' hp')).error
  rw [(exactEntry_swap parts).1, (exactEntry_swap parts).2, List.length_map] at h2
  refine ⟨h1, ?_⟩
  have e : entry fl parts - entry fl (parts.map Part.swap) =
      (entry fl parts - exactEntry parts) + -(entry fl (parts.map Part.swap) - exactEntry parts) := by ring
  rw [e]
  refine (abs_add_le _ _).trans ?_
  rw [abs_neg]
  linarith

variable {fl : ℚ → ℚ}

theorem scaled_exact (h : NearestDigits 2 53 fl) {x : ℚ} (hx : HasDigits 2 53 x) (k : ℤ) : fl ((2 : ℚ) ^ k * x) = (2 : ℚ) ^ k * x := by
  refine fl_fixed h ?_
  obtain ⟨m, e, h1, rfl⟩ := hx
  refine ⟨m, k + e, h1, ?_⟩
  push_cast
  rw [zpow_add₀ (by norm_num)]
  ring

/-- **C143.**  If the factors are powers of two, the matrix is exactly symmetric in double arithmetic. -/
theorem symmetric_of_powers (h : NearestDigits 2 53 fl) (parts : List (Part ℚ n))
    (hf : ∀ p ∈ parts, ∀ q ∈ p.points, (∃ k : ℤ, q.factor = 2 ^ k) ∧ ∀ a, ∀ x ∈ q.values a, HasDigits 2 53 x) :
    entry fl (parts.map Part.swap) = entry fl parts := by
  have hterm : ∀ p ∈ parts, ∀ q ∈ p.points, term fl q p.col p.row = term fl q p.row p.col := by
    intro p hp q hq
    obtain ⟨⟨k, hk⟩, hx⟩ := hf p hp q hq
    have e : ∀ a, ((q.values a).map fun x => fl (q.factor * x)) = (q.values a).map fun x => q.factor * x := by
      intro a
      refine List.map_congr_left fun x hx' => ?_
      rw [hk]
      exact scaled_exact h (hx a x hx') k
    rw [term, term, e, e, dot, dot]
    generalize q.values p.col = v
    generalize q.values p.row = w
    generalize (0 : ℚ) = s
    induction v generalizing w s with
    | nil => simp
    | cons x v ih => cases w with
      | nil => simp
      | cons y w =>
        simp only [List.map_cons, List.zip_cons_cons, List.foldl_cons]
        rw [show q.factor * x * y = q.factor * y * x by ring]
        exact ih _ _
  rw [entry, entry, List.foldl_map]
  refine List.foldl_ext _ _ _ fun s p hp => ?_
  congr 2
  change block fl p.points p.col p.row = _
  refine List.foldl_ext _ _ _ fun m q hq => ?_
  rw [hterm p hp q hq]

/-- **C143.**  The entries of the diagonal are not negative if the factors are not: rounding does not change this. -/
theorem diagonal_nonneg (h : NearestDigits 2 53 fl) (parts : List (Part ℚ n)) (hd : ∀ p ∈ parts, p.row = p.col)
    (hf : ∀ p ∈ parts, ∀ q ∈ p.points, 0 ≤ q.factor) : 0 ≤ entry fl parts := by
  have hsum : ∀ {β : Type} (l : List β) (t : β → ℚ) (s : ℚ), 0 ≤ s → (∀ x ∈ l, 0 ≤ t x) → 0 ≤ l.foldl (fun s x => fl (s + t x)) s := by
    intro β l t
    induction l with
    | nil => intro s hs _; exact hs
    | cons x l ih =>
      intro s hs ht
      exact ih _ (le_fl h digits_zero (add_nonneg hs (ht x (by simp)))) fun y hy => ht y (by simp [hy])
  refine hsum parts _ 0 le_rfl fun p hp => ?_
  refine hsum p.points _ 0 le_rfl fun q hq => ?_
  have hq0 := hf p hp q hq
  rw [hd p hp, term, dot]
  refine hsum _ (fun x : ℚ × ℚ => fl (x.1 * x.2)) 0 le_rfl fun x hx => ?_
  refine le_fl h digits_zero ?_
  rw [List.zip_map_left] at hx
  obtain ⟨⟨a, b⟩, hab, rfl⟩ := List.mem_map.mp hx
  have : a = b := by
    have := List.mem_iff_getElem.mp hab
    obtain ⟨i, hi, e⟩ := this
    rw [List.getElem_zip] at e
    simp only [Prod.mk.injEq] at e
    rw [← e.1, ← e.2]
  subst this
  change 0 ≤ fl (q.factor * a) * a
  rcases le_total 0 a with ha | ha
  · exact mul_nonneg (le_fl h digits_zero (mul_nonneg hq0 ha)) ha
  · exact mul_nonneg_of_nonpos_of_nonpos (fl_le h digits_zero (mul_nonpos_of_nonneg_of_nonpos hq0 ha)) ha

/-- **C143, the code.**  The matrix of a triangle with integer nodes and the quadrature rule with three points is not symmetric. -/
theorem not_symmetric : block rnd exTriangle 2 0 ≠ block rnd exTriangle 0 2 ∧
    block rnd exTriangle 0 2 = -20.5 ∧ block rnd exTriangle 2 0 = -20.5 + 1 / 2 ^ 48 := by
  decide +kernel

/-- **C143, the code.**  In a weak form for one such triangle the matrix that is assembled is not symmetric, while its exact values are. -/
theorem entry_not_symmetric : entry rnd [⟨exTriangle, 0, 2⟩] ≠ entry rnd ([⟨exTriangle, 0, 2⟩].map Part.swap) := by
  decide +kernel

/-- The theorems are not empty: the mass matrix of a segment of length four with one quadrature point has a factor that is a power of two. -/
example : (∀ p ∈ [(⟨[⟨4, fun _ => [1 / 2]⟩], 0, 1⟩ : Part ℚ 2)], ∀ q ∈ p.points, (∃ k : ℤ, q.factor = 2 ^ k) ∧ ∀ a, ∀ x ∈ q.values a, HasDigits 2 53 x) ∧
    entry rnd [(⟨[⟨4, fun _ => [1 / 2]⟩], 0, 1⟩ : Part ℚ 2)] = 1 := by
  refine ⟨?_, by decide +kernel⟩
  intro p hp q hq
  simp only [List.mem_singleton] at hp
  subst hp
  simp only [List.mem_singleton] at hq
  subst hq
  refine ⟨⟨2, by norm_num⟩, fun a x hx => ?_⟩
  simp only [List.mem_singleton] at hx
  subst hx
  exact ⟨1, -1, by norm_num, by norm_num⟩

end Mito.RoundedBlocks
