import Verif.Quadrature.Rounded
import Verif.Spec.Integrator
import Verif.Props.Integrator
import Verif.Math.RoundingLemmas

/-! # Lemmas on integration with rounding -/

namespace Mito.Quadrature

open Mito.Functions Mito.Geometry

variable {n d : Nat} {u v : ℝ} {fl : ℝ → ℝ}

theorem term_within (hfl : Rounds u fl) (hu : 0 ≤ u) {V' V : ℝ} (hV : Within (1 + v) V' V |V|) (g w : ℝ) :
    Within ((1 + u) ^ 3 * (1 + v)) (fl (fl (g * fl w) * V')) (g * w * V) (|g| * |w| * |V|) := by
  have h1 := (Within.exact w).round hfl hu
  have h2 := ((Within.exact g).mul h1).round hfl hu
  have h3 := (h2.mul hV).round hfl hu
  have e : 1 * (1 * (1 + u)) * (1 + u) * (1 + v) * (1 + u) = (1 + u) ^ 3 * (1 + v) := by ring
  rw [e] at h3
  exact h3

/-- the sums over the points of a cell, with the values of `f` at the computed points -/
noncomputable def cellSum (f : Val (.vec d) → ℝ) (points : List (Val (.vec d))) (rule : List ((Fin (n + 1) → ℝ) × ℝ)) : ℝ :=
  ((points.zip rule).map fun p => f p.1 * p.2.2).sum

noncomputable def cellAbs (f : Val (.vec d) → ℝ) (points : List (Val (.vec d))) (rule : List ((Fin (n + 1) → ℝ) × ℝ)) : ℝ :=
  ((points.zip rule).map fun p => |f p.1| * |p.2.2|).sum

theorem addCell_within (hfl : Rounds u fl) (hu : 0 ≤ u) {V' V : ℝ} (hV : Within (1 + v) V' V |V|) (f : Val (.vec d) → ℝ)
    (points : List (Val (.vec d))) (rule : List ((Fin (n + 1) → ℝ) × ℝ)) (hl : points.length = rule.length) {ρ r' r m : ℝ}
    (hρ : (1 + u) ^ 3 * (1 + v) ≤ ρ) (hr : Within ρ r' r m) :
    Within (ρ * (1 + u) ^ rule.length) (flAddCell fl f V' points (rule.map fun p => fl p.2) r') (r + cellSum f points rule * V)
      (m + cellAbs f points rule * |V|) := by
  have h := foldl_within hfl hu (fun p : Val (.vec d) × ((Fin (n + 1) → ℝ) × ℝ) => fl (fl (f p.1 * fl p.2.2) * V'))
    (fun p => f p.1 * p.2.2 * V) (fun p => |f p.1| * |p.2.2| * |V|) (points.zip rule)
    (fun p _ => (term_within hfl hu hV (f p.1) p.2.2).mono hρ) hr
  rw [List.length_zip, hl, min_self] at h
  rw [flAddCell, List.zip_map_right, List.foldl_map]
  rw [List.sum_map_mul_right, List.sum_map_mul_right] at h
  exact h

/-- the loop, when every cell finds its points -/
theorem loop_within (hfl : Rounds u fl) (hu : 0 ≤ u) {field : DiscreteField.Field Nat (List (Val (.vec d)))} (t : Table (n + 1))
    (volume' volume : Cell n d → ℝ) (f : Val (.vec d) → ℝ) (points : Cell n d → List (Val (.vec d))) (cells : List (Cell n d))
    (hp : ∀ c ∈ cells, DiscreteField.read field c.key = some (points c)) (hl : ∀ c ∈ cells, (points c).length = t.length)
    (hV : ∀ c ∈ cells, Within (1 + v) (volume' c) (volume c) |volume c|) {ρ r' r m : ℝ}
    (hρ : (1 + u) ^ 3 * (1 + v) ≤ ρ) (hr : Within ρ r' r m) :
    ∃ s, flIntegrateLoop fl field t volume' f cells r' = .value s ∧
      Within (ρ * (1 + u) ^ (cells.length * t.length)) s (r + (cells.map fun c => cellSum f (points c) t.rule * volume c).sum)
        (m + (cells.map fun c => cellAbs f (points c) t.rule * |volume c|).sum) := by
  induction cells generalizing ρ r' r m with
  | nil => exact ⟨r', rfl, by simpa using hr⟩
  | cons c cells ih =>
    have hrl : t.rule.length = t.length := by simp [Table.rule]
    have h1 := addCell_within hfl hu (hV c (List.mem_cons_self ..)) f (points c) t.rule (by rw [hl c (List.mem_cons_self ..), hrl]) hρ hr
    have hpow : 1 ≤ (1 + u) ^ t.rule.length := one_le_pow₀ (by linarith)
    have hρ' : (1 + u) ^ 3 * (1 + v) ≤ ρ * (1 + u) ^ t.rule.length := by nlinarith [hr.one_le]
    obtain ⟨s, hs, hw⟩ := ih (fun c' hc' => hp c' (List.mem_cons_of_mem _ hc')) (fun c' hc' => hl c' (List.mem_cons_of_mem _ hc'))
      (fun c' hc' => hV c' (List.mem_cons_of_mem _ hc')) hρ' h1
    refine ⟨s, ?_, ?_⟩
    · rw [flIntegrateLoop, hp c (List.mem_cons_self ..)]
      exact hs
    · rw [List.map_cons, List.sum_cons, List.map_cons, List.sum_cons, ← add_assoc, ← add_assoc]
      have e : ρ * (1 + u) ^ ((c :: cells).length * t.length) = ρ * (1 + u) ^ t.rule.length * (1 + u) ^ (cells.length * t.length) := by
        rw [hrl, mul_assoc, ← pow_add, List.length_cons]
        congr 2
        ring
      rw [e]
      exact hw

/-- different keys: every cell finds its points -/
theorem field_read (debug : Bool) (points : Cell n d → List (Val (.vec d))) (cells : List (Cell n d)) (h : (cells.map Cell.key).Nodup) :
    ∃ field, DiscreteField.run debug [] (cells.map fun c => .insert c.key (points c)) = some field ∧
      ∀ c ∈ cells, DiscreteField.read field c.key = some (points c) := by
  have hi := inserted_map cells Cell.key points
  have hs : (DiscreteField.run debug [] (cells.map fun c => .insert c.key (points c))).isSome = true := by
    have h1 : (DiscreteField.run true [] (cells.map fun c => .insert c.key (points c))).isSome = true := by
      rw [DiscreteField.field_debug, hi]
      exact h
    cases debug with
    | true => exact h1
    | false =>
      obtain ⟨fl, hfl⟩ := Option.isSome_iff_exists.mp h1
      rw [DiscreteField.field_release _ _ _ hfl]
      rfl
  obtain ⟨field, hfield⟩ := Option.isSome_iff_exists.mp hs
  refine ⟨field, hfield, fun c hc => ?_⟩
  rw [DiscreteField.field_value debug _ field hfield, valueOf_map]
  have : (cells.find? fun c' => c'.key = c.key) = some c := by
    rw [List.find?_eq_some_iff_append]
    obtain ⟨l1, l2, rfl⟩ := List.append_of_mem hc
    refine ⟨by simp, l1, l2, rfl, fun c' hc' => ?_⟩
    rw [List.map_append, List.nodup_append] at h
    have := h.2.2 _ (List.mem_map_of_mem hc') _ (List.mem_map_of_mem (List.mem_cons_self ..))
    simpa using this
  rw [this]
  rfl

/-! ## The error of the values of the function -/

theorem values_error (f f' : Val (.vec d) → ℝ) (ψ : (Fin (n + 1) → ℝ) → Val (.vec d)) {φ : ℝ} (points : List (Val (.vec d)))
    (rule : List ((Fin (n + 1) → ℝ) × ℝ)) (hl : points.length = rule.length)
    (h : ∀ p ∈ points.zip rule, |f' p.1 - f (ψ p.2.1)| ≤ φ) :
    |cellSum f' points rule - (rule.map fun p => p.2 * f (ψ p.1)).sum| ≤ φ * (rule.map fun p => |p.2|).sum ∧
      cellAbs f' points rule ≤ (rule.map fun p => |p.2| * |f (ψ p.1)|).sum + φ * (rule.map fun p => |p.2|).sum := by
  induction points generalizing rule with
  | nil =>
    obtain rfl : rule = [] := List.length_eq_zero_iff.mp hl.symm
    simp [cellSum, cellAbs]
  | cons x points ih =>
    rcases rule with _ | ⟨p, rule⟩
    · simp at hl
    · obtain ⟨i1, i2⟩ := ih rule (by simpa using hl) fun q hq => h q (by simp [hq])
      have h0 : |f' x - f (ψ p.1)| ≤ φ := h (x, p) (by simp)
      have h1 : |f' x| ≤ |f (ψ p.1)| + φ := by
        have : |f' x| ≤ |f' x - f (ψ p.1)| + |f (ψ p.1)| := by simpa using abs_add_le (f' x - f (ψ p.1)) (f (ψ p.1))
        linarith
      have h2 := abs_nonneg p.2
      constructor
      · have e : cellSum f' (x :: points) (p :: rule) - ((p :: rule).map fun p => p.2 * f (ψ p.1)).sum =
            p.2 * (f' x - f (ψ p.1)) + (cellSum f' points rule - (rule.map fun p => p.2 * f (ψ p.1)).sum) := by
          simp only [cellSum, List.zip_cons_cons, List.map_cons, List.sum_cons]
          ring
        rw [e]
        refine (abs_add_le _ _).trans ?_
        rw [abs_mul, List.map_cons, List.sum_cons]
        nlinarith
      · have e : cellAbs f' (x :: points) (p :: rule) = |f' x| * |p.2| + cellAbs f' points rule := by
          simp only [cellAbs, List.zip_cons_cons, List.map_cons, List.sum_cons]
        rw [e]
        simp only [List.map_cons, List.sum_cons]
        nlinarith

theorem magnitude_one (t : Table (n + 1)) (volume : Cell n d → ℝ) (cells : List (Cell n d)) :
    magnitude t volume cells (fun _ => 1) = (cells.map fun c => |volume c| * (t.rule.map fun p => |p.2|).sum).sum := by
  simp [magnitude]

theorem sums_error (t : Table (n + 1)) (volume : Cell n d → ℝ) (points : Cell n d → List (Val (.vec d))) (cells : List (Cell n d))
    (f' f : Val (.vec d) → ℝ) {φ : ℝ} (hl : ∀ c ∈ cells, (points c).length = t.length)
    (hφ : ∀ c ∈ cells, ∀ p ∈ (points c).zip t.rule, |f' p.1 - f ((parametrization c.nodes).eval p.2.1)| ≤ φ) :
    |(cells.map fun c => cellSum f' (points c) t.rule * volume c).sum - quadratureSum t volume cells f| ≤
        φ * magnitude t volume cells (fun _ => 1) ∧
      (cells.map fun c => cellAbs f' (points c) t.rule * |volume c|).sum ≤
        magnitude t volume cells f + φ * magnitude t volume cells (fun _ => 1) := by
  rw [magnitude_one, magnitude, quadratureSum]
  induction cells with
  | nil => simp
  | cons c cells ih =>
    obtain ⟨i1, i2⟩ := ih (fun c' hc' => hl c' (List.mem_cons_of_mem _ hc')) (fun c' hc' => hφ c' (List.mem_cons_of_mem _ hc'))
    obtain ⟨j1, j2⟩ := values_error f f' (fun ξ => (parametrization c.nodes).eval ξ) (points c) t.rule
      (by rw [hl c (List.mem_cons_self ..)]; simp [Table.rule]) (hφ c (List.mem_cons_self ..))
    have hVc := abs_nonneg (volume c)
    simp only [List.map_cons, List.sum_cons]
    constructor
    · have e : ∀ a b A B : ℝ, a * volume c + A - (volume c * b + B) = volume c * (a - b) + (A - B) := fun _ _ _ _ => by ring
      rw [e]
      refine (abs_add_le _ _).trans ?_
      rw [abs_mul, mul_add]
      have := mul_le_mul_of_nonneg_left j1 hVc
      refine add_le_add (this.trans (le_of_eq (by ring))) i1
    · have := mul_le_mul_of_nonneg_left j2 hVc
      nlinarith

/-! ## Triangles -/

theorem area_within (hfl : Rounds u fl) (hu : 0 ≤ u) (c : Cell 1 2) :
    Within ((1 + u) ^ 5) (flArea fl c) (simplexVolume c.nodes)
      (1 / 2 * (|c.nodes 1 0 - c.nodes 0 0| * |c.nodes 2 1 - c.nodes 0 1| + |c.nodes 1 1 - c.nodes 0 1| * |c.nodes 2 0 - c.nodes 0 0|)) := by
  have h0 := (Within.exact (c.nodes 1 0 - c.nodes 0 0)).round hfl hu
  have h1 := (Within.exact (c.nodes 1 1 - c.nodes 0 1)).round hfl hu
  have h2 := (Within.exact (c.nodes 2 0 - c.nodes 0 0)).round hfl hu
  have h3 := (Within.exact (c.nodes 2 1 - c.nodes 0 1)).round hfl hu
  have h4 := (((((h0.mul h3).round hfl hu).sub ((h1.mul h2).round hfl hu)).round hfl hu).half).round hfl hu
  have e : 1 * (1 + u) * (1 * (1 + u)) * (1 + u) * (1 + u) * (1 + u) = (1 + u) ^ 5 := by ring
  rw [e] at h4
  have e2 : 1 / 2 * ((c.nodes 1 0 - c.nodes 0 0) * (c.nodes 2 1 - c.nodes 0 1) - (c.nodes 1 1 - c.nodes 0 1) * (c.nodes 2 0 - c.nodes 0 0)) =
      simplexVolume c.nodes := by
    rw [simplexVolume, Matrix.det_fin_two]
    simp only [Matrix.of_apply, Pi.sub_apply]
    norm_num
  rw [e2] at h4
  exact h4

theorem point_within (hfl : Rounds u fl) (hu : 0 ≤ u) (c : Cell 1 2) {R : ℝ} (hR : ∀ a i, |c.nodes a i| ≤ R) {ξ ξ' : Fin 2 → ℝ}
    (a : Within ((1 + u) ^ 3) (ξ' 0) (ξ 0) 2) (b : Within ((1 + u) ^ 3) (ξ' 1) (ξ 1) 2) (i : Fin 2) :
    Within ((1 + u) ^ 8) (flPoint fl c ξ' i) ((parametrization c.nodes).eval ξ i) (9 * R) := by
  have n0 := (Within.exact (c.nodes 0 i)).weaken (hR 0 i)
  have n1 := (Within.exact (c.nodes 1 i)).weaken (hR 1 i)
  have n2 := (Within.exact (c.nodes 2 i)).weaken (hR 2 i)
  have p (k l : Nat) (h : k ≤ l) : (1 + u) ^ k ≤ (1 + u) ^ l := pow_le_pow_right₀ (by linarith) h
  have one := (Within.exact (1 : ℝ)).mono (show (1 : ℝ) ≤ (1 + u) ^ 3 from one_le_pow₀ (by linarith))
  rw [abs_one] at one
  have l1 := (one.sub a).round hfl hu
  have l2 := ((l1.mono (σ := (1 + u) ^ 4) (le_of_eq (by ring))).sub (b.mono (p 3 4 (by norm_num)))).round hfl hu
  have t2 := (l2.mul n2).round hfl hu
  have t1 := (b.mul n1).round hfl hu
  have t0 := (a.mul n0).round hfl hu
  have s1 := ((t1.mono (σ := (1 + u) ^ 6) ((le_of_eq (by ring)).trans (p 4 6 (by norm_num)))).add
    (t2.mono (σ := (1 + u) ^ 6) (le_of_eq (by ring)))).round hfl hu
  have s0 := ((t0.mono (σ := (1 + u) ^ 7) ((le_of_eq (by ring)).trans (p 4 7 (by norm_num)))).add
    (s1.mono (σ := (1 + u) ^ 7) (le_of_eq (by ring)))).round hfl hu
  have s := (s0.mono (σ := (1 + u) ^ 8) (le_of_eq (by ring))).weaken (k := 9 * R) (le_of_eq (by ring))
  have e : ξ 0 * c.nodes 0 i + (ξ 1 * c.nodes 1 i + (1 - ξ 0 - ξ 1) * c.nodes 2 i) = (parametrization c.nodes).eval ξ i := by
    rw [Fem.tri_parametrization]
    ring
  rw [e] at s
  exact s

/-- a literal of a table -/
theorem literal_within (hfl : Rounds u fl) (hu : 0 ≤ u) {x : ℝ} (h : |x| ≤ 1) : Within ((1 + u) ^ 3) (fl x) x 2 :=
  (((Within.exact x).round hfl hu).mono (by rw [one_mul]; exact le_self_pow₀ (by linarith) (by norm_num))).weaken (by linarith)

/-- a coordinate that is computed from a literal -/
theorem computed_within (hfl : Rounds u fl) (hu : 0 ≤ u) {x : ℝ} (h0 : 0 ≤ x) (h : x ≤ 1 / 2) :
    Within ((1 + u) ^ 3) (fl (1 - fl (2 * fl x))) (1 - 2 * x) 2 := by
  have h1 := ((Within.exact 2).mul ((Within.exact x).round hfl hu)).round hfl hu
  have one := (Within.exact (1 : ℝ)).mono (show (1 : ℝ) ≤ 1 * (1 * (1 + u)) * (1 + u) by nlinarith)
  have h2 := (one.sub h1).round hfl hu
  refine (h2.mono (le_of_eq (by ring))).weaken ?_
  rw [abs_one, abs_of_pos (by norm_num : (0 : ℝ) < 2), abs_of_nonneg h0]
  linarith

/-- the points of a table as they are stored -/
def Stored (u : ℝ) (t : Table 2) (pts : List (Fin 2 → ℝ)) : Prop :=
  List.Forall₂ (fun (p : (Fin 2 → ℝ) × ℝ) ξ' => ∀ i, Within ((1 + u) ^ 3) (ξ' i) (p.1 i) 2) t.rule pts

theorem stored_tables (hfl : Rounds u fl) (hu : 0 ≤ u) : Stored u triangle1 (flTriangle1 fl) ∧ Stored u triangle2 (flTriangle2 fl) ∧
    Stored u triangle3 (flTriangle3 fl) ∧ Stored u triangle4 (flTriangle4 fl) := by
  have lit {x y : ℝ} (e : x = y) (h0 : 0 ≤ x) (h1 : x ≤ 1) : Within ((1 + u) ^ 3) (fl x) y 2 :=
    e ▸ literal_within hfl hu (abs_le.mpr ⟨by linarith, h1⟩)
  have com {x y : ℝ} (e : 1 - 2 * x = y) (h0 : 0 ≤ x) (h1 : x ≤ 1 / 2) : Within ((1 + u) ^ 3) (fl (1 - fl (2 * fl x))) y 2 :=
    e ▸ computed_within hfl hu h0 h1
  refine ⟨?_, ?_, ?_, ?_⟩
  · simp only [Stored, Table.rule, triangle1, flTriangle1, List.map_cons, List.map_nil, List.forall₂_cons, List.Forall₂.nil, and_true]
    intro i
    fin_cases i <;> refine lit ?_ ?_ ?_ <;> norm_num
  · simp only [Stored, Table.rule, triangle2, flTriangle2, List.map_cons, List.map_nil, List.forall₂_cons, List.Forall₂.nil, and_true]
    refine ⟨?_, ?_, ?_⟩ <;> intro i <;> fin_cases i <;> refine lit ?_ ?_ ?_ <;> norm_num
  · simp only [Stored, Table.rule, triangle3, flTriangle3, List.map_cons, List.map_nil, List.forall₂_cons, List.Forall₂.nil, and_true]
    refine ⟨?_, ?_, ?_, ?_, ?_, ?_⟩ <;> intro i <;> fin_cases i <;> first
      | (refine lit ?_ ?_ ?_ <;> norm_num; done)
      | (refine com ?_ ?_ ?_ <;> norm_num; done)
  · simp only [Stored, Table.rule, triangle4, flTriangle4, List.map_cons, List.map_nil, List.forall₂_cons, List.Forall₂.nil, and_true]
    refine ⟨?_, ?_, ?_, ?_, ?_, ?_⟩ <;> intro i <;> fin_cases i <;> refine lit ?_ ?_ ?_ <;> norm_num

end Mito.Quadrature
