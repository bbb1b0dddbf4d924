import Verif.Props.PoissonElements
import Mathlib.MeasureTheory.Integral.IntervalIntegral.IntegrationByParts
import Mathlib.MeasureTheory.Integral.IntervalIntegral.FundThmCalculus

/-!
# C79: the Poisson problem on a line is solved exactly at the nodes
-/

namespace Mito.Fem

open Mito.Functions Mito.DiscreteSystem Mito.Geometry Mito.Assoc

theorem line_length (x : Nat → ℝ) (N : Nat) : List.length (line x N) = N := by simp [line]

theorem line_get (x : Nat → ℝ) (N i : Nat) (h : i < List.length (line x N)) : (line x N)[i] = (segment x i, ![i, i + 1]) := by
  simp [line]

theorem length_segment (x : Nat → ℝ) (i : Nat) : length ![![x i], ![x (i + 1)]] = x (i + 1) - x i := by simp [length]

theorem line_anchored (x : Nat → ℝ) (N : Nat) : Anchored (functionSpace (line x N) [0, N]) := by
  have hadj : ∀ i, i < N → Adjacent (functionSpace (line x N) [0, N]) (i + 1) i := by
    intro i hi
    refine ⟨[i, i + 1], ?_, by simp, by simp⟩
    simp only [functionSpace, line, List.map_map, List.mem_map, List.mem_range]
    exact ⟨i, hi, by simp [List.ofFn_succ]⟩
  have hreach : ∀ i, i ≤ N → Relation.ReflTransGen (Adjacent (functionSpace (line x N) [0, N])) i 0 := by
    intro i
    induction i with
    | zero => intro _; exact .refl
    | succ i ih => intro h; exact .head (hadj i (by omega)) (ih (by omega))
  intro y hy
  refine ⟨0, by simp [functionSpace], hreach y ?_⟩
  simp only [functionSpace, line, List.map_map, List.mem_flatten, List.mem_map, List.mem_range] at hy
  obtain ⟨l, ⟨i, hi, rfl⟩, hy⟩ := hy
  simp [List.ofFn_succ] at hy
  omega

theorem Averages.positive {rule : Rule 1} (h : Averages rule) : ∃ p ∈ rule, 0 < p.2 := by
  by_contra hn
  simp only [not_exists, not_and] at hn
  have : (rule.map fun p => p.2).sum = 0 := by
    refine List.sum_eq_zero fun y hy => ?_
    obtain ⟨p, hp, rfl⟩ := List.mem_map.mp hy
    exact le_antisymm (not_lt.mp (hn p hp)) (h.nonneg p hp)
  rw [h.total] at this
  exact one_ne_zero this

theorem line_stiff {rule : Rule 1} (h : Averages rule) {x : Nat → ℝ} {N : Nat} (hx : ∀ i < N, x i < x (i + 1)) :
    ∀ ec ∈ line x N, Stiff rule ec.1 := by
  intro ec hec
  obtain ⟨i, hi, rfl⟩ := List.mem_map.mp hec
  refine stiff_seg1 h.nonneg h.positive ?_
  rw [length_segment]
  have := hx i (List.mem_range.mp hi)
  linarith

theorem sum_telescope (g : Nat → ℝ) (N : Nat) : ∑ e : Fin N, (g (e.val + 1) - g e.val) = g N - g 0 := by
  rw [Fin.sum_univ_eq_sum_range (fun i => g (i + 1) - g i), Finset.sum_range_sub]

/-- If the elementary loads are those of a flux `G` that balances the slopes of `U`, then `U` solves the discrete problem. -/
theorem nodal_galerkin {rule : Rule 1} (hr : Averages rule) {f : Val (.vec 1) → ℝ} {x : Nat → ℝ} {N : Nat}
    (hx : ∀ i < N, x i < x (i + 1)) (U G : Nat → ℝ) (h0 : U 0 = 0) (hN : U N = 0)
    (hl : ∀ i < N, sourceTerm f rule (segment x i) 0 = G i - slope x U i ∧
      sourceTerm f rule (segment x i) 1 = slope x U i - G (i + 1)) :
    Galerkin (functionSpace (line x N) [0, N]) (poisson rule f (line x N)) U := by
  refine ⟨?_, fun w hw => ?_⟩
  · intro y hy
    simp only [functionSpace, List.mem_cons, List.not_mem_nil, or_false] at hy
    rcases hy with rfl | rfl <;> assumption
  · have hw0 : w 0 = 0 := hw 0 (by simp [functionSpace])
    have hwN : w N = 0 := hw N (by simp [functionSpace])
    have hlen : (functionSpace (line x N) [0, N]).elements.length = N := by simp [functionSpace, line_length]
    have key : ∀ e : Fin (functionSpace (line x N) [0, N]).elements.length,
        elementForm (functionSpace (line x N) [0, N]) (poisson rule f (line x N)) e w U -
          elementLoad (functionSpace (line x N) [0, N]) (poisson rule f (line x N)) e w =
        w (e.val + 1) * G (e.val + 1) - w e.val * G e.val := by
      intro e
      have he : e.val < List.length (line x N) := by rw [line_length]; have := e.isLt; omega
      have he' : e.val < N := by have := e.isLt; omega
      rw [elementForm_poisson rule f _ _ e he, elementLoad_poisson rule f _ _ e he, line_get]
      have hpos : x (e.val + 1) - x e.val ≠ 0 := by have := hx e.val he'; intro h; linarith
      have hK : ∀ a b, gradGrad rule (segment x e.val) a b = (if a = b then 1 else -1) / (x (e.val + 1) - x e.val) := by
        intro a b
        rw [segment, gradGrad_seg1 rule _ (by rw [length_segment]; exact hpos), hr.total, length_segment, one_mul]
      obtain ⟨l0, l1⟩ := hl e.val he'
      simp only [Fin.sum_univ_two, hK, l0, l1, slope]
      simp
      field_simp
      ring
    rw [← sub_eq_zero, form, load, ← Finset.sum_sub_distrib, Finset.sum_congr rfl fun e _ => key e]
    rw [sum_telescope fun i => w i * G i, hlen, hwN, hw0]
    ring

/-- **C79.**  The computed values are those of `U`. -/
theorem nodal_solved {solver : Nat → (Nat → Nat → ℝ) → (Nat → ℝ) → Nat → ℝ} (hs : Exact solver) {rule : Rule 1} (hr : Averages rule)
    {f : Val (.vec 1) → ℝ} {x : Nat → ℝ} {N : Nat}
    (hx : ∀ i < N, x i < x (i + 1)) (U G : Nat → ℝ) (h0 : U 0 = 0) (hN : U N = 0)
    (hl : ∀ i < N, sourceTerm f rule (segment x i) 0 = G i - slope x U i ∧
      sourceTerm f rule (segment x i) 1 = slope x U i - G (i + 1)) (k : Nat) (hpos : 0 < N) :
    ∃ S, solveTimes solver (poisson rule f (line x N)) (k + 1) (create (functionSpace (line x N) [0, N])) = some S ∧
      ∀ i ≤ N, get S.field i = some (U i) := by
  obtain ⟨S, u, h1, h2, _, h4⟩ := poisson_solved hs (f := f) (line_stiff hr hx) (line_anchored x N) k
  have hg := nodal_galerkin hr hx U G h0 hN hl
  have hu : ∀ i < N, get S.field i = some (U i) ∧ get S.field (i + 1) = some (U (i + 1)) := by
    intro i hi
    have hm : (segment x i, ![i, i + 1]) ∈ line x N := List.mem_map.mpr ⟨i, List.mem_range.mpr hi, rfl⟩
    have a0 := h2 _ hm 0
    have a1 := h2 _ hm 1
    have b0 := h4 U hg _ hm 0
    have b1 := h4 U hg _ hm 1
    simp only [Matrix.cons_val_zero, Matrix.cons_val_one] at a0 a1 b0 b1
    rw [a0, a1, b0, b1]
    exact ⟨rfl, rfl⟩
  refine ⟨S, h1, fun i hi => ?_⟩
  rcases i with _ | i
  · exact (hu 0 hpos).1
  · exact (hu i (by omega)).2

/-- **C79.**  Whenever the elementary loads are integrated exactly, the computed values are those of the exact solution of
`-U'' = f` with zero boundary values, whatever the mesh. -/
theorem nodal_exactness {solver : Nat → (Nat → Nat → ℝ) → (Nat → ℝ) → Nat → ℝ} (hs : Exact solver) {rule : Rule 1} (hr : Averages rule)
    {f : ℝ → ℝ} {x : Nat → ℝ} {N : Nat} (hx : ∀ i < N, x i < x (i + 1)) (hpos : 0 < N) (k : Nat)
    {U U' : ℝ → ℝ} (hU : ∀ t, HasDerivAt U (U' t) t) (hU' : ∀ t, HasDerivAt U' (-f t) t) (hf : Continuous f)
    (h0 : U (x 0) = 0) (hN : U (x N) = 0)
    (hl : ∀ i < N,
      sourceTerm (fun y => f (y 0)) rule (segment x i) 0 = ∫ t in x i..x (i + 1), (x (i + 1) - t) / (x (i + 1) - x i) * f t ∧
      sourceTerm (fun y => f (y 0)) rule (segment x i) 1 = ∫ t in x i..x (i + 1), (t - x i) / (x (i + 1) - x i) * f t) :
    ∃ S, solveTimes solver (poisson rule (fun y => f (y 0)) (line x N)) (k + 1) (create (functionSpace (line x N) [0, N])) = some S ∧
      ∀ i ≤ N, get S.field i = some (U (x i)) := by
  have hcU' : Continuous U' := continuous_iff_continuousAt.mpr fun t => (hU' t).continuousAt
  have parts : ∀ (a b c m : ℝ), (∫ t in a..b, (c + m * t) * f t) =
      (c + m * a) * U' a - (c + m * b) * U' b + m * (U b - U a) := by
    intro a b c m
    have h1 : (∫ t in a..b, (c + m * t) * (-f t)) =
        (c + m * b) * U' b - (c + m * a) * U' a - ∫ t in a..b, m * U' t := by
      refine intervalIntegral.integral_mul_deriv_eq_deriv_mul (u := fun t => c + m * t) (u' := fun _ => m) (fun t _ => ?_)
        (fun t _ => hU' t) (continuous_const.intervalIntegrable _ _) (hf.neg.intervalIntegrable _ _)
      simpa using ((hasDerivAt_id t).const_mul m).const_add c
    have h2 : (∫ t in a..b, U' t) = U b - U a :=
      intervalIntegral.integral_eq_sub_of_hasDerivAt (fun t _ => hU t) (hcU'.intervalIntegrable _ _)
    rw [intervalIntegral.integral_const_mul, h2] at h1
    have h3 : (∫ t in a..b, (c + m * t) * (-f t)) = -∫ t in a..b, (c + m * t) * f t := by
      rw [← intervalIntegral.integral_neg]
      simp only [mul_neg]
    rw [h3] at h1
    linarith
  refine nodal_solved hs hr hx (fun i => U (x i)) (fun i => U' (x i)) h0 hN (fun i hi => ?_) k hpos
  have hne : x (i + 1) - x i ≠ 0 := by have := hx i hi; intro h; linarith
  obtain ⟨l0, l1⟩ := hl i hi
  rw [l0, l1]
  have e0 : (∫ t in x i..x (i + 1), (x (i + 1) - t) / (x (i + 1) - x i) * f t) =
      ∫ t in x i..x (i + 1), (x (i + 1) / (x (i + 1) - x i) + (-1 / (x (i + 1) - x i)) * t) * f t := by
    congr 1; funext t; ring
  have e1 : (∫ t in x i..x (i + 1), (t - x i) / (x (i + 1) - x i) * f t) =
      ∫ t in x i..x (i + 1), (-x i / (x (i + 1) - x i) + (1 / (x (i + 1) - x i)) * t) * f t := by
    congr 1; funext t; ring
  rw [e0, e1, parts, parts]
  simp only [slope]
  constructor <;> field_simp <;> ring

theorem sourceTerm_seg1 (f : ℝ → ℝ) (rule : Rule 1) (x : Nat → ℝ) (i : Nat) :
    sourceTerm (fun y => f (y 0)) rule (segment x i) 0 =
      (rule.map fun p => p.2 * (x (i + 1) - x i) * f (x i + (x (i + 1) - x i) * p.1 0) * (1 - p.1 0)).sum ∧
    sourceTerm (fun y => f (y 0)) rule (segment x i) 1 =
      (rule.map fun p => p.2 * (x (i + 1) - x i) * f (x i + (x (i + 1) - x i) * p.1 0) * p.1 0).sum := by
  have hp : ∀ ξ, (segment x i).parametrization.eval ξ 0 = x i + (x (i + 1) - x i) * ξ 0 := by
    intro ξ
    obtain ⟨h0, h1⟩ := seg1_eval ξ
    simp only [segment, segP1, Expr.eval, Fin.sum_univ_two]
    simp [mul, h0, h1]
    ring
  have hfac : ∀ p : Val (.vec 1) × ℝ, factor (segment x i) p = p.2 * (x (i + 1) - x i) := by
    intro p
    rw [factor, segment, seg1_detJ, length_segment]
    simp [area]
  simp only [sourceTerm_sum, hp, hfac]
  constructor
  · refine congrArg List.sum (List.map_congr_left fun p _ => ?_)
    rw [show ((segment x i).shape 0).eval p.1 () = 1 - p.1 0 from (seg1_eval p.1).1]
  · refine congrArg List.sum (List.map_congr_left fun p _ => ?_)
    rw [show ((segment x i).shape 1).eval p.1 () = p.1 0 from (seg1_eval p.1).2]

/-- **C79.**  For a constant source, every rule with the midpoint as its centroid will do. -/
theorem nodal_constant {solver : Nat → (Nat → Nat → ℝ) → (Nat → ℝ) → Nat → ℝ} (hs : Exact solver) {rule : Rule 1} (hr : Averages rule)
    (hm : (rule.map fun p => p.2 * p.1 0).sum = 1 / 2) (f : ℝ) {x : Nat → ℝ} {N : Nat} (hx : ∀ i < N, x i < x (i + 1)) (hpos : 0 < N)
    (k : Nat) :
    ∃ S, solveTimes solver (poisson rule (fun _ => f) (line x N)) (k + 1) (create (functionSpace (line x N) [0, N])) = some S ∧
      ∀ i ≤ N, get S.field i = some (f / 2 * (x i - x 0) * (x N - x i)) := by
  refine nodal_solved hs hr hx (fun i => f / 2 * (x i - x 0) * (x N - x i)) (fun i => f / 2 * (x 0 + x N - 2 * x i))
    (by ring) (by ring) (fun i hi => ?_) k hpos
  have hne : x (i + 1) - x i ≠ 0 := by have := hx i hi; intro h; linarith
  obtain ⟨l0, l1⟩ := sourceTerm_seg1 (fun _ => f) rule x i
  have s1 : (rule.map fun p => p.2 * (x (i + 1) - x i) * f * p.1 0).sum = (x (i + 1) - x i) * f * (1 / 2) := by
    rw [← hm, ← List.sum_map_mul_left]
    congr 2; funext p; ring
  have s0 : (rule.map fun p => p.2 * (x (i + 1) - x i) * f * (1 - p.1 0)).sum = (x (i + 1) - x i) * f * (1 / 2) := by
    have : (fun p : Val (.vec 1) × ℝ => p.2 * (x (i + 1) - x i) * f * (1 - p.1 0)) =
        fun p => (x (i + 1) - x i) * f * p.2 + -((x (i + 1) - x i) * f) * (p.2 * p.1 0) := by funext p; ring
    rw [this, List.sum_map_add, List.sum_map_mul_left, List.sum_map_mul_left, hr.total, hm]
    ring
  rw [l0, l1, s0, s1]
  simp only [slope]
  constructor <;> field_simp <;> try ring

/-- the rules of mito for segments satisfy the hypotheses -/
theorem segment_rules :
    (Averages Quadrature.segment1.rule ∧ ((Quadrature.segment1.rule : Rule 1).map fun p => p.2 * p.1 0).sum = 1 / 2) ∧
    (Averages Quadrature.segment2.rule ∧ ((Quadrature.segment2.rule : Rule 1).map fun p => p.2 * p.1 0).sum = 1 / 2) := by
  refine ⟨⟨⟨?_, ?_⟩, ?_⟩, ⟨?_, ?_⟩, ?_⟩ <;>
    simp [Quadrature.Table.rule, Quadrature.segment1, Quadrature.segment2] <;> norm_num

/-- segments of lengths 1, 3, 5, … with source 2: the value at `x = 1` -/
example {solver : Nat → (Nat → Nat → ℝ) → (Nat → ℝ) → Nat → ℝ} (hs : Exact solver) :
    ∃ S, solveTimes solver (poisson Quadrature.segment1.rule (fun _ => 2) (line (fun i => (i : ℝ) ^ 2) 3)) 1
      (create (functionSpace (line (fun i => (i : ℝ) ^ 2) 3) [0, 3])) = some S ∧ get S.field 1 = some 8 := by
  obtain ⟨S, h1, h2⟩ := nodal_constant hs segment_rules.1.1 segment_rules.1.2 2 (x := fun i => (i : ℝ) ^ 2) (N := 3)
    (fun i _ => by push_cast; nlinarith [Nat.cast_nonneg (α := ℝ) i]) (by norm_num) 0
  refine ⟨S, h1, (h2 1 (by norm_num)).trans ?_⟩
  norm_num

end Mito.Fem
