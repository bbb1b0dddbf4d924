import Verif.Fem.ConvergenceLemmas
import Verif.Props.PatchTest
import Verif.Props.RefineIntegral
import Verif.Props.Blocks
import Mathlib.Analysis.Calculus.MeanValue

/-!
# C90: convergence of the solutions of the Poisson problem

On meshes of linear triangles the solution of the discrete Poisson problem with the source of a twice continuously differentiable function
that vanishes on the boundary converges to that function as the triangles get smaller without degenerating.
-/

namespace Mito.Fem

open Mito.Functions Mito.Geometry Mito.Quadrature Mito.Meshes Mito.Topology Mito.Discretizer Mito.DiscreteSystem MeasureTheory

variable {t : Topo} {cells B : List GCell} {p : Id → Fin 2 → ℝ} {alloc : List Nat → Nat} {other : List Nat} {tb : Table 2}
  {u : (Fin 2 → ℝ) → ℝ}

theorem hull_box {x : Fin 3 → Fin 2 → ℝ} {R : ℝ} (hR : 0 ≤ R) (h : ∀ a k, |x a k| ≤ R) : hull x ⊆ Metric.closedBall 0 R := by
  refine convexHull_min ?_ (convex_closedBall 0 R)
  rintro _ ⟨a, rfl⟩
  rw [mem_closedBall_zero_iff, pi_norm_le_iff_of_nonneg hR]
  exact fun k => by rw [Real.norm_eq_abs]; exact h a k

/-- what the estimates need of the rule -/
theorem rule_usable (ht : Inside tb) (hsum : (tb.map Prod.snd).sum = 1) :
    (∀ q ∈ tb.rule, 0 ≤ q.2) ∧ ∃ q ∈ tb.rule, 0 < q.2 := by
  have h : ∀ q ∈ tb.rule, 0 < q.2 := fun q hq => (rule_mem (n := 1) ht q hq).1
  refine ⟨fun q hq => (h q hq).le, ?_⟩
  match hr : tb.rule with
  | [] =>
    have := rule_sum (n := 1) hsum
    rw [hr] at this
    simp at this
  | q :: l => exact ⟨q, by simp, h q (by simp [hr])⟩

/-- the discrete solution, its energy and its square on the triangles -/
theorem poisson_estimates (h : Triangulates t cells B p) {r κ R : ℝ} (hf : Fine cells p r κ R) (hR0 : 0 < R)
    (ha : ∀ l, alloc l ∉ l) (ho : other.Nodup) (ht : Inside tb) (hsum : (tb.map Prod.snd).sum = 1) (hu : ContDiff ℝ 2 u)
    (hu0 : Vanishes B p u) {δ ε F : ℝ}
    (hδ : ∀ k, ∀ y ∈ Metric.closedBall 0 R, ∀ z ∈ Metric.closedBall 0 R, dist y z ≤ r → |partial2 u k y - partial2 u k z| ≤ δ)
    (hε : ∀ y ∈ Metric.closedBall 0 R, ∀ z ∈ Metric.closedBall 0 R, dist y z ≤ r → |sourceOf u y - sourceOf u z| ≤ ε)
    (hF : ∀ y ∈ Metric.closedBall 0 R, |sourceOf u y| ≤ F) :
    ∃ space l, discretizeTri1 alloc other p cells B = .ok (space, l) ∧ ∀ solver, Exact solver → ∀ k, ∃ S U,
      solveTimes solver (poisson tb.rule (sourceOf u) space) (k + 1) (create (functionSpace space l)) = some S ∧
      (∀ ec ∈ space, ∀ a, Assoc.get S.field (ec.2 a) = some (U (ec.2 a))) ∧
      errorSquare space U u ≤ areaOf cells p * h1Bound (2 * κ * δ) ε F R r ∧
      ∀ ex : Expr (.vec 2) .scalar, (∀ y, ex.eval y () = u y) →
        l2Norm tb.rule space (.fem U) (.field ex) ^ 2 ≤ areaOf cells p * l2Bound (2 * κ * δ) ε F R r := by
  obtain ⟨m, s, known, t', hm, hcl, hb⟩ := h.mesh
  have hB := boundary_nodes h.topology (by omega) hm hcl h.cell hb
  obtain ⟨hw1, hw2⟩ := rule_usable ht hsum
  obtain ⟨space, l, hok, hsol⟩ := dirichlet_tri1 h.topology hm hcl h.cell h.edges hb p h.positive h.nodes ha ho hw1 hw2
  refine ⟨space, l, hok, fun solver hx k => ?_⟩
  obtain ⟨-, hsol⟩ := hsol (sourceOf u)
  obtain ⟨S, U, h1, h2, h3, -⟩ := hsol solver hx k
  refine ⟨S, U, h1, h2, ?_⟩
  -- the space
  obtain ⟨φ, e1, e2, -, -, hinj⟩ := elementsP1_eq ha ho (cells.map ids)
  have e3 : constrainedP1 (elementsP1 alloc other [] (cells.map ids)).1 (B.flatMap ids) = .ok ((B.flatMap ids).map φ) := by
    refine constrainedP1_eq fun n hn => e2 n ?_
    obtain ⟨b, hb, hn⟩ := List.mem_flatMap.mp hn
    obtain ⟨x, hx, rfl⟩ := List.mem_map.mp hn
    obtain ⟨-, -, c, hc, hsub⟩ := hB b hb
    exact List.mem_flatten.mpr ⟨ids c, List.mem_map.mpr ⟨c, hc, rfl⟩, List.mem_map.mpr ⟨x, hsub x hx, rfl⟩⟩
  rw [List.map_map] at e1
  unfold discretizeTri1 at hok
  simp only [e1, e3, collect, Outcome.ok.injEq, Prod.mk.injEq] at hok
  have e4 := spaceOf_map (fun c => triP1 (positions 3 p c)) cells (fun c => (ids c).map φ)
  obtain ⟨rfl, rfl⟩ : cells.map (fun c => (triP1 (positions 3 p c), fun a : Fin 3 => ((ids c).map φ).getD a 0)) = space ∧
      (B.flatMap ids).map φ = l := ⟨e4.symm.trans hok.1, hok.2⟩
  -- the bounds on the cells
  have hrr : ∀ c ∈ cells, ∀ a b, dist (positions 3 p c a) (positions 3 p c b) ≤ r := fun c hc a b => by
    obtain ⟨⟨rc, hrc, h4, -⟩, -⟩ := hf c hc
    exact (h4 a b).trans hrc
  have hbox : ∀ c ∈ cells, ∀ y ∈ hull (positions 3 p c), y ∈ Metric.closedBall 0 R := fun c hc y hy => hull_box hR0.le (hf c hc).2 hy
  have he : ∀ c ∈ cells, ∀ k, ∀ y ∈ hull (positions 3 p c),
      |slope2 (positions 3 p c) (fun b => u (positions 3 p c b)) k - partial2 u k y| ≤ 2 * κ * δ := by
    intro c hc k y hy
    obtain ⟨⟨rc, hrc, h4, h5⟩, -⟩ := hf c hc
    refine slope_error (hu.differentiable two_ne_zero) (positions_area h hc) h4 h5 (fun k y hy z hz => ?_) hy k
    exact hδ k y (hbox c hc y hy) z (hbox c hc z hz) (hull_dist (hrr c hc) hy hz)
  have hgal := galerkin_error h (φ := φ) (fun c hc c' hc' x hx y hy hxy => hinj _ (List.mem_flatten.mpr
        ⟨ids c, List.mem_map.mpr ⟨c, hc, rfl⟩, List.mem_map.mpr ⟨x, hx, rfl⟩⟩) _ (List.mem_flatten.mpr
        ⟨ids c', List.mem_map.mpr ⟨c', hc', rfl⟩, List.mem_map.mpr ⟨y, hy, rfl⟩⟩) hxy) ht hsum hu hu0 hrr he
    (fun c hc y hy z hz => hε y (hbox c hc y hy) z (hbox c hc z hz) (hull_dist (hrr c hc) hy hz))
    (fun c hc y hy => hF y (hbox c hc y hy)) hR0
    (fun c hc y hy => by
      have := mem_closedBall_zero_iff.mp (hbox c hc y hy)
      exact (norm_le_pi_norm y 0).trans this) h3
  obtain ⟨g1, g2⟩ := hgal
  set E := (cells.map fun c => triangleArea (positions 3 p c) *
        ∑ k, slope2 (positions 3 p c) (fun a => onCell φ U c a - u (positions 3 p c a)) k ^ 2).sum
  set N := (cells.map fun c => ∫ y in hull (positions 3 p c),
        linear (positions 3 p c) (fun a => onCell φ U c a - u (positions 3 p c a)) y ^ 2).sum
  set A := areaOf cells p with hA
  set X := energyBound (2 * κ * δ) ε F R r
  have g1 : E ≤ A * X := g1
  constructor
  · have h6 : errorSquare (cells.map fun c => (triP1 (positions 3 p c), fun a : Fin 3 => ((ids c).map φ).getD a 0)) U u ≤
        2 * N + 2 * E + A * (8 * (2 * κ * δ) ^ 2 * r ^ 2 + 4 * (2 * κ * δ) ^ 2) := by
      unfold errorSquare
      rw [List.map_map]
      refine (list_le cells fun c hc => ?_).trans (le_of_eq ?_) (b := (cells.map fun c =>
        2 * (∫ y in hull (positions 3 p c), linear (positions 3 p c) (fun a => onCell φ U c a - u (positions 3 p c a)) y ^ 2) +
        2 * (triangleArea (positions 3 p c) * ∑ k, slope2 (positions 3 p c) (fun a => onCell φ U c a - u (positions 3 p c a)) k ^ 2) +
        triangleArea (positions 3 p c) * (8 * (2 * κ * δ) ^ 2 * r ^ 2 + 4 * (2 * κ * δ) ^ 2)).sum)
      · have := hull_error (positions 3 p c) (positions_area h hc) (onCell φ U c) u
        exact this.le.trans (hull_error_le (positions_area h hc) (onCell φ U c) hu (hrr c hc) (he c hc))
      · rw [list_add, list_add, List.sum_map_mul_left, List.sum_map_mul_left, List.sum_map_mul_right]
        rfl
    refine h6.trans ?_
    have : h1Bound (2 * κ * δ) ε F R r = 4 * (2 * κ * δ) ^ 2 + 8 * (2 * κ * δ) ^ 2 * r ^ 2 + (2 + 8 * R ^ 2) * X := rfl
    rw [this]
    have h7 := mul_le_mul_of_nonneg_left g1 (show (0 : ℝ) ≤ 2 + 8 * R ^ 2 by positivity)
    nlinarith
  · intro ex hex
    have h6 : l2Norm tb.rule (cells.map fun c => (triP1 (positions 3 p c), fun a : Fin 3 => ((ids c).map φ).getD a 0)) (.fem U)
        (.field ex) ^ 2 ≤ 4 * N + 8 * r ^ 2 * E + A * (8 * (2 * κ * δ) ^ 2 * r ^ 2) := by
      rw [l2Norm_eq, Real.sq_sqrt]
      · rw [List.map_map]
        refine (list_le cells fun c hc => ?_).trans (le_of_eq ?_) (b := (cells.map fun c =>
          4 * (∫ y in hull (positions 3 p c), linear (positions 3 p c) (fun a => onCell φ U c a - u (positions 3 p c a)) y ^ 2) +
          8 * r ^ 2 * (triangleArea (positions 3 p c) * ∑ k, slope2 (positions 3 p c) (fun a => onCell φ U c a - u (positions 3 p c a)) k ^ 2) +
          triangleArea (positions 3 p c) * (8 * (2 * κ * δ) ^ 2 * r ^ 2)).sum)
        · have := rule_error_le ht hsum (positions_area h hc) (onCell φ U c) hu (hrr c hc) (he c hc)
          refine le_of_eq_of_le (congrArg List.sum (List.map_congr_left fun q _ => ?_)) this
          rw [localize_fem, localize_field, hex]
          rfl
        · rw [list_add, list_add, List.sum_map_mul_left, List.sum_map_mul_left, List.sum_map_mul_right]
          rfl
      · refine List.sum_nonneg fun y hy => ?_
        obtain ⟨ec, hec, rfl⟩ := List.mem_map.mp hy
        obtain ⟨c, hc, rfl⟩ := List.mem_map.mp hec
        refine List.sum_nonneg fun y hy => ?_
        obtain ⟨q, hq, rfl⟩ := List.mem_map.mp hy
        refine mul_nonneg ?_ (sq_nonneg _)
        rw [factor, tri1_detJ]
        have := positions_area h hc
        have h9 : (0 : ℝ) ≤ Geometry.area 2 := by simp [Geometry.area]
        have h10 := hw1 q hq
        positivity
    refine h6.trans ?_
    have : l2Bound (2 * κ * δ) ε F R r = 8 * (2 * κ * δ) ^ 2 * r ^ 2 + (16 * R ^ 2 + 8 * r ^ 2) * X := rfl
    rw [this]
    have h7 := mul_le_mul_of_nonneg_left g1 (show (0 : ℝ) ≤ 16 * R ^ 2 + 8 * r ^ 2 by positivity)
    nlinarith

/-- **C90.**  The error of the discrete solution in the H1 norm, in terms of the variations of the gradient of `u` and of the source over
distances up to the size of the triangles. -/
theorem poisson_error (h : Triangulates t cells B p) {r κ R : ℝ} (hf : Fine cells p r κ R) (hR0 : 0 < R)
    (ha : ∀ l, alloc l ∉ l) (ho : other.Nodup) (ht : Inside tb) (hsum : (tb.map Prod.snd).sum = 1) (hu : ContDiff ℝ 2 u)
    (hu0 : Vanishes B p u) {δ ε F : ℝ}
    (hδ : ∀ k, ∀ y ∈ Metric.closedBall 0 R, ∀ z ∈ Metric.closedBall 0 R, dist y z ≤ r → |partial2 u k y - partial2 u k z| ≤ δ)
    (hε : ∀ y ∈ Metric.closedBall 0 R, ∀ z ∈ Metric.closedBall 0 R, dist y z ≤ r → |sourceOf u y - sourceOf u z| ≤ ε)
    (hF : ∀ y ∈ Metric.closedBall 0 R, |sourceOf u y| ≤ F) :
    SolvesWithin tb.rule (sourceOf u) u (areaOf cells p * h1Bound (2 * κ * δ) ε F R r) (discretizeTri1 alloc other p cells B) := by
  obtain ⟨space, l, h1, h2⟩ := poisson_estimates h hf hR0 ha ho ht hsum hu hu0 hδ hε hF
  refine ⟨space, l, h1, fun solver hs k => ?_⟩
  obtain ⟨S, U, h3, h4, h5, -⟩ := h2 solver hs k
  exact ⟨S, U, h3, h4, h5⟩

/-- **C90.**  The same for the L2 norm that the code computes. -/
theorem poisson_error_l2 (h : Triangulates t cells B p) {r κ R : ℝ} (hf : Fine cells p r κ R) (hR0 : 0 < R)
    (ha : ∀ l, alloc l ∉ l) (ho : other.Nodup) (ht : Inside tb) (hsum : (tb.map Prod.snd).sum = 1) (ex : Expr (.vec 2) .scalar)
    (hu : ContDiff ℝ 2 fun y => ex.eval y ()) (hu0 : Vanishes B p fun y => ex.eval y ()) {δ ε F : ℝ}
    (hδ : ∀ k, ∀ y ∈ Metric.closedBall 0 R, ∀ z ∈ Metric.closedBall 0 R, dist y z ≤ r →
      |partial2 (fun y => ex.eval y ()) k y - partial2 (fun y => ex.eval y ()) k z| ≤ δ)
    (hε : ∀ y ∈ Metric.closedBall 0 R, ∀ z ∈ Metric.closedBall 0 R, dist y z ≤ r →
      |sourceOf (fun y => ex.eval y ()) y - sourceOf (fun y => ex.eval y ()) z| ≤ ε)
    (hF : ∀ y ∈ Metric.closedBall 0 R, |sourceOf (fun y => ex.eval y ()) y| ≤ F) :
    SolvesWithinL2 tb.rule (sourceOf fun y => ex.eval y ()) ex (areaOf cells p * l2Bound (2 * κ * δ) ε F R r)
      (discretizeTri1 alloc other p cells B) := by
  obtain ⟨space, l, h1, h2⟩ := poisson_estimates h hf hR0 ha ho ht hsum hu hu0 hδ hε hF
  refine ⟨space, l, h1, fun solver hs k => ?_⟩
  obtain ⟨S, U, h3, h4, -, h5⟩ := h2 solver hs k
  exact ⟨S, U, h3, h4, h5 ex fun _ => rfl⟩

/-! ## Convergence -/

/-- continuously differentiable functions are Lipschitz continuous on balls -/
theorem lipschitz_ball {g : (Fin 2 → ℝ) → ℝ} (hg : ContDiff ℝ 1 g) (R : ℝ) :
    ∃ M, 0 ≤ M ∧ ∀ y ∈ Metric.closedBall 0 R, ∀ z ∈ Metric.closedBall 0 R, |g y - g z| ≤ M * dist y z := by
  obtain ⟨M, hM⟩ := (isCompact_closedBall (0 : Fin 2 → ℝ) R).exists_bound_of_continuousOn (hg.continuous_fderiv one_ne_zero).continuousOn
  refine ⟨max M 0, le_max_right _ _, fun y hy z hz => ?_⟩
  have := (convex_closedBall (0 : Fin 2 → ℝ) R).norm_image_sub_le_of_norm_fderiv_le (𝕜 := ℝ)
    (fun x _ => (hg.differentiable one_ne_zero) x) (fun x hx => (hM x hx).trans (le_max_left _ 0)) hz hy
  rwa [Real.norm_eq_abs, ← dist_eq_norm] at this

theorem bounded_ball {g : (Fin 2 → ℝ) → ℝ} (hg : Continuous g) (R : ℝ) : ∃ M, 0 ≤ M ∧ ∀ y ∈ Metric.closedBall 0 R, |g y| ≤ M := by
  obtain ⟨M, hM⟩ := (isCompact_closedBall (0 : Fin 2 → ℝ) R).exists_bound_of_continuousOn hg.continuousOn
  exact ⟨max M 0, le_max_right _ _, fun y hy => (hM y hy).trans (le_max_left _ _)⟩

theorem gradient_lipschitz (hu : ContDiff ℝ 2 u) (R : ℝ) :
    ∃ M, 0 ≤ M ∧ ∀ k, ∀ y ∈ Metric.closedBall 0 R, ∀ z ∈ Metric.closedBall 0 R, |partial2 u k y - partial2 u k z| ≤ M * dist y z := by
  obtain ⟨M0, h0, h1⟩ := lipschitz_ball (partial_contDiff hu 0) R
  obtain ⟨M1, h2, h3⟩ := lipschitz_ball (partial_contDiff hu 1) R
  refine ⟨M0 + M1, add_nonneg h0 h2, fun k y hy z hz => ?_⟩
  have hd : 0 ≤ dist y z := dist_nonneg
  fin_cases k
  · exact (h1 y hy z hz).trans (mul_le_mul_of_nonneg_right (by linarith) hd)
  · exact (h3 y hy z hz).trans (mul_le_mul_of_nonneg_right (by linarith) hd)

theorem source_smooth (hu : ContDiff ℝ 3 u) : ContDiff ℝ 1 (sourceOf u) := by
  have h1 : ∀ k, ContDiff ℝ 2 (partial2 u k) := fun k => by
    unfold partial2
    exact (hu.fderiv_right (m := 2) (by norm_num)).clm_apply contDiff_const
  unfold sourceOf
  exact (ContDiff.sum fun k _ => partial_contDiff (h1 k) k).neg

theorem energyBound_order {e ε F R h : ℝ} (hF : 0 ≤ F) (he : 0 ≤ e) (hε : 0 ≤ ε) (h0 : 0 ≤ h) (h1 : h ≤ 1) :
    energyBound (e * h) (ε * h) F R h ≤ (4 * (e + (F + ε)) ^ 2 + 8 * R ^ 2 * ε ^ 2) * h ^ 2 := by
  unfold energyBound
  have h2 : (e * h + (F + ε * h) * h) ^ 2 ≤ ((e + (F + ε)) * h) ^ 2 := by
    refine pow_le_pow_left₀ (by positivity) ?_ 2
    nlinarith [mul_le_mul_of_nonneg_left h1 (mul_nonneg hε h0)]
  nlinarith

/-- **C90.**  For three times continuously differentiable functions the order of convergence in the H1 norm is one: the square of the error
is at most a constant times the area and the square of the size of the triangles, where the constant only depends on the function, on the
shape of the triangles and on the size of the domain. -/
theorem poisson_order (ht : Inside tb) (hsum : (tb.map Prod.snd).sum = 1) (hu : ContDiff ℝ 3 u) {κ R : ℝ} (hκ : 0 ≤ κ) (hR : 0 < R) :
    ∃ C, ∀ (t : Topo) (cells B : List GCell) (p : Id → Val (.vec 2)) (alloc : List Nat → Nat) (other : List Nat) (h : ℝ),
      Triangulates t cells B p → Fine cells p h κ R → 0 ≤ h → h ≤ 1 → Vanishes B p u → (∀ l, alloc l ∉ l) → other.Nodup →
      SolvesWithin tb.rule (sourceOf u) u (C * areaOf cells p * h ^ 2) (discretizeTri1 alloc other p cells B) := by
  have hu2 : ContDiff ℝ 2 u := hu.of_le (by norm_num)
  obtain ⟨M, hM, h1⟩ := gradient_lipschitz hu2 R
  obtain ⟨N, hN, h2⟩ := lipschitz_ball (source_smooth hu) R
  obtain ⟨F, hF, h3⟩ := bounded_ball (source_continuous hu2) R
  obtain ⟨C, hC⟩ : ∃ C, C = 12 * (2 * κ * M) ^ 2 + (2 + 8 * R ^ 2) * (4 * (2 * κ * M + (F + N)) ^ 2 + 8 * R ^ 2 * N ^ 2) := ⟨_, rfl⟩
  refine ⟨C, ?_⟩
  intro t cells B p alloc other h htri hf hh0 hh1 hv ha ho
  obtain ⟨space, l, h4, h5⟩ := poisson_error htri hf hR ha ho ht hsum hu2 hv (δ := M * h) (ε := N * h) (F := F)
    (fun k y hy z hz hd => (h1 k y hy z hz).trans (mul_le_mul_of_nonneg_left hd hM))
    (fun y hy z hz hd => (h2 y hy z hz).trans (mul_le_mul_of_nonneg_left hd hN)) h3
  refine ⟨space, l, h4, fun solver hs k => ?_⟩
  obtain ⟨S, U, h6, h7, h8⟩ := h5 solver hs k
  refine ⟨S, U, h6, h7, h8.trans ?_⟩
  have hA : 0 ≤ areaOf cells p := List.sum_nonneg fun y hy => by
    obtain ⟨c, hc, rfl⟩ := List.mem_map.mp hy
    exact (positions_area htri hc).le
  have he : (0 : ℝ) ≤ 2 * κ * M := by positivity
  have hb := energyBound_order (R := R) hF he hN hh0 hh1
  rw [show 2 * κ * (M * h) = 2 * κ * M * h by ring, mul_assoc C, mul_left_comm C]
  refine mul_le_mul_of_nonneg_left ?_ hA
  rw [hC]
  unfold h1Bound
  have hb' := mul_le_mul_of_nonneg_left hb (show (0 : ℝ) ≤ 2 + 8 * R ^ 2 by positivity)
  have hsq : h ^ 2 ≤ 1 := pow_le_one₀ hh0 hh1
  have hq : (2 * κ * M * h) ^ 2 * h ^ 2 ≤ (2 * κ * M * h) ^ 2 := mul_le_of_le_one_right (sq_nonneg _) hsq
  nlinarith

/-- **C90.**  The same for the L2 norm that the code computes. -/
theorem poisson_order_l2 (ht : Inside tb) (hsum : (tb.map Prod.snd).sum = 1) (ex : Expr (.vec 2) .scalar)
    (hu : ContDiff ℝ 3 fun y => ex.eval y ()) {κ R : ℝ} (hκ : 0 ≤ κ) (hR : 0 < R) :
    ∃ C, ∀ (t : Topo) (cells B : List GCell) (p : Id → Val (.vec 2)) (alloc : List Nat → Nat) (other : List Nat) (h : ℝ),
      Triangulates t cells B p → Fine cells p h κ R → 0 ≤ h → h ≤ 1 → Vanishes B p (fun y => ex.eval y ()) → (∀ l, alloc l ∉ l) →
      other.Nodup →
      SolvesWithinL2 tb.rule (sourceOf fun y => ex.eval y ()) ex (C * areaOf cells p * h ^ 2) (discretizeTri1 alloc other p cells B) := by
  have hu2 : ContDiff ℝ 2 fun y => ex.eval y () := hu.of_le (by norm_num)
  obtain ⟨M, hM, h1⟩ := gradient_lipschitz hu2 R
  obtain ⟨N, hN, h2⟩ := lipschitz_ball (source_smooth hu) R
  obtain ⟨F, hF, h3⟩ := bounded_ball (source_continuous hu2) R
  obtain ⟨C, hC⟩ : ∃ C, C = 8 * (2 * κ * M) ^ 2 + (16 * R ^ 2 + 8) * (4 * (2 * κ * M + (F + N)) ^ 2 + 8 * R ^ 2 * N ^ 2) := ⟨_, rfl⟩
  refine ⟨C, ?_⟩
  intro t cells B p alloc other h htri hf hh0 hh1 hv ha ho
  obtain ⟨space, l, h4, h5⟩ := poisson_error_l2 htri hf hR ha ho ht hsum ex hu2 hv (δ := M * h) (ε := N * h) (F := F)
    (fun k y hy z hz hd => (h1 k y hy z hz).trans (mul_le_mul_of_nonneg_left hd hM))
    (fun y hy z hz hd => (h2 y hy z hz).trans (mul_le_mul_of_nonneg_left hd hN)) h3
  refine ⟨space, l, h4, fun solver hs k => ?_⟩
  obtain ⟨S, U, h6, h7, h8⟩ := h5 solver hs k
  refine ⟨S, U, h6, h7, h8.trans ?_⟩
  have hA : 0 ≤ areaOf cells p := List.sum_nonneg fun y hy => by
    obtain ⟨c, hc, rfl⟩ := List.mem_map.mp hy
    exact (positions_area htri hc).le
  have he : (0 : ℝ) ≤ 2 * κ * M := by positivity
  have hb := energyBound_order (R := R) hF he hN hh0 hh1
  rw [show 2 * κ * (M * h) = 2 * κ * M * h by ring, mul_assoc C, mul_left_comm C]
  refine mul_le_mul_of_nonneg_left ?_ hA
  rw [hC]
  unfold l2Bound
  have hsq : h ^ 2 ≤ 1 := pow_le_one₀ hh0 hh1
  have hq : (2 * κ * M * h) ^ 2 * h ^ 2 ≤ (2 * κ * M * h) ^ 2 := mul_le_of_le_one_right (sq_nonneg _) hsq
  have hE : 0 ≤ energyBound (2 * κ * M * h) (N * h) F R h := by unfold energyBound; positivity
  have hb' := mul_le_mul (show 16 * R ^ 2 + 8 * h ^ 2 ≤ 16 * R ^ 2 + 8 by linarith) hb hE (by positivity)
  nlinarith

/-- **C90.**  Convergence for twice continuously differentiable functions: the error is as small as required on all meshes of triangles that
are small enough and not degenerate. -/
theorem poisson_converges (ht : Inside tb) (hsum : (tb.map Prod.snd).sum = 1) (hu : ContDiff ℝ 2 u) {κ R V η : ℝ} (hκ : 0 ≤ κ) (hR : 0 < R)
    (hη : 0 < η) : ∃ h > 0, ∀ (t : Topo) (cells B : List GCell) (p : Id → Val (.vec 2)) (alloc : List Nat → Nat) (other : List Nat),
      Triangulates t cells B p → Fine cells p h κ R → areaOf cells p ≤ V → Vanishes B p u → (∀ l, alloc l ∉ l) → other.Nodup →
      SolvesWithin tb.rule (sourceOf u) u η (discretizeTri1 alloc other p cells B) := by
  obtain ⟨M, hM, h1⟩ := gradient_lipschitz hu R
  obtain ⟨F, hF, h3⟩ := bounded_ball (source_continuous hu) R
  -- the bound tends to zero with the size and the variation of the source
  have hlim : Filter.Tendsto (fun q : ℝ × ℝ => max V 0 * h1Bound (2 * κ * (M * q.1)) q.2 F R q.1) (nhds (0, 0)) (nhds 0) := by
    have hc : Continuous fun q : ℝ × ℝ => max V 0 * h1Bound (2 * κ * (M * q.1)) q.2 F R q.1 := by
      unfold h1Bound energyBound
      fun_prop
    have := hc.tendsto (0, 0)
    simpa [h1Bound, energyBound] using this
  obtain ⟨d, hd, hball⟩ := Metric.eventually_nhds_iff.mp (hlim.eventually (gt_mem_nhds hη))
  have huc := (isCompact_closedBall (0 : Fin 2 → ℝ) R).uniformContinuousOn_of_continuous (source_continuous hu).continuousOn
  rw [Metric.uniformContinuousOn_iff] at huc
  obtain ⟨r, hr, hr'⟩ := huc (d / 2) (by positivity)
  have hh : 0 < min (r / 2) (d / 2) := by positivity
  refine ⟨min (r / 2) (d / 2), hh, ?_⟩
  intro t cells B p alloc other htri hf hA hv ha ho
  obtain ⟨space, l, h4, h5⟩ := poisson_error htri hf hR ha ho ht hsum hu hv (δ := M * min (r / 2) (d / 2)) (ε := d / 2) (F := F)
    (fun k y hy z hz hd => (h1 k y hy z hz).trans (mul_le_mul_of_nonneg_left hd hM))
    (fun y hy z hz hd => (hr' y hy z hz (lt_of_le_of_lt (hd.trans (min_le_left _ _)) (by linarith))).le) h3
  refine ⟨space, l, h4, fun solver hs k => ?_⟩
  obtain ⟨S, U, h6, h7, h8⟩ := h5 solver hs k
  refine ⟨S, U, h6, h7, h8.trans ?_⟩
  have h9 := hball (y := (min (r / 2) (d / 2), d / 2)) (by
    rw [Prod.dist_eq]
    refine max_lt ?_ ?_
    · simp only [Real.dist_eq, sub_zero, abs_of_pos hh]
      exact lt_of_le_of_lt (min_le_right _ _) (by linarith)
    · simp only [Real.dist_eq, sub_zero]
      rw [abs_of_pos (by linarith)]
      linarith)
  refine le_trans (mul_le_mul_of_nonneg_right (hA.trans (le_max_left V 0)) ?_) h9.le
  unfold h1Bound energyBound
  positivity

/-! ## An example -/

/-- three triangles around the centre of the unit triangle -/
noncomputable def exUnitFan : Id → Val (.vec 2)
  | 0 => ![0, 0]
  | 1 => ![1, 0]
  | 2 => ![0, 1]
  | _ => ![1 / 3, 1 / 3]

theorem exUnitFan_positive : ∀ c ∈ exCellsFan, exFan.sg 2 c.simplex = 1 ∧ 0 < Meshes.area exUnitFan c.vertices := by
  have h : ∀ c ∈ exCellsFan, exFan.sg 2 c.simplex = 1 := by decide +kernel
  refine fun c hc => ⟨h c hc, ?_⟩
  have e : c.vertices = [0, 1, 3] ∨ c.vertices = [1, 2, 3] ∨ c.vertices = [2, 0, 3] := by
    revert c
    decide +kernel
  rcases e with e | e | e <;> rw [e, Meshes.area] <;>
  norm_num [Geometry.simplexVolume, exUnitFan, Matrix.det_fin_two, Nat.factorial]

/-- a function that vanishes on the sides of the unit triangle -/
def exBubble (y : Fin 2 → ℝ) : ℝ := y 0 * y 1 * (1 - y 0 - y 1)

theorem exUnitFan_boundary : ∃ B, Triangulates exFan exCellsFan B exUnitFan ∧ Fine exCellsFan exUnitFan 1 6 1 ∧
    ∀ b ∈ B, b.vertices ∈ [[0, 1], [1, 2], [2, 0]] := by
  obtain ⟨m, s, known, h1, h2, h3⟩ := exists_mesh exFan 1 exCellsFan
  have hb : (boundary exFan 1 m).map (fun r => r.2.map fun b => b.vertices) = some [[0, 1], [1, 2], [2, 0]] := by
    rw [boundary_congr (m' := exMeshOf exFan 1 exCellsFan) (by rw [h2]; decide +kernel) (by rw [h3]; rfl)]
    decide +kernel
  obtain ⟨⟨t', B⟩, hB, hv⟩ := Option.map_eq_some_iff.mp hb
  refine ⟨B, ⟨exFan_reachable, ⟨m, s, known, t', h1, h2, hB⟩, by decide +kernel, by decide +kernel, exUnitFan_positive,
    by unfold OneNode; decide +kernel, by decide +kernel⟩, ?_, ?_⟩
  · intro c hc
    have e : (c.nodes.map fun x => x.vertex) = [0, 1, 3] ∨ (c.nodes.map fun x => x.vertex) = [1, 2, 3] ∨
        (c.nodes.map fun x => x.vertex) = [2, 0, 3] := by
      revert c
      decide +kernel
    refine ⟨⟨1, le_rfl, fun a b => ?_, ?_⟩, fun a k => ?_⟩
    · rw [dist_pi_le_iff zero_le_one]
      intro k
      rw [Real.dist_eq, abs_le]
      rcases e with e | e | e <;> fin_cases a <;> fin_cases b <;> fin_cases k <;> norm_num [positions, e, exUnitFan]
    · rcases e with e | e | e <;> norm_num [triangleArea, positions, e, exUnitFan]
    · rw [abs_le]
      rcases e with e | e | e <;> fin_cases a <;> fin_cases k <;> norm_num [positions, e, exUnitFan]
  · intro b hb
    exact hv ▸ List.mem_map.mpr ⟨b, hb, rfl⟩

/-- the hypotheses hold for a mesh with a node off the boundary -/
theorem exUnitFan_triangulates : ∃ B, Triangulates exFan exCellsFan B exUnitFan ∧ Fine exCellsFan exUnitFan 1 6 1 ∧
    Vanishes B exUnitFan exBubble := by
  obtain ⟨B, h1, h2, h3⟩ := exUnitFan_boundary
  refine ⟨B, h1, h2, fun b hb x hx => ?_⟩
  have hm := h3 b hb
  have hx' : x.vertex ∈ b.vertices := List.mem_map.mpr ⟨x, hx, rfl⟩
  have : x.vertex = 0 ∨ x.vertex = 1 ∨ x.vertex = 2 := by
    simp only [List.mem_cons, List.not_mem_nil, or_false] at hm
    rcases hm with e | e | e <;> rw [e] at hx' <;> simp only [List.mem_cons, List.not_mem_nil, or_false] at hx' <;> tauto
  rcases this with e | e | e <;> simp [e, exBubble, exUnitFan]

theorem exBubble_smooth : ContDiff ℝ 3 exBubble := by
  unfold exBubble
  fun_prop

/-- the order of convergence with the midpoint rule of mito applies to that mesh -/
example : ∃ B C, Triangulates exFan exCellsFan B exUnitFan ∧
    SolvesWithin triangle1.rule (sourceOf exBubble) exBubble (C * areaOf exCellsFan exUnitFan)
      (discretizeTri1 exAlloc [] exUnitFan exCellsFan B) := by
  obtain ⟨B, h1, h2, h3⟩ := exUnitFan_triangulates
  obtain ⟨ht, hs⟩ := rules_converge.2.1 triangle1 (by simp)
  obtain ⟨C, hC⟩ := poisson_order ht hs exBubble_smooth (κ := 6) (R := 1) (by norm_num) one_pos
  refine ⟨B, C, h1, ?_⟩
  simpa using hC exFan exCellsFan B exUnitFan exAlloc [] 1 h1 h2 zero_le_one le_rfl h3 exAlloc_fresh List.nodup_nil

end Mito.Fem
