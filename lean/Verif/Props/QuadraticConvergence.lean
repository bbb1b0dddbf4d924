import Verif.Fem.QuadraticMeshLemmas

/-!
# C97: convergence of the solutions of the Poisson problem on quadratic triangles

On meshes of quadratic triangles and with a quadrature rule of degree two the order of convergence is two.
-/

namespace Mito.Fem

open Mito.Functions Mito.Geometry Mito.Quadrature Mito.Meshes Mito.Topology Mito.Discretizer Mito.DiscreteSystem MeasureTheory Quadratic

variable {tb : Table 2}

/-- the discrete solution and its errors on the triangles -/
theorem quadratic_estimates {t : Topo} {cells B : List GCell} {p : Id → Fin 2 → ℝ} {alloc : List Nat → Nat} {other : List Nat}
    (h : Triangulates t cells B p) {r κ R : ℝ} (hf : Fine cells p r κ R) (hκ : 0 ≤ κ) (hR0 : 0 < R) (hr0 : 0 ≤ r)
    (ha : ∀ l, alloc l ∉ l) (ho : other.Nodup) (ht : Inside tb) (hacc : Accurate mean2 tb 2 0) {u : (Fin 2 → ℝ) → ℝ} (hu : ContDiff ℝ 2 u)
    (hu0 : Vanishes2 B p u) {M N K : ℝ} (hM0 : 0 ≤ M) (hN0 : 0 ≤ N) (hK0 : 0 ≤ K)
    (hM : ∀ y ∈ Metric.closedBall 0 R, ∃ H, ∀ z ∈ Metric.closedBall 0 R,
      |u z - taylor y (u y) (fun k => partial2 u k y) H z| ≤ M * dist y z ^ 3)
    (hN : ∀ y ∈ Metric.closedBall 0 R, ∀ z ∈ Metric.closedBall 0 R, |sourceOf u y - sourceOf u z| ≤ N * dist y z)
    (hK : ∀ y ∈ Metric.closedBall 0 R, ∀ z ∈ Metric.closedBall 0 R,
      |sourceOf u z - (sourceOf u y + ∑ k, partial2 (sourceOf u) k y * (z k - y k))| ≤ K * dist y z ^ 2) :
    ∃ space l, discretizeTri2 alloc other p cells B = .ok (space, l) ∧ ∀ solver, Exact solver → ∀ k, ∃ S U,
      solveTimes solver (poisson tb.rule (sourceOf u) space) (k + 1) (create (functionSpace space l)) = some S ∧
      (∀ ec ∈ space, ∀ a, Assoc.get S.field (ec.2 a) = some (U (ec.2 a))) ∧
      errorSquare space U u ≤ areaOf cells p * (72 * M ^ 2 * r ^ 2 + 576 * M ^ 2 * κ ^ 2 +
        (2 + 8 * R ^ 2) * (1152 * M ^ 2 * κ ^ 2 + 384 * N ^ 2 + 32 * R ^ 2 * K ^ 2)) * r ^ 4 ∧
      ∀ ex : Expr (.vec 2) .scalar, (∀ y, ex.eval y () = u y) →
        l2Norm tb.rule space (.fem U) (.field ex) ^ 2 ≤ areaOf cells p * (72 * M ^ 2 * r ^ 2 +
          (16 * R ^ 2 + 96 * r ^ 2) * (1152 * M ^ 2 * κ ^ 2 + 384 * N ^ 2 + 32 * R ^ 2 * K ^ 2)) * r ^ 4 := by
  obtain ⟨m, s, known, t', hm, hcl, hb⟩ := h.mesh
  have hsum := accurate_sum hacc
  obtain ⟨hw1, hw2⟩ := rule_usable ht hsum
  obtain ⟨space, l, hok, hsol⟩ := dirichlet_tri2 h.topology hm hcl h.cell h.edges hb p h.positive h.nodes ha ho hw1
    (accurate_not_collinear ht hacc)
  refine ⟨space, l, hok, fun solver hx k => ?_⟩
  obtain ⟨-, hsol⟩ := hsol (sourceOf u)
  obtain ⟨S, U, h1, h2, h3, -⟩ := hsol solver hx k
  refine ⟨S, U, h1, h2, ?_⟩
  -- the space
  obtain ⟨f, l', hok', hinj, hl⟩ := discretize_quad h ha ho
  rw [hok', Outcome.ok.injEq, Prod.mk.injEq] at hok
  obtain ⟨rfl, rfl⟩ := hok
  -- the bounds on the cells
  have hrr : ∀ c ∈ cells, ∀ a b, dist (positions 3 p c a) (positions 3 p c b) ≤ r := fun c hc a b => by
    obtain ⟨⟨rc, hrc, h4, -⟩, -⟩ := hf c hc
    exact (h4 a b).trans hrc
  have hbox : ∀ c ∈ cells, ∀ y ∈ hull (positions 3 p c), y ∈ Metric.closedBall 0 R := fun c hc y hy => hull_box hR0.le (hf c hc).2 hy
  have hboth : ∀ c ∈ cells, ∀ y ∈ hull (positions 3 p c),
      |quad (positions 3 p c) (fun b => u (nodesTri2 (positions 3 p c) b)) y - u y| ≤ 6 * (M * r ^ 3) ∧
      ∀ k, |qslope (positions 3 p c) (fun b => u (nodesTri2 (positions 3 p c) b)) k y - partial2 u k y| ≤ 12 * M * κ * r ^ 2 := by
    intro c hc y hy
    obtain ⟨⟨rc, hrc, h4, h5⟩, -⟩ := hf c hc
    have hA := positions_area h hc
    have hrc0 : 0 ≤ rc := dist_nonneg.trans (h4 0 0)
    obtain ⟨H, hH⟩ := hM y (hbox c hc y hy)
    have hq := quad_error hA h4 hy (H := H) (τ := M * rc ^ 3) fun a => by
      have hna := node2_hull (positions 3 p c) a
      refine (hH _ (hbox c hc _ hna)).trans (mul_le_mul_of_nonneg_left (pow_le_pow_left₀ dist_nonneg ?_ 3) hM0)
      exact hull_dist h4 hy hna
    refine ⟨hq.1.trans ?_, fun k => (hq.2 k).trans ?_⟩
    · exact mul_le_mul_of_nonneg_left (mul_le_mul_of_nonneg_left (pow_le_pow_left₀ hrc0 hrc 3) hM0) (by norm_num)
    · rw [div_le_iff₀ hA]
      have h6 := mul_le_mul_of_nonneg_left h5 (show 0 ≤ 12 * M * rc ^ 2 by positivity)
      have h7 := mul_le_mul_of_nonneg_right (pow_le_pow_left₀ hrc0 hrc 2) (show 0 ≤ 12 * M * κ * triangleArea (positions 3 p c) by positivity)
      nlinarith
  have hτ := fun c hc y hy => (hboth c hc y hy).1
  have he := fun c hc k y hy => (hboth c hc y hy).2 k
  obtain ⟨g1, g2⟩ := galerkin_quad h hinj hl ht hacc hu hu0 hrr he (ε := N * r) (η := K * r ^ 2)
    (fun c hc y hy z hz => (hN y (hbox c hc y hy) z (hbox c hc z hz)).trans
      (mul_le_mul_of_nonneg_left (hull_dist (hrr c hc) hy hz) hN0))
    (fun c hc => ⟨_, _, _, fun y hy => (hK _ (hbox c hc _ (node_hull _ 0)) y (hbox c hc y hy)).trans
      (mul_le_mul_of_nonneg_left (pow_le_pow_left₀ dist_nonneg (hull_dist (hrr c hc) (node_hull _ 0) hy) 2) hK0)⟩) hR0
    (fun c hc y hy => (norm_le_pi_norm y 0).trans (mem_closedBall_zero_iff.mp (hbox c hc y hy))) h3
  set E := (cells.map fun c => ∫ y in hull (positions 3 p c), ∑ k, qslope (positions 3 p c)
        (fun a => U (f (placeOf c a)) - u (nodesTri2 (positions 3 p c) a)) k y ^ 2).sum
  set Q := (cells.map fun c => ∫ y in hull (positions 3 p c),
        quad (positions 3 p c) (fun a => U (f (placeOf c a)) - u (nodesTri2 (positions 3 p c) a)) y ^ 2).sum
  set A := areaOf cells p with hA
  set X := 1152 * M ^ 2 * κ ^ 2 + 384 * N ^ 2 + 32 * R ^ 2 * K ^ 2 with hX
  have g1 : E ≤ A * X * r ^ 4 := g1.trans (le_of_eq (by rw [hX]; ring))
  constructor
  · have h6 : errorSquare (cells.map fun c => (triP2 (positions 3 p c), fun a : Fin 6 => ((places (triple c)).map f).getD a 0)) U u ≤
        2 * Q + 2 * E + A * (2 * (6 * (M * r ^ 3)) ^ 2 + 4 * (12 * M * κ * r ^ 2) ^ 2) := by
      unfold errorSquare
      rw [List.map_map]
      refine (list_le cells fun c hc => ?_).trans (le_of_eq ?_) (b := (cells.map fun c =>
        2 * (∫ y in hull (positions 3 p c), quad (positions 3 p c) (fun a => U (f (placeOf c a)) - u (nodesTri2 (positions 3 p c) a)) y ^ 2) +
        2 * (∫ y in hull (positions 3 p c), ∑ k, qslope (positions 3 p c)
          (fun a => U (f (placeOf c a)) - u (nodesTri2 (positions 3 p c) a)) k y ^ 2) +
        triangleArea (positions 3 p c) * (2 * (6 * (M * r ^ 3)) ^ 2 + 4 * (12 * M * κ * r ^ 2) ^ 2)).sum)
      · have := hull_error2 (positions 3 p c) (positions_area h hc) (fun a => U (f (placeOf c a))) u
        simp only [Function.comp, placeOf_map]
        exact this.le.trans (hull_error2_le (positions_area h hc) _ hu (hτ c hc) (he c hc))
      · rw [list_add, list_add, List.sum_map_mul_left, List.sum_map_mul_left, List.sum_map_mul_right]
        rfl
    refine h6.trans ?_
    have h7 := mul_le_mul_of_nonneg_left g1 (show (0 : ℝ) ≤ 2 + 8 * R ^ 2 by positivity)
    nlinarith
  · intro ex hex
    have h6 : l2Norm tb.rule (cells.map fun c => (triP2 (positions 3 p c), fun a : Fin 6 => ((places (triple c)).map f).getD a 0)) (.fem U)
        (.field ex) ^ 2 ≤ 4 * Q + 96 * r ^ 2 * E + A * (2 * (6 * (M * r ^ 3)) ^ 2) := by
      rw [l2Norm_eq, Real.sq_sqrt]
      · rw [List.map_map]
        refine (list_le cells fun c hc => ?_).trans (le_of_eq ?_) (b := (cells.map fun c =>
          4 * (∫ y in hull (positions 3 p c), quad (positions 3 p c) (fun a => U (f (placeOf c a)) - u (nodesTri2 (positions 3 p c) a)) y ^ 2) +
          96 * r ^ 2 * (∫ y in hull (positions 3 p c), ∑ k, qslope (positions 3 p c)
            (fun a => U (f (placeOf c a)) - u (nodesTri2 (positions 3 p c) a)) k y ^ 2) +
          triangleArea (positions 3 p c) * (2 * (6 * (M * r ^ 3)) ^ 2)).sum)
        · have := rule_error2_le ht hsum (positions_area h hc) (fun a => U (f (placeOf c a))) (hrr c hc) (hτ c hc)
          refine le_of_eq_of_le (congrArg List.sum (List.map_congr_left fun q _ => ?_)) this
          rw [localize_fem, localize_field, hex]
          simp only [placeOf_map]
        · rw [list_add, list_add, List.sum_map_mul_left, List.sum_map_mul_left, List.sum_map_mul_right]
          rfl
      · refine List.sum_nonneg fun y hy => ?_
        obtain ⟨ec, hec, rfl⟩ := List.mem_map.mp hy
        obtain ⟨c, hc, rfl⟩ := List.mem_map.mp hec
        refine List.sum_nonneg fun y hy => ?_
        obtain ⟨q, hq, rfl⟩ := List.mem_map.mp hy
        refine mul_nonneg ?_ (sq_nonneg _)
        rw [factor, tri2_detJ]
        have := positions_area h hc
        have h9 : (0 : ℝ) ≤ Geometry.area 2 := by simp [Geometry.area]
        have h10 := hw1 q hq
        positivity
    refine h6.trans ?_
    have h7 := mul_le_mul_of_nonneg_left g1 (show (0 : ℝ) ≤ 16 * R ^ 2 + 96 * r ^ 2 by positivity)
    nlinarith

theorem source_twice {u : (Fin 2 → ℝ) → ℝ} (hu : ContDiff ℝ 4 u) : ContDiff ℝ 2 (sourceOf u) := by
  have h1 : ∀ k, ContDiff ℝ 3 (partial2 u k) := fun k => partial_smooth (by norm_num; exact hu) k
  unfold sourceOf
  exact (ContDiff.sum fun k _ => partial_smooth (by norm_num; exact h1 k) k).neg

theorem area_nonneg {t : Topo} {cells B : List GCell} {p : Id → Fin 2 → ℝ} (h : Triangulates t cells B p) : 0 ≤ areaOf cells p :=
  List.sum_nonneg fun y hy => by
    obtain ⟨c, hc, rfl⟩ := List.mem_map.mp hy
    exact (positions_area h hc).le

/-- **C97.**  On quadratic triangles, with a rule of degree two, the order of convergence in the H1 norm is two for functions with four
continuous derivatives: the square of the error is at most a constant times the area and the fourth power of the size of the triangles,
where the constant only depends on the function, on the shape of the triangles and on the size of the domain. -/
theorem poisson_order_tri2 (ht : Inside tb) (hacc : Accurate mean2 tb 2 0) {u : (Fin 2 → ℝ) → ℝ} (hu : ContDiff ℝ 4 u) {κ R : ℝ} (hκ : 0 ≤ κ)
    (hR : 0 < R) :
    ∃ C, ∀ (t : Topo) (cells B : List GCell) (p : Id → Val (.vec 2)) (alloc : List Nat → Nat) (other : List Nat) (h : ℝ),
      Triangulates t cells B p → Fine cells p h κ R → 0 ≤ h → h ≤ 1 → Vanishes2 B p u → (∀ l, alloc l ∉ l) → other.Nodup →
      SolvesWithin tb.rule (sourceOf u) u (C * areaOf cells p * h ^ 4) (discretizeTri2 alloc other p cells B) := by
  obtain ⟨M, hM0, hM⟩ := taylor_second (hu.of_le (by norm_num)) R
  obtain ⟨N, hN0, hN⟩ := lipschitz_ball ((source_twice hu).of_le (by norm_num)) R
  obtain ⟨K, hK0, hK⟩ := taylor_first (source_twice hu) R
  refine ⟨72 * M ^ 2 + 576 * M ^ 2 * κ ^ 2 + (2 + 8 * R ^ 2) * (1152 * M ^ 2 * κ ^ 2 + 384 * N ^ 2 + 32 * R ^ 2 * K ^ 2), ?_⟩
  intro t cells B p alloc other h htri hf hh0 hh1 hv ha ho
  obtain ⟨space, l, h1, h2⟩ := quadratic_estimates htri hf hκ hR hh0 ha ho ht hacc (hu.of_le (by norm_num)) hv hM0 hN0 hK0 hM hN hK
  refine ⟨space, l, h1, fun solver hs k => ?_⟩
  obtain ⟨S, U, h3, h4, h5, -⟩ := h2 solver hs k
  refine ⟨S, U, h3, h4, h5.trans ?_⟩
  refine mul_le_mul_of_nonneg_right ?_ (by positivity)
  rw [mul_comm]
  refine mul_le_mul_of_nonneg_right ?_ (area_nonneg htri)
  have hsq : h ^ 2 ≤ 1 := pow_le_one₀ hh0 hh1
  have := mul_le_mul_of_nonneg_left hsq (show 0 ≤ 72 * M ^ 2 by positivity)
  linarith

/-- **C97.**  The same for the L2 norm that the code computes. -/
theorem poisson_order_tri2_l2 (ht : Inside tb) (hacc : Accurate mean2 tb 2 0) (ex : Expr (.vec 2) .scalar)
    (hu : ContDiff ℝ 4 fun y => ex.eval y ()) {κ R : ℝ} (hκ : 0 ≤ κ) (hR : 0 < R) :
    ∃ C, ∀ (t : Topo) (cells B : List GCell) (p : Id → Val (.vec 2)) (alloc : List Nat → Nat) (other : List Nat) (h : ℝ),
      Triangulates t cells B p → Fine cells p h κ R → 0 ≤ h → h ≤ 1 → Vanishes2 B p (fun y => ex.eval y ()) → (∀ l, alloc l ∉ l) →
      other.Nodup →
      SolvesWithinL2 tb.rule (sourceOf fun y => ex.eval y ()) ex (C * areaOf cells p * h ^ 4) (discretizeTri2 alloc other p cells B) := by
  obtain ⟨M, hM0, hM⟩ := taylor_second (hu.of_le (by norm_num)) R
  obtain ⟨N, hN0, hN⟩ := lipschitz_ball ((source_twice hu).of_le (by norm_num)) R
  obtain ⟨K, hK0, hK⟩ := taylor_first (source_twice hu) R
  refine ⟨72 * M ^ 2 + (16 * R ^ 2 + 96) * (1152 * M ^ 2 * κ ^ 2 + 384 * N ^ 2 + 32 * R ^ 2 * K ^ 2), ?_⟩
  intro t cells B p alloc other h htri hf hh0 hh1 hv ha ho
  obtain ⟨space, l, h1, h2⟩ := quadratic_estimates htri hf hκ hR hh0 ha ho ht hacc (hu.of_le (by norm_num)) hv hM0 hN0 hK0 hM hN hK
  refine ⟨space, l, h1, fun solver hs k => ?_⟩
  obtain ⟨S, U, h3, h4, -, h5⟩ := h2 solver hs k
  refine ⟨S, U, h3, h4, (h5 ex fun _ => rfl).trans ?_⟩
  refine mul_le_mul_of_nonneg_right ?_ (by positivity)
  rw [mul_comm]
  refine mul_le_mul_of_nonneg_right ?_ (area_nonneg htri)
  have hsq : h ^ 2 ≤ 1 := pow_le_one₀ hh0 hh1
  have h6 := mul_le_mul_of_nonneg_left hsq (show 0 ≤ 72 * M ^ 2 by positivity)
  have h7 := mul_le_mul_of_nonneg_left hsq (show 0 ≤ 96 * (1152 * M ^ 2 * κ ^ 2 + 384 * N ^ 2 + 32 * R ^ 2 * K ^ 2) by positivity)
  linarith

/-- **C97.**  The rule of mito of degree two is one of those. -/
theorem rule_quadratic : Inside triangle2 ∧ Accurate mean2 triangle2 2 0 := ⟨tables_inside.2.2.2.1, triangle2_accurate⟩

/-! ## An example -/

/-- the hypotheses hold for a mesh with a node off the boundary -/
theorem exUnitFan_quadratic : ∃ B, Triangulates exFan exCellsFan B exUnitFan ∧ Fine exCellsFan exUnitFan 1 6 1 ∧
    Vanishes2 B exUnitFan exBubble := by
  obtain ⟨B, h1, h2, h3⟩ := exUnitFan_boundary
  refine ⟨B, h1, h2, fun b hb x hx y hy => ?_⟩
  have hm := h3 b hb
  have hx' : x.vertex ∈ b.vertices := List.mem_map.mpr ⟨x, hx, rfl⟩
  have hy' : y.vertex ∈ b.vertices := List.mem_map.mpr ⟨y, hy, rfl⟩
  simp only [List.mem_cons, List.not_mem_nil, or_false] at hm
  rcases hm with e | e | e <;> rw [e] at hx' hy' <;> simp only [List.mem_cons, List.not_mem_nil, or_false] at hx' hy' <;>
    rcases hx' with e | e <;> rcases hy' with e' | e' <;> norm_num [e, e', exBubble, exUnitFan]

/-- the order of convergence applies to that mesh -/
example : ∃ B C, Triangulates exFan exCellsFan B exUnitFan ∧
    SolvesWithin triangle2.rule (sourceOf exBubble) exBubble (C * areaOf exCellsFan exUnitFan)
      (discretizeTri2 exAlloc [] exUnitFan exCellsFan B) := by
  obtain ⟨B, h1, h2, h3⟩ := exUnitFan_quadratic
  obtain ⟨C, hC⟩ := poisson_order_tri2 rule_quadratic.1 rule_quadratic.2 (u := exBubble) (by unfold exBubble; fun_prop) (κ := 6) (R := 1)
    (by norm_num) one_pos
  refine ⟨B, C, h1, ?_⟩
  simpa using hC exFan exCellsFan B exUnitFan exAlloc [] 1 h1 h2 zero_le_one le_rfl h3 exAlloc_fresh List.nodup_nil

end Mito.Fem
