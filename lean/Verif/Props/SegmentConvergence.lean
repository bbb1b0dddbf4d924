import Verif.Fem.SegmentErrorLemmas
import Verif.Fem.SegmentRefineLemmas

/-!
# C93: the Poisson problem on segments and on their refinements

On meshes of segments the solution of the discrete Poisson problem converges to the exact one, with order one in the H1 norm and, with the
rules of mito, order two in the L2 norm.  As refining does not tear meshes of segments, it converges under refinement, too.
-/

namespace Mito.Fem

open Mito.Functions Mito.Geometry Mito.Quadrature Mito.Meshes Mito.Topology Mito.Discretizer Mito.DiscreteSystem Mito.Refine MeasureTheory

variable {t : Topo} {cells B : List GCell} {p : Id → Val (.vec 1)} {alloc : List Nat → Nat} {other : List Nat} {tb : Table 1} {u : ℝ → ℝ}

theorem short_box {r R : ℝ} (hf : Short cells p r R) {c : GCell} (hc : c ∈ cells) {y : ℝ}
    (hy : y ∈ Set.Icc (positions 2 p c 0 0) (positions 2 p c 1 0)) : y ∈ Set.Icc (-R) R := by
  have h0 := abs_le.mp ((hf c hc).2 0)
  have h1 := abs_le.mp ((hf c hc).2 1)
  exact ⟨h0.1.trans hy.1, hy.2.trans h1.2⟩

/-- the errors of the discrete solution in terms of the error of the loads -/
theorem segments_estimates (h : Divides t cells B p) {r R : ℝ} (hf : Short cells p r R) (hR0 : 0 < R)
    (ha : ∀ l, alloc l ∉ l) (ho : other.Nodup) (ht : Inside tb) (hsum : (tb.map Prod.snd).sum = 1) (hu : ContDiff ℝ 2 u)
    (hu0 : VanishesAtEnds B p u) {δ a b : ℝ}
    (hδ : ∀ y ∈ Set.Icc (-R) R, ∀ z ∈ Set.Icc (-R) R, |y - z| ≤ r → |deriv u y - deriv u z| ≤ δ)
    (hD : ∀ c ∈ cells, ∀ v, quad tb (positions 2 p c) (fun y => -deriv (deriv u) y * chord (positions 2 p c) v y) -
        (∫ y in positions 2 p c 0 0..positions 2 p c 1 0, -deriv (deriv u) y * chord (positions 2 p c) v y) ≤
      ∫ y in positions 2 p c 0 0..positions 2 p c 1 0, (a * |chord (positions 2 p c) v y| + b * |rise (positions 2 p c) v|)) :
    ∃ space l, discretizeSeg1 alloc other p cells B = .ok (space, l) ∧ ∀ solver, Exact solver → ∀ k, ∃ S U,
      solveTimes solver (poisson tb.rule (source1 u) space) (k + 1) (create (functionSpace space l)) = some S ∧
      (∀ ec ∈ space, ∀ a, Assoc.get S.field (ec.2 a) = some (U (ec.2 a))) ∧
      errorSquare1 space U u ≤ lengthOf cells p * ((4 + 16 * R ^ 2) * (4 * R ^ 2 * a ^ 2 + b ^ 2) + 2 * δ ^ 2 * r ^ 2 + 2 * δ ^ 2) ∧
      ∀ ex : Expr (.vec 1) .scalar, (∀ y, ex.eval y () = u (y 0)) →
        l2Norm tb.rule space (.fem U) (.field ex) ^ 2 ≤
          lengthOf cells p * ((32 * R ^ 2 + 8 * r ^ 2) * (4 * R ^ 2 * a ^ 2 + b ^ 2) + 2 * δ ^ 2 * r ^ 2) := by
  obtain ⟨m, s, known, t', hm, hcl, hb⟩ := h.mesh
  have hB := boundary_nodes h.topology (by omega) hm hcl h.cell hb
  have hw0 : ∀ q ∈ tb.rule, 0 < q.2 := fun q hq => (rule_mem (n := 0) ht q hq).1
  have hw1 : ∃ q ∈ tb.rule, 0 < q.2 := by
    match hr : tb.rule with
    | [] =>
      have := rule_sum (n := 0) hsum
      rw [hr] at this
      simp at this
    | q :: l => exact ⟨q, by simp, hw0 q (by simp [hr])⟩
  obtain ⟨space, l, hok, hsol⟩ := dirichlet_seg1 h.topology hm hcl h.cell h.ends hb p h.positive h.nodes ha ho
    (fun q hq => (hw0 q hq).le) hw1
  refine ⟨space, l, hok, fun solver hx k => ?_⟩
  obtain ⟨-, hsol⟩ := hsol (source1 u)
  obtain ⟨S, U, h1, h2, h3, -⟩ := hsol solver hx k
  refine ⟨S, U, h1, h2, ?_⟩
  -- the space
  obtain ⟨φ, e1, e2, -, -, hinj⟩ := elementsP1_eq ha ho (cells.map ids)
  have e3 : constrainedP1 (elementsP1 alloc other [] (cells.map ids)).1 (B.flatMap ids) = .ok ((B.flatMap ids).map φ) := by
    refine constrainedP1_eq fun n hn => e2 n ?_
    obtain ⟨b, hb, hn⟩ := List.mem_flatMap.mp hn
    obtain ⟨x, hx, rfl⟩ := List.mem_map.mp hn
    obtain ⟨-, -, c, hc, hsub⟩ := hB b hb
    exact List.mem_flatten.mpr ⟨ids c, List.mem_map.mpr ⟨c, hc, rfl⟩, List.mem_map.mpr ⟨x, hsub x hx, rfl⟩⟩
  rw [List.map_map] at e1
  unfold discretizeSeg1 at hok
  simp only [e1, e3, collect, Outcome.ok.injEq, Prod.mk.injEq] at hok
  have e4 := spaceOf_map (fun c => segP1 (positions 2 p c)) cells (fun c => (ids c).map φ)
  obtain ⟨rfl, rfl⟩ : cells.map (fun c => (segP1 (positions 2 p c), fun a : Fin 2 => ((ids c).map φ).getD a 0)) = space ∧
      (B.flatMap ids).map φ = l := ⟨e4.symm.trans hok.1, hok.2⟩
  obtain ⟨g1, g2⟩ := galerkin_segments h (φ := φ) (fun c hc c' hc' x hx y hy hxy => hinj _ (List.mem_flatten.mpr
        ⟨ids c, List.mem_map.mpr ⟨c, hc, rfl⟩, List.mem_map.mpr ⟨x, hx, rfl⟩⟩) _ (List.mem_flatten.mpr
        ⟨ids c', List.mem_map.mpr ⟨c', hc', rfl⟩, List.mem_map.mpr ⟨y, hy, rfl⟩⟩) hxy) hsum hu hu0 hR0
    (fun c hc y hy => abs_le.mpr (short_box hf hc hy)) hD h3
  set E := (cells.map fun c => length (positions 2 p c) *
        rise (positions 2 p c) (fun a => onSegment φ U c a - u (positions 2 p c a 0)) ^ 2).sum
  set N := (cells.map fun c => ∫ y in positions 2 p c 0 0..positions 2 p c 1 0,
        chord (positions 2 p c) (fun a => onSegment φ U c a - u (positions 2 p c a 0)) y ^ 2).sum
  set A := lengthOf cells p with hA
  set X := 4 * R ^ 2 * a ^ 2 + b ^ 2
  have hδc : ∀ c ∈ cells, ∀ y ∈ Set.Icc (positions 2 p c 0 0) (positions 2 p c 1 0),
      ∀ z ∈ Set.Icc (positions 2 p c 0 0) (positions 2 p c 1 0), |deriv u y - deriv u z| ≤ δ := fun c hc y hy z hz =>
    hδ y (short_box hf hc hy) z (short_box hf hc hz) (chord_variation (hf c hc).1 (fun _ => 0) hz hy).1
  constructor
  · have h6 : errorSquare1 (cells.map fun c => (segP1 (positions 2 p c), fun a : Fin 2 => ((ids c).map φ).getD a 0)) U u ≤
        2 * N + 2 * E + A * (2 * δ ^ 2 * r ^ 2 + 2 * δ ^ 2) := by
      unfold errorSquare1
      rw [List.map_map]
      refine (list_le cells fun c hc => ?_).trans (le_of_eq ?_) (b := (cells.map fun c =>
        2 * (∫ y in positions 2 p c 0 0..positions 2 p c 1 0,
          chord (positions 2 p c) (fun a => onSegment φ U c a - u (positions 2 p c a 0)) y ^ 2) +
        2 * (length (positions 2 p c) * rise (positions 2 p c) (fun a => onSegment φ U c a - u (positions 2 p c a 0)) ^ 2) +
        length (positions 2 p c) * (2 * δ ^ 2 * r ^ 2 + 2 * δ ^ 2)).sum)
      · have := segment_error (positions_length h hc) (onSegment φ U c) u
        exact this.le.trans (segment_error_le (positions_length h hc) (onSegment φ U c) hu (hf c hc).1 (hδc c hc))
      · rw [list_add, list_add, List.sum_map_mul_left, List.sum_map_mul_left, List.sum_map_mul_right]
        rfl
    refine h6.trans ?_
    have h7 := mul_le_mul_of_nonneg_left g1 (show (0 : ℝ) ≤ 2 + 8 * R ^ 2 by positivity)
    nlinarith
  · intro ex hex
    have h6 : l2Norm tb.rule (cells.map fun c => (segP1 (positions 2 p c), fun a : Fin 2 => ((ids c).map φ).getD a 0)) (.fem U)
        (.field ex) ^ 2 ≤ 4 * N + 4 * r ^ 2 * E + A * (2 * δ ^ 2 * r ^ 2) := by
      rw [l2Norm_eq, Real.sq_sqrt]
      · rw [List.map_map]
        refine (list_le cells fun c hc => ?_).trans (le_of_eq ?_) (b := (cells.map fun c =>
          4 * (∫ y in positions 2 p c 0 0..positions 2 p c 1 0,
            chord (positions 2 p c) (fun a => onSegment φ U c a - u (positions 2 p c a 0)) y ^ 2) +
          4 * r ^ 2 * (length (positions 2 p c) *
            rise (positions 2 p c) (fun a => onSegment φ U c a - u (positions 2 p c a 0)) ^ 2) +
          length (positions 2 p c) * (2 * δ ^ 2 * r ^ 2)).sum)
        · have := segment_rule_error_le ht hsum (positions_length h hc) (onSegment φ U c) hu (hf c hc).1 (hδc c hc)
          refine le_of_eq_of_le (congrArg List.sum (List.map_congr_left fun q _ => ?_)) this
          rw [localize_fem, localize_field, hex]
          simp only [onSegment, mul_comm]
        · rw [list_add, list_add, List.sum_map_mul_left, List.sum_map_mul_left, List.sum_map_mul_right]
          rfl
      · refine List.sum_nonneg fun y hy => ?_
        obtain ⟨ec, hec, rfl⟩ := List.mem_map.mp hy
        obtain ⟨c, hc, rfl⟩ := List.mem_map.mp hec
        refine List.sum_nonneg fun y hy => ?_
        obtain ⟨q, hq, rfl⟩ := List.mem_map.mp hy
        refine mul_nonneg ?_ (sq_nonneg _)
        rw [factor, seg1_detJ]
        have := positions_length h hc
        have h9 : (0 : ℝ) ≤ Geometry.area 1 := by simp [Geometry.area]
        have h10 := (hw0 q hq).le
        positivity
    refine h6.trans ?_
    have h7 := mul_le_mul_of_nonneg_left g1 (show (0 : ℝ) ≤ 16 * R ^ 2 + 4 * r ^ 2 by positivity)
    nlinarith

/-- **C93.**  The error of the discrete solution in the H1 norm, in terms of the variations of the derivative of `u` and of the source over
distances up to the lengths of the segments. -/
theorem segments_error (h : Divides t cells B p) {r R : ℝ} (hf : Short cells p r R) (hR0 : 0 < R)
    (ha : ∀ l, alloc l ∉ l) (ho : other.Nodup) (ht : Inside tb) (hsum : (tb.map Prod.snd).sum = 1) (hu : ContDiff ℝ 2 u)
    (hu0 : VanishesAtEnds B p u) {δ ε F : ℝ}
    (hδ : ∀ y ∈ Set.Icc (-R) R, ∀ z ∈ Set.Icc (-R) R, |y - z| ≤ r → |deriv u y - deriv u z| ≤ δ)
    (hε : ∀ y ∈ Set.Icc (-R) R, ∀ z ∈ Set.Icc (-R) R, |y - z| ≤ r → |deriv (deriv u) y - deriv (deriv u) z| ≤ ε)
    (hF : ∀ y ∈ Set.Icc (-R) R, |deriv (deriv u) y| ≤ F) :
    SolvesWithin1 tb.rule u
      (lengthOf cells p * ((4 + 16 * R ^ 2) * (4 * R ^ 2 * ε ^ 2 + (F * r) ^ 2) + 2 * δ ^ 2 * r ^ 2 + 2 * δ ^ 2))
      (discretizeSeg1 alloc other p cells B) := by
  obtain ⟨space, l, h1, h2⟩ := segments_estimates h hf hR0 ha ho ht hsum hu hu0 hδ (a := ε) (b := F * r) fun c hc v =>
    defect_continuous ht hsum (positions_length h hc) (hf c hc).1 (smooth_deriv hu).2.2.2.neg (fun y hy z hz => by
        have := hε y (short_box hf hc hy) z (short_box hf hc hz) (chord_variation (hf c hc).1 (fun _ => 0) hz hy).1
        rwa [Pi.neg_apply, Pi.neg_apply, neg_sub_neg, abs_sub_comm])
      (fun y hy => by rw [Pi.neg_apply, abs_neg]; exact hF y (short_box hf hc hy)) v
  refine ⟨space, l, h1, fun solver hs k => ?_⟩
  obtain ⟨S, U, h3, h4, h5, -⟩ := h2 solver hs k
  exact ⟨S, U, h3, h4, h5⟩

/-- **C93.**  The error in the L2 norm that the code computes, for rules that integrate linear functions exactly (as those of mito), in
terms of the variations of the derivative of `u` and of its third derivative. -/
theorem segments_error_l2 (h : Divides t cells B p) {r R : ℝ} (hf : Short cells p r R) (hR0 : 0 < R)
    (ha : ∀ l, alloc l ∉ l) (ho : other.Nodup) (ht : Inside tb) (hsum : (tb.map Prod.snd).sum = 1)
    (hm : apply tb (fun ξ => ξ 0) = 1 / 2) (hu : ContDiff ℝ 3 u)
    (hu0 : VanishesAtEnds B p u) {δ ε F : ℝ}
    (hδ : ∀ y ∈ Set.Icc (-R) R, ∀ z ∈ Set.Icc (-R) R, |y - z| ≤ r → |deriv u y - deriv u z| ≤ δ)
    (hε : ∀ y ∈ Set.Icc (-R) R, ∀ z ∈ Set.Icc (-R) R, |y - z| ≤ r → |deriv (deriv (deriv u)) y - deriv (deriv (deriv u)) z| ≤ ε)
    (hF : ∀ y ∈ Set.Icc (-R) R, |deriv (deriv (deriv u)) y| ≤ F) (ex : Expr (.vec 1) .scalar) (hex : ∀ y, ex.eval y () = u (y 0)) :
    SolvesWithinL21 tb.rule u ex
      (lengthOf cells p * ((32 * R ^ 2 + 8 * r ^ 2) * (4 * R ^ 2 * (2 * (ε * r)) ^ 2 + (2 * F * r ^ 2 + ε * r * r) ^ 2) +
        2 * δ ^ 2 * r ^ 2)) (discretizeSeg1 alloc other p cells B) := by
  have hu2 : ContDiff ℝ 2 u := hu.of_le (by norm_num)
  have hd : ContDiff ℝ 2 (deriv u) := ((contDiff_succ_iff_deriv (n := 2)).mp hu).2.2
  obtain ⟨-, hd2, -, hd3⟩ := smooth_deriv hd
  obtain ⟨space, l, h1, h2⟩ := segments_estimates h hf hR0 ha ho ht hsum hu2 hu0 hδ (a := 2 * (ε * r))
    (b := 2 * F * r ^ 2 + ε * r * r) fun c hc v => by
      set x := positions 2 p c
      have hx := positions_length h hc
      have hmm : (x 0 0 + x 1 0) / 2 ∈ Set.Icc (x 0 0) (x 1 0) := ⟨by linarith [le_ends hx], by linarith [le_ends hx]⟩
      refine defect_smooth ht hsum hm hx (hf c hc).1 (f := fun y => -deriv (deriv u) y) (smooth_deriv hu2).2.2.2.neg
        (d := -deriv (deriv (deriv u)) ((x 0 0 + x 1 0) / 2)) (fun y hy => ?_) (by rw [abs_neg]; exact hF _ (short_box hf hc hmm)) v
      have := (convex_Icc (x 0 0) (x 1 0)).norm_image_sub_le_of_norm_hasDerivWithin_le
        (f := fun y => -deriv (deriv u) y - -deriv (deriv (deriv u)) ((x 0 0 + x 1 0) / 2) * y)
        (f' := fun y => -deriv (deriv (deriv u)) y - -deriv (deriv (deriv u)) ((x 0 0 + x 1 0) / 2) * 1) (C := ε)
        (fun y _ => ((hd2 y).neg.sub ((hasDerivAt_id y).const_mul _)).hasDerivWithinAt) (fun y hy => by
          rw [Real.norm_eq_abs, mul_one, neg_sub_neg, abs_sub_comm]
          exact hε y (short_box hf hc hy) _ (short_box hf hc hmm) (chord_variation (hf c hc).1 (fun _ => 0) hmm hy).1) hmm hy
      rw [Real.norm_eq_abs, Real.norm_eq_abs] at this
      have hε0 : 0 ≤ ε := (abs_nonneg _).trans (hε _ (short_box hf hc hmm) _ (short_box hf hc hmm)
        (chord_variation (hf c hc).1 (fun _ => 0) hmm hmm).1)
      refine le_trans (le_of_eq (congrArg abs ?_)) (this.trans (mul_le_mul_of_nonneg_left
        (chord_variation (hf c hc).1 (fun _ => 0) hmm hy).1 hε0))
      ring
  refine ⟨space, l, h1, fun solver hs k => ?_⟩
  obtain ⟨S, U, h3, h4, -, h5⟩ := h2 solver hs k
  exact ⟨S, U, h3, h4, h5 ex hex⟩

/-! ## Orders of convergence -/

theorem lipschitz_interval {g : ℝ → ℝ} (hg : ContDiff ℝ 1 g) (R : ℝ) :
    ∃ M, 0 ≤ M ∧ ∀ y ∈ Set.Icc (-R) R, ∀ z ∈ Set.Icc (-R) R, |g y - g z| ≤ M * |y - z| := by
  obtain ⟨M, hM⟩ := (isCompact_Icc (a := -R) (b := R)).exists_bound_of_continuousOn (hg.continuous_deriv le_rfl).continuousOn
  refine ⟨max M 0, le_max_right _ _, fun y hy z hz => ?_⟩
  exact (convex_Icc (-R) R).norm_image_sub_le_of_norm_hasDerivWithin_le
    (fun x _ => (hg.differentiable one_ne_zero x).hasDerivAt.hasDerivWithinAt) (fun x hx => (hM x hx).trans (le_max_left _ 0)) hz hy

theorem bounded_interval {g : ℝ → ℝ} (hg : Continuous g) (R : ℝ) : ∃ M, 0 ≤ M ∧ ∀ y ∈ Set.Icc (-R) R, |g y| ≤ M := by
  obtain ⟨M, hM⟩ := (isCompact_Icc (a := -R) (b := R)).exists_bound_of_continuousOn hg.continuousOn
  exact ⟨max M 0, le_max_right _ _, fun y hy => (hM y hy).trans (le_max_left _ _)⟩

theorem lengthOf_nonneg (h : Divides t cells B p) : 0 ≤ lengthOf cells p := List.sum_nonneg fun y hy => by
  obtain ⟨c, hc, rfl⟩ := List.mem_map.mp hy
  exact (positions_length h hc).le

/-- **C93.**  For three times continuously differentiable functions the order of convergence in the H1 norm is one: the square of the error
is at most a constant times the length of the mesh and the square of the length of the segments, where the constant only depends on the
function and on the size of the domain. -/
theorem segments_order (ht : Inside tb) (hsum : (tb.map Prod.snd).sum = 1) (hu : ContDiff ℝ 3 u) {R : ℝ} (hR : 0 < R) :
    ∃ C, 0 ≤ C ∧ ∀ (t : Topo) (cells B : List GCell) (p : Id → Val (.vec 1)) (alloc : List Nat → Nat) (other : List Nat) (h : ℝ),
      Divides t cells B p → Short cells p h R → 0 ≤ h → h ≤ 1 → VanishesAtEnds B p u → (∀ l, alloc l ∉ l) → other.Nodup →
      SolvesWithin1 tb.rule u (C * lengthOf cells p * h ^ 2) (discretizeSeg1 alloc other p cells B) := by
  have hu2 : ContDiff ℝ 2 u := hu.of_le (by norm_num)
  have hd : ContDiff ℝ 2 (deriv u) := ((contDiff_succ_iff_deriv (n := 2)).mp hu).2.2
  have hdd : ContDiff ℝ 1 (deriv (deriv u)) := ((contDiff_succ_iff_deriv (n := 1)).mp hd).2.2
  obtain ⟨M, hM, h1⟩ := lipschitz_interval (hd.of_le (by norm_num)) R
  obtain ⟨N, hN, h2⟩ := lipschitz_interval hdd R
  obtain ⟨F, hF, h3⟩ := bounded_interval hdd.continuous R
  obtain ⟨C, hC⟩ : ∃ C, C = (4 + 16 * R ^ 2) * (4 * R ^ 2 * N ^ 2 + F ^ 2) + 4 * M ^ 2 := ⟨_, rfl⟩
  refine ⟨C, by rw [hC]; positivity, ?_⟩
  intro t cells B p alloc other h hdiv hf hh0 hh1 hv ha ho
  obtain ⟨space, l, h4, h5⟩ := segments_error hdiv hf hR ha ho ht hsum hu2 hv (δ := M * h) (ε := N * h) (F := F)
    (fun y hy z hz hd => (h1 y hy z hz).trans (mul_le_mul_of_nonneg_left hd hM))
    (fun y hy z hz hd => (h2 y hy z hz).trans (mul_le_mul_of_nonneg_left hd hN)) h3
  refine ⟨space, l, h4, fun solver hs k => ?_⟩
  obtain ⟨S, U, h6, h7, h8⟩ := h5 solver hs k
  refine ⟨S, U, h6, h7, h8.trans ?_⟩
  rw [mul_assoc C, mul_left_comm C]
  refine mul_le_mul_of_nonneg_left ?_ (lengthOf_nonneg hdiv)
  rw [hC]
  have hsq : h ^ 2 ≤ 1 := pow_le_one₀ hh0 hh1
  have hq : (M * h) ^ 2 * h ^ 2 ≤ (M * h) ^ 2 := mul_le_of_le_one_right (sq_nonneg _) hsq
  nlinarith

/-- **C93.**  With rules that integrate linear functions exactly the order of convergence in the L2 norm that the code computes is two. -/
theorem segments_order_l2 (ht : Inside tb) (hsum : (tb.map Prod.snd).sum = 1) (hm : apply tb (fun ξ => ξ 0) = 1 / 2)
    (hu : ContDiff ℝ 4 u) {R : ℝ} (hR : 0 < R) :
    ∃ C, 0 ≤ C ∧ ∀ (t : Topo) (cells B : List GCell) (p : Id → Val (.vec 1)) (alloc : List Nat → Nat) (other : List Nat) (h : ℝ)
      (ex : Expr (.vec 1) .scalar), Divides t cells B p → Short cells p h R → 0 ≤ h → h ≤ 1 → VanishesAtEnds B p u →
      (∀ l, alloc l ∉ l) → other.Nodup → (∀ y, ex.eval y () = u (y 0)) →
      SolvesWithinL21 tb.rule u ex (C * lengthOf cells p * h ^ 4) (discretizeSeg1 alloc other p cells B) := by
  have hu3 : ContDiff ℝ 3 u := hu.of_le (by norm_num)
  have hd : ContDiff ℝ 3 (deriv u) := ((contDiff_succ_iff_deriv (n := 3)).mp hu).2.2
  have hdd : ContDiff ℝ 2 (deriv (deriv u)) := ((contDiff_succ_iff_deriv (n := 2)).mp hd).2.2
  have hddd : ContDiff ℝ 1 (deriv (deriv (deriv u))) := ((contDiff_succ_iff_deriv (n := 1)).mp hdd).2.2
  obtain ⟨M, hM, h1⟩ := lipschitz_interval (hd.of_le (by norm_num)) R
  obtain ⟨N, hN, h2⟩ := lipschitz_interval hddd R
  obtain ⟨F, hF, h3⟩ := bounded_interval hddd.continuous R
  obtain ⟨C, hC⟩ : ∃ C, C = (32 * R ^ 2 + 8) * (16 * R ^ 2 * N ^ 2 + (2 * F + N) ^ 2) + 2 * M ^ 2 := ⟨_, rfl⟩
  refine ⟨C, by rw [hC]; positivity, ?_⟩
  intro t cells B p alloc other h ex hdiv hf hh0 hh1 hv ha ho hex
  obtain ⟨space, l, h4, h5⟩ := segments_error_l2 hdiv hf hR ha ho ht hsum hm hu3 hv (δ := M * h) (ε := N * h) (F := F)
    (fun y hy z hz hd => (h1 y hy z hz).trans (mul_le_mul_of_nonneg_left hd hM))
    (fun y hy z hz hd => (h2 y hy z hz).trans (mul_le_mul_of_nonneg_left hd hN)) h3 ex hex
  refine ⟨space, l, h4, fun solver hs k => ?_⟩
  obtain ⟨S, U, h6, h7, h8⟩ := h5 solver hs k
  refine ⟨S, U, h6, h7, h8.trans ?_⟩
  rw [mul_assoc C, mul_left_comm C]
  refine mul_le_mul_of_nonneg_left ?_ (lengthOf_nonneg hdiv)
  rw [hC]
  have hsq : h ^ 2 ≤ 1 := pow_le_one₀ hh0 hh1
  have e1 : 4 * R ^ 2 * (2 * (N * h * h)) ^ 2 = 16 * R ^ 2 * N ^ 2 * h ^ 4 := by ring
  have e2 : (2 * F * h ^ 2 + N * h * h * h) ^ 2 ≤ (2 * F + N) ^ 2 * h ^ 4 := by
    have e3 : (2 * F + N) ^ 2 * h ^ 4 = ((2 * F + N) * h ^ 2) ^ 2 := by ring
    rw [e3]
    refine pow_le_pow_left₀ (by positivity) ?_ 2
    nlinarith [mul_le_mul_of_nonneg_left hh1 (mul_nonneg hN (sq_nonneg h))]
  have e4 : (32 * R ^ 2 + 8 * h ^ 2) * (4 * R ^ 2 * (2 * (N * h * h)) ^ 2 + (2 * F * h ^ 2 + N * h * h * h) ^ 2) ≤
      (32 * R ^ 2 + 8) * ((16 * R ^ 2 * N ^ 2 + (2 * F + N) ^ 2) * h ^ 4) := by
    refine mul_le_mul (by linarith) ?_ (by positivity) (by positivity)
    rw [e1, add_mul]
    linarith
  nlinarith

/-! ## Refinement -/

/-- **C93.**  On segments refining the mesh is enough: with the source of any `u` with continuous third derivatives that vanishes at the
ends of the coarse mesh, the square of the H1 norm of the error after `n` refinements by `tetra` is a constant times `4⁻ⁿ` at most. -/
theorem segments_refined (ht : Inside tb) (hsum : (tb.map Prod.snd).sum = 1) (hu : ContDiff ℝ 3 u) {R : ℝ} (hR : 0 < R) :
    ∃ C, 0 ≤ C ∧ ∀ (n k : Nat) (coarse : List (List (Refine.PNode ℝ))) (v : Nat → Id) (t : Topo) (cells B : List GCell)
      (p : Id → Val (.vec 1)) (alloc : List Nat → Nat) (other : List Nat) (h : ℝ),
      Refine.Coarse 1 k coarse → RefinedAt n k coarse v cells p → Divides t cells B p → CoarseShort coarse h R → 0 ≤ h → h ≤ 1 →
      CoarseVanishes coarse u → (∀ l, alloc l ∉ l) → other.Nodup →
      SolvesWithin1 tb.rule u (C * (coarse.map (Refine.signedVolume 0 0 0)).sum * (h / 2 ^ n) ^ 2) (discretizeSeg1 alloc other p cells B) := by
  obtain ⟨C, hC, hall⟩ := segments_order ht hsum hu hR
  refine ⟨C, hC, fun n k coarse v t cells B p alloc other h hco hr hd hs hh0 hh1 hv ha ho => ?_⟩
  rw [← refined_length hco hr]
  exact hall t cells B p alloc other _ hd (refined_short hco hr hs) (by positivity)
    ((div_le_self hh0 (one_le_pow₀ (by norm_num))).trans hh1) (refined_ends hd hco hr hv) ha ho

/-- **C93.**  For the L2 norm that the code computes it is a constant times `16⁻ⁿ`. -/
theorem segments_refined_l2 (ht : Inside tb) (hsum : (tb.map Prod.snd).sum = 1) (hm : apply tb (fun ξ => ξ 0) = 1 / 2)
    (hu : ContDiff ℝ 4 u) {R : ℝ} (hR : 0 < R) :
    ∃ C, 0 ≤ C ∧ ∀ (n k : Nat) (coarse : List (List (Refine.PNode ℝ))) (v : Nat → Id) (t : Topo) (cells B : List GCell)
      (p : Id → Val (.vec 1)) (alloc : List Nat → Nat) (other : List Nat) (h : ℝ) (ex : Expr (.vec 1) .scalar),
      Refine.Coarse 1 k coarse → RefinedAt n k coarse v cells p → Divides t cells B p → CoarseShort coarse h R → 0 ≤ h → h ≤ 1 →
      CoarseVanishes coarse u → (∀ l, alloc l ∉ l) → other.Nodup → (∀ y, ex.eval y () = u (y 0)) →
      SolvesWithinL21 tb.rule u ex (C * (coarse.map (Refine.signedVolume 0 0 0)).sum * (h / 2 ^ n) ^ 4)
        (discretizeSeg1 alloc other p cells B) := by
  obtain ⟨C, hC, hall⟩ := segments_order_l2 ht hsum hm hu hR
  refine ⟨C, hC, fun n k coarse v t cells B p alloc other h ex hco hr hd hs hh0 hh1 hv ha ho hex => ?_⟩
  rw [← refined_length hco hr]
  exact hall t cells B p alloc other _ ex hd (refined_short hco hr hs) (by positivity)
    ((div_le_self hh0 (one_le_pow₀ (by norm_num))).trans hh1) (refined_ends hd hco hr hv) ha ho hex

/-- the rules of mito for segments meet the hypotheses -/
theorem segments_rules : ∀ tb ∈ [segment1, segment2], Inside tb ∧ (tb.map Prod.snd).sum = 1 ∧ apply tb (fun ξ => ξ 0) = 1 / 2 := by
  intro tb htb
  obtain ⟨h1, h2⟩ := rules_converge.1 tb htb
  refine ⟨h1, h2, ?_⟩
  simp only [List.mem_cons, List.not_mem_nil, or_false] at htb
  rcases htb with rfl | rfl <;> norm_num [apply, segment1, segment2, Table.rule]

/-! ## An example -/

/-- the unit interval in two segments -/
noncomputable def exHalves : Id → Val (.vec 1)
  | 0 => ![0]
  | 1 => ![1 / 2]
  | _ => ![1]

theorem exHalves_positive : ∀ c ∈ exCellsF, exF.sg 1 c.simplex = 1 ∧ 0 < Meshes.extent (fun v => exHalves v 0) c.vertices := by
  have h : ∀ c ∈ exCellsF, exF.sg 1 c.simplex = 1 := by decide +kernel
  refine fun c hc => ⟨h c hc, ?_⟩
  have e : c.vertices = [0, 1] ∨ c.vertices = [1, 2] := by
    revert c
    decide +kernel
  rcases e with e | e <;> rw [e, Meshes.extent] <;> norm_num [exHalves]

theorem exHalves_divides : ∃ B, Divides exF exCellsF B exHalves := by
  obtain ⟨m, s, known, h1, h2, h3⟩ := exists_mesh exF 0 exCellsF
  have hb : (boundary exF 0 m).isSome = true := by
    rw [boundary_congr (m' := exMeshOf exF 0 exCellsF) (by rw [h2]; decide +kernel) (by rw [h3]; rfl)]
    decide +kernel
  obtain ⟨⟨t', B⟩, hB⟩ := Option.isSome_iff_exists.mp hb
  exact ⟨B, exF_reachable, ⟨m, s, known, t', h1, h2, hB⟩, by decide +kernel, by decide +kernel, exHalves_positive,
    by unfold OneNode; decide +kernel, by decide +kernel⟩

/-- the unit interval -/
def exUnit : List (List (Refine.PNode ℝ)) := [[⟨0, fun _ => 0⟩, ⟨1, fun _ => 1⟩]]

/-- the two halves are what one refinement returns -/
theorem exHalves_refined : RefinedAt 1 2 exUnit (Equiv.swap 1 2) exCellsF exHalves := by
  refine ⟨⟨(Equiv.swap 1 2).injective, by rfl⟩, ?_⟩
  intro d hd q hq
  have e : (Refine.tetra 1 2 exUnit).2 = [[⟨0, fun _ => 0⟩, Refine.midnode 2 ⟨0, fun _ => 0⟩ ⟨1, fun _ => 1⟩],
      [Refine.midnode 2 ⟨0, fun _ => 0⟩ ⟨1, fun _ => 1⟩, ⟨1, fun _ => 1⟩]] := by rfl
  rw [e] at hd
  simp only [List.mem_cons, List.not_mem_nil, or_false] at hd
  rcases hd with rfl | rfl <;> simp only [List.mem_cons, List.not_mem_nil, or_false] at hq <;> rcases hq with rfl | rfl <;>
    simp [exHalves, Refine.midnode, Refine.midpoint, Equiv.swap_apply_def]

theorem exUnit_short : CoarseShort exUnit 1 1 := by
  intro c hc
  simp only [exUnit, List.mem_singleton] at hc
  subst hc
  simp

/-- a function that vanishes at the ends -/
def exParabola (y : ℝ) : ℝ := y * (1 - y)

theorem exParabola_vanishes : CoarseVanishes exUnit exParabola := by
  intro c hc q hq _
  simp only [exUnit, List.mem_singleton] at hc
  subst hc
  simp only [List.mem_cons, List.not_mem_nil, or_false] at hq
  rcases hq with rfl | rfl <;> simp [exParabola]

theorem exParabola_smooth (n : ℕ) : ContDiff ℝ n exParabola := by
  unfold exParabola
  fun_prop

/-- both orders apply to that mesh -/
example : ∃ B C, Divides exF exCellsF B exHalves ∧
    SolvesWithin1 segment2.rule exParabola (C * (exUnit.map (Refine.signedVolume 0 0 0)).sum * (1 / 2 ^ 1) ^ 2)
      (discretizeSeg1 exAlloc [] exHalves exCellsF B) := by
  obtain ⟨B, h1⟩ := exHalves_divides
  obtain ⟨ht, hs, -⟩ := segments_rules segment2 (by simp)
  obtain ⟨C, -, hC⟩ := segments_refined ht hs (exParabola_smooth 3) one_pos
  exact ⟨B, C, h1, hC 1 2 exUnit _ exF exCellsF B exHalves exAlloc [] 1 (by simp [Refine.Coarse, exUnit]) exHalves_refined h1 exUnit_short
    zero_le_one le_rfl exParabola_vanishes exAlloc_fresh List.nodup_nil⟩

example (ex : Expr (.vec 1) .scalar) (hex : ∀ y, ex.eval y () = exParabola (y 0)) : ∃ B C, Divides exF exCellsF B exHalves ∧
    SolvesWithinL21 segment2.rule exParabola ex (C * (exUnit.map (Refine.signedVolume 0 0 0)).sum * (1 / 2 ^ 1) ^ 4)
      (discretizeSeg1 exAlloc [] exHalves exCellsF B) := by
  obtain ⟨B, h1⟩ := exHalves_divides
  obtain ⟨ht, hs, hm⟩ := segments_rules segment2 (by simp)
  obtain ⟨C, -, hC⟩ := segments_refined_l2 ht hs hm (exParabola_smooth 4) one_pos
  exact ⟨B, C, h1, hC 1 2 exUnit _ exF exCellsF B exHalves exAlloc [] 1 ex (by simp [Refine.Coarse, exUnit]) exHalves_refined h1
    exUnit_short zero_le_one le_rfl exParabola_vanishes exAlloc_fresh List.nodup_nil hex⟩

end Mito.Fem
