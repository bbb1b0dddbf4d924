import Verif.Fem.InexactLemmas

/-!
# C100: conditioning of the Poisson problem on triangles, and solvers with a tolerance

The theorems on the convergence of the solutions of the Poisson problem (C90) are about solvers that return the solution of the system.
Krylov solvers stop at a tolerance instead.
-/

namespace Mito.DiscreteSystem

/-- **C100.**  Exact solvers are those with the tolerance zero. -/
theorem relative_zero (solver : Nat → (Nat → Nat → ℝ) → (Nat → ℝ) → Nat → ℝ) : Relative 0 solver ↔ Exact solver := by
  unfold Relative Exact
  refine forall_congr' fun n => forall_congr' fun A => forall_congr' fun f => imp_congr_right fun _ => ?_
  rw [zero_pow two_ne_zero, zero_mul]
  constructor
  · intro h
    have h0 := (Finset.sum_eq_zero_iff_of_nonneg fun i _ => sq_nonneg _).mp (le_antisymm h (square_nonneg _ _))
    funext i
    have := pow_eq_zero_iff two_ne_zero |>.mp (h0 i (Finset.mem_univ _))
    simp only [residual] at this
    simp only [Matrix.mulVec, dotProduct, asMatrix]
    linarith
  · intro h
    refine le_of_eq (Finset.sum_eq_zero fun i _ => ?_)
    have := congrFun h i
    simp only [Matrix.mulVec, dotProduct, asMatrix] at this
    simp only [residual, this]
    ring

/-- multiplies the solution by `1 - ρ` -/
noncomputable def shortSolver (ρ : ℝ) (n : Nat) (A : Nat → Nat → ℝ) (f : Nat → ℝ) (i : Nat) : ℝ := (1 - ρ) * inverseSolver n A f i

theorem shortSolver_relative (ρ : ℝ) : Relative ρ (shortSolver ρ) := by
  intro n A f hA
  rw [← square_scale]
  refine le_of_eq (Finset.sum_congr rfl fun i _ => ?_)
  have := congrFun (inverseSolver_exact n A f hA) i
  simp only [Matrix.mulVec, dotProduct, asMatrix] at this
  have e : ∑ j : Fin n, A i j * shortSolver ρ n A f j = (1 - ρ) * f i := by
    rw [← this, Finset.mul_sum]
    refine Finset.sum_congr rfl fun j _ => ?_
    rw [shortSolver]
    ring
  rw [residual, e]
  ring

/-- what it leaves in the field -/
theorem shortSolver_field {V : FunctionSpace ℝ} {blocks : Nat → Blocks ℝ} (hK : IsUnit (asMatrix (buildEquationMap V).2 (K V blocks)).det)
    (ρ : ℝ) {S S' : System ℝ} (k : Nat) (h : solveTimes inverseSolver blocks (k + 1) (create V) = some S)
    (h' : solveTimes (shortSolver ρ) blocks (k + 1) (create V) = some S') (x : Nat) (hx : x ∈ V.elements.flatten) (y : ℝ)
    (hy : Assoc.get S.field x = some y) : Assoc.get S'.field x = some ((1 - ρ) * y) := by
  obtain ⟨T, h1, -, -, h2, h3⟩ := solveTimes_eq inverseSolver V blocks (k + 1)
  obtain ⟨T', h1', -, -, h2', h3'⟩ := solveTimes_eq (shortSolver ρ) V blocks (k + 1)
  obtain rfl : T = S := Option.some_inj.mp (h1.symm.trans h)
  obtain rfl : T' = S' := Option.some_inj.mp (h1'.symm.trans h')
  rcases he : equationOf (buildEquationMap V).1 x with _ | i
  · rw [h2 x he, create_field, if_pos hx, Option.some_inj] at hy
    rw [h2' x he, create_field, if_pos hx, ← hy, mul_zero]
  · rw [h3 (by omega) x i he, Option.some_inj] at hy
    rw [h3' (by omega) x i he, ← hy]
    rfl

end Mito.DiscreteSystem

namespace Mito.Fem

open Mito.Functions Mito.Geometry Mito.Quadrature Mito.Meshes Mito.Topology Mito.Discretizer Mito.DiscreteSystem MeasureTheory

variable {t : Topo} {cells B : List GCell} {p : Id → Fin 2 → ℝ} {alloc : List Nat → Nat} {other : List Nat} {tb : Table 2}
  {u : (Fin 2 → ℝ) → ℝ}

theorem tri1_discretized (h : Triangulates t cells B p) (ha : ∀ l, alloc l ∉ l) (ho : other.Nodup) :
    ∃ φ : Nat → Nat, discretizeTri1 alloc other p cells B = .ok (tri1Space cells p φ, (B.flatMap ids).map φ) ∧
      ∀ n ∈ cells.flatMap ids, ∀ n' ∈ cells.flatMap ids, φ n = φ n' → n = n' := by
  obtain ⟨m, s, known, t', hm, hcl, hb⟩ := h.mesh
  have hB := boundary_nodes h.topology (by omega) hm hcl h.cell hb
  obtain ⟨φ, e1, e2, -, -, hinj⟩ := elementsP1_eq ha ho (cells.map ids)
  have e3 : constrainedP1 (elementsP1 alloc other [] (cells.map ids)).1 (B.flatMap ids) = .ok ((B.flatMap ids).map φ) := by
    refine constrainedP1_eq fun n hn => e2 n ?_
    obtain ⟨b, hb, hn⟩ := List.mem_flatMap.mp hn
    obtain ⟨x, hx, rfl⟩ := List.mem_map.mp hn
    obtain ⟨-, -, c, hc, hsub⟩ := hB b hb
    exact List.mem_flatten.mpr ⟨ids c, List.mem_map.mpr ⟨c, hc, rfl⟩, List.mem_map.mpr ⟨x, hsub x hx, rfl⟩⟩
  refine ⟨φ, ?_, fun n hn n' hn' => hinj n (List.flatMap_def ▸ hn) n' (List.flatMap_def ▸ hn')⟩
  rw [List.map_map] at e1
  unfold discretizeTri1
  simp only [e1, e3, collect]
  exact congrArg (fun s => Outcome.ok (s, (B.flatMap ids).map φ)) (spaceOf_map (fun c => triP1 (positions 3 p c)) cells (fun c => (ids c).map φ))

theorem fine_hull {h κ R : ℝ} (hf : Fine cells p h κ R) (hR0 : 0 < R) : ∀ c ∈ cells, ∀ y ∈ hull (positions 3 p c), |y 0| ≤ R :=
  fun c hc y hy => (norm_le_pi_norm y 0).trans (mem_closedBall_zero_iff.mp (hull_box hR0.le (hf c hc).2 hy))

/-- **C100.**  The eigenvalues of the matrix of the Poisson problem on linear triangles.  If the triangles have at least the area `a` and the
size `h`, the condition number is at most a constant times `R² / a`. -/
theorem poisson_conditioned (h : Triangulates t cells B p) {r κ R a : ℝ} (hf : Fine cells p r κ R) (hκ : 0 ≤ κ) (hR0 : 0 < R) (ha0 : 0 < a)
    (harea : ∀ c ∈ cells, a ≤ triangleArea (positions 3 p c)) {D : Nat} (hD : Valence cells D) (ha : ∀ l, alloc l ∉ l) (ho : other.Nodup)
    (hsum : (tb.map Prod.snd).sum = 1) :
    Conditioned tb.rule (a / (48 * R ^ 2)) (4 * κ * D) (discretizeTri1 alloc other p cells B) := by
  obtain ⟨φ, h1, h2⟩ := tri1_discretized h ha ho
  refine ⟨_, _, h1, fun f ev hev => eigenvalue_bounds (fun v => ?_) (fun v => ?_) hev⟩
  · exact tri1_lower h hsum f hR0 (fine_hull hf hR0) ha0 harea v
  · exact tri1_upper h h2 hsum f hκ hf hD _ v

/-- the field after solving with a tolerance, and its difference to the solution -/
theorem inexact_field (h : Triangulates t cells B p) {r κ R a : ℝ} (hf : Fine cells p r κ R) (hR0 : 0 < R) (ha0 : 0 < a)
    (harea : ∀ c ∈ cells, a ≤ triangleArea (positions 3 p c)) (ha : ∀ l, alloc l ∉ l) (ho : other.Nodup) (ht : Inside tb)
    (hsum : (tb.map Prod.snd).sum = 1) {f : (Fin 2 → ℝ) → ℝ} {M : ℝ} (hM0 : 0 ≤ M)
    (hM : ∀ c ∈ cells, ∀ y ∈ hull (positions 3 p c), |f y| ≤ M) :
    ∃ φ, discretizeTri1 alloc other p cells B = .ok (tri1Space cells p φ, (B.flatMap ids).map φ) ∧
      ∀ solver ρ, Relative ρ solver → ∀ k (S' : System ℝ) (U' : Nat → ℝ),
      solveTimes inverseSolver (poisson tb.rule f (tri1Space cells p φ)) (k + 1)
        (create (functionSpace (tri1Space cells p φ) ((B.flatMap ids).map φ))) = some S' →
      (∀ ec ∈ tri1Space cells p φ, ∀ a, Assoc.get S'.field (ec.2 a) = some (U' (ec.2 a))) →
      ∃ (S : System ℝ) (U : Nat → ℝ), solveTimes solver (poisson tb.rule f (tri1Space cells p φ)) (k + 1)
        (create (functionSpace (tri1Space cells p φ) ((B.flatMap ids).map φ))) = some S ∧
      (∀ ec ∈ tri1Space cells p φ, ∀ a, Assoc.get S.field (ec.2 a) = some (U (ec.2 a))) ∧
      ∃ d : Nat → ℝ, (∀ ec ∈ tri1Space cells p φ, ∀ a, U (ec.2 a) = U' (ec.2 a) + d (ec.2 a)) ∧ (∀ i ∈ (B.flatMap ids).map φ, d i = 0) ∧
        form (functionSpace (tri1Space cells p φ) ((B.flatMap ids).map φ)) (poisson tb.rule f (tri1Space cells p φ)) d d ≤
          48 * R ^ 2 / a * (ρ * (M * areaOf cells p)) ^ 2 := by
  obtain ⟨m, s, known, t', hm, hcl, hb⟩ := h.mesh
  have hB := boundary_nodes h.topology (by omega) hm hcl h.cell hb
  obtain ⟨ok, st⟩ := h.topology.ok
  obtain ⟨hw1, hw2⟩ := rule_usable ht hsum
  obtain ⟨φ, e1, e2⟩ := tri1_discretized h ha ho
  refine ⟨φ, e1, fun solver ρ hs k S' U' hS' hU' => ?_⟩
  have hstiff : ∀ ec ∈ tri1Space cells p φ, Stiff tb.rule ec.1 := by
    intro ec hec
    obtain ⟨c, hc, rfl⟩ := List.mem_map.mp hec
    exact stiff_tri1 hw1 hw2 (positions_area h hc)
  set V := functionSpace (tri1Space cells p φ) ((B.flatMap ids).map φ) with hV
  have hA : Anchored V := by
    obtain ⟨sp, l, e3, h3⟩ := dirichlet_tri1 h.topology hm hcl h.cell h.edges hb p h.positive h.nodes ha ho hw1 hw2
    rw [e1, Outcome.ok.injEq, Prod.mk.injEq] at e3
    obtain ⟨rfl, rfl⟩ := e3
    exact (poisson_wellposed hstiff).mp (h3 f).1
  obtain ⟨S0, u0, h1, h2, h3, -⟩ := poisson_solved (f := f) inverseSolver_exact hstiff hA k
  obtain rfl : S' = S0 := Option.some_inj.mp (hS'.symm.trans h1)
  have hmem : ∀ ec ∈ tri1Space cells p φ, ∀ a, ec.2 a ∈ V.elements.flatten := fun ec hec a =>
    List.mem_flatten.mpr ⟨List.ofFn ec.2, List.mem_map.mpr ⟨ec, hec, rfl⟩, (List.mem_ofFn' _ _).mpr ⟨a, rfl⟩⟩
  obtain ⟨S, v, g1, g2, g3, g4⟩ := relative_energy hs (elliptic_poisson (f := f) (constrained := (B.flatMap ids).map φ) hstiff) hA
    (m := a / (48 * R ^ 2)) (by positivity) (fun w => tri1_lower h hsum f hR0 (fine_hull hf hR0) ha0 harea w) h3 k
  refine ⟨S, v, g1, fun ec hec b => g3 _ (hmem ec hec b), fun i => v i - u0 i, fun ec hec b => ?_, fun i hi => ?_, g4.trans ?_⟩
  · have := (hU' ec hec b).symm.trans (h2 ec hec b)
    rw [Option.some_inj] at this
    rw [this]
    ring
  · beta_reduce
    rw [g2 i hi, h3.1 i hi, sub_zero]
  · have := tri1_load (φ := φ) h ht hsum hM0 hM ((B.flatMap ids).map φ)
    have h5 := mul_le_mul_of_nonneg_left this (show 0 ≤ ρ ^ 2 * (48 * R ^ 2 / a) by positivity)
    refine le_trans (le_of_eq ?_) (h5.trans (le_of_eq ?_))
    · rw [div_div_eq_mul_div, ← hV]
      ring
    · ring

/-- **C100.**  The error in the H1 norm with a solver with the relative tolerance `ρ`: twice the bound for exact solvers, and a term
that is proportional to the square of the tolerance and inversely proportional to the area of the smallest triangle. -/
theorem poisson_inexact (h : Triangulates t cells B p) {r κ R a : ℝ} (hf : Fine cells p r κ R) (hR0 : 0 < R) (ha0 : 0 < a)
    (harea : ∀ c ∈ cells, a ≤ triangleArea (positions 3 p c)) (ha : ∀ l, alloc l ∉ l) (ho : other.Nodup) (ht : Inside tb)
    (hsum : (tb.map Prod.snd).sum = 1) (hu : ContDiff ℝ 1 u) {f : (Fin 2 → ℝ) → ℝ} {M : ℝ} (hM0 : 0 ≤ M)
    (hM : ∀ c ∈ cells, ∀ y ∈ hull (positions 3 p c), |f y| ≤ M) {η : ℝ}
    (hη : SolvesWithin tb.rule f u η (discretizeTri1 alloc other p cells B)) (ρ : ℝ) :
    NearlySolvesWithin tb.rule f u ρ (2 * η + 96 * (1 + 4 * R ^ 2) * R ^ 2 / a * (ρ * (M * areaOf cells p)) ^ 2)
      (discretizeTri1 alloc other p cells B) := by
  obtain ⟨φ, h1, h2⟩ := inexact_field h hf hR0 ha0 harea ha ho ht hsum hM0 hM
  obtain ⟨space, l, h3, h4⟩ := hη
  rw [h1, Outcome.ok.injEq, Prod.mk.injEq] at h3
  obtain ⟨rfl, rfl⟩ := h3
  refine ⟨_, _, h1, fun solver hs k => ?_⟩
  obtain ⟨S', U', g1, g2, g3⟩ := h4 inverseSolver inverseSolver_exact k
  obtain ⟨S, U, h5, h6, d, h7, h8, h9⟩ := h2 solver ρ hs k S' U' g1 g2
  refine ⟨S, U, h5, h6, ?_⟩
  rw [errorSquare_congr (U' := fun i => U' i + d i) h7]
  have e1 := errorSquare_add (φ := φ) (fun c hc => positions_area h hc) U' d hu (contDiff_const (c := (0 : ℝ)))
  simp only [add_zero] at e1
  have e2 := errorSquare_form h hsum f (fine_hull hf hR0) h8 ((B.flatMap ids).map φ)
  have e3 := mul_le_mul_of_nonneg_left h9 (show 0 ≤ 1 + 4 * R ^ 2 by positivity)
  have e4 : 96 * (1 + 4 * R ^ 2) * R ^ 2 / a * (ρ * (M * areaOf cells p)) ^ 2 =
      2 * ((1 + 4 * R ^ 2) * (48 * R ^ 2 / a * (ρ * (M * areaOf cells p)) ^ 2)) := by ring
  rw [e4]
  linarith

/-- **C100.**  The same for the L2 norm that the code computes. -/
theorem poisson_inexact_l2 (h : Triangulates t cells B p) {r κ R a : ℝ} (hf : Fine cells p r κ R) (hR0 : 0 < R) (ha0 : 0 < a)
    (harea : ∀ c ∈ cells, a ≤ triangleArea (positions 3 p c)) (ha : ∀ l, alloc l ∉ l) (ho : other.Nodup) (ht : Inside tb)
    (hsum : (tb.map Prod.snd).sum = 1) (ex : Expr (.vec 2) .scalar) {f : (Fin 2 → ℝ) → ℝ} {M : ℝ} (hM0 : 0 ≤ M)
    (hM : ∀ c ∈ cells, ∀ y ∈ hull (positions 3 p c), |f y| ≤ M) {η : ℝ}
    (hη : SolvesWithinL2 tb.rule f ex η (discretizeTri1 alloc other p cells B)) (ρ : ℝ) :
    NearlySolvesWithinL2 tb.rule f ex ρ (2 * η + 768 * (2 * R ^ 2 + r ^ 2) * R ^ 2 / a * (ρ * (M * areaOf cells p)) ^ 2)
      (discretizeTri1 alloc other p cells B) := by
  obtain ⟨φ, h1, h2⟩ := inexact_field h hf hR0 ha0 harea ha ho ht hsum hM0 hM
  obtain ⟨space, l, h3, h4⟩ := hη
  rw [h1, Outcome.ok.injEq, Prod.mk.injEq] at h3
  obtain ⟨rfl, rfl⟩ := h3
  refine ⟨_, _, h1, fun solver hs k => ?_⟩
  obtain ⟨S', U', g1, g2, g3⟩ := h4 inverseSolver inverseSolver_exact k
  obtain ⟨S, U, h5, h6, d, h7, h8, h9⟩ := h2 solver ρ hs k S' U' g1 g2
  have e0 : ∀ ec ∈ tri1Space cells p φ, ∀ b, Assoc.get S.field (ec.2 b) = some ((fun i => U' i + d i) (ec.2 b)) := fun ec hec b => by
    rw [h6 ec hec b, h7 ec hec b]
  refine ⟨S, fun i => U' i + d i, h5, e0, ?_⟩
  have hrr : ∀ c ∈ cells, ∀ a b, dist (positions 3 p c a) (positions 3 p c b) ≤ r := fun c hc a b => by
    obtain ⟨⟨rc, hrc, h4, -⟩, -⟩ := hf c hc
    exact (h4 a b).trans hrc
  have e1 := l2Norm_add (φ := φ) ht hsum (fun c hc => positions_area h hc) U' d hrr ex
  rw [list_add, List.sum_map_mul_left, List.sum_map_mul_left] at e1
  have e2 := tri1_friedrichs h (fine_hull hf hR0) h8
  rw [tri1_form hsum] at h9
  set E := (cells.map fun c => triangleArea (positions 3 p c) * ∑ k, slope2 (positions 3 p c) (onCell φ d c) k ^ 2).sum
  set N := (cells.map fun c => ∫ y in hull (positions 3 p c), linear (positions 3 p c) (onCell φ d c) y ^ 2).sum
  have e3 := mul_le_mul_of_nonneg_left h9 (show 0 ≤ 32 * R ^ 2 + 16 * r ^ 2 by positivity)
  have e4 : 768 * (2 * R ^ 2 + r ^ 2) * R ^ 2 / a * (ρ * (M * areaOf cells p)) ^ 2 =
      (32 * R ^ 2 + 16 * r ^ 2) * (48 * R ^ 2 / a * (ρ * (M * areaOf cells p)) ^ 2) := by ring
  rw [e4]
  linarith

/-- **C100.**  First order of convergence for solvers with a tolerance, on meshes with triangles of similar sizes, if the tolerance is
reduced with the square of the size. -/
theorem poisson_order_inexact (ht : Inside tb) (hsum : (tb.map Prod.snd).sum = 1) (hu : ContDiff ℝ 3 u) {κ R q : ℝ} (hκ : 0 ≤ κ) (hR : 0 < R)
    (hq : 0 ≤ q) :
    ∃ C, ∀ (t : Topo) (cells B : List GCell) (p : Id → Val (.vec 2)) (alloc : List Nat → Nat) (other : List Nat) (h ρ : ℝ),
      Triangulates t cells B p → Fine cells p h κ R → 0 < h → h ≤ 1 → (∀ c ∈ cells, h ^ 2 ≤ q * triangleArea (positions 3 p c)) →
      0 ≤ ρ → ρ ≤ h ^ 2 → Vanishes B p u → (∀ l, alloc l ∉ l) → other.Nodup →
      NearlySolvesWithin tb.rule (sourceOf u) u ρ (C * (areaOf cells p + areaOf cells p ^ 2) * h ^ 2)
        (discretizeTri1 alloc other p cells B) := by
  have hu2 : ContDiff ℝ 2 u := hu.of_le (by norm_num)
  obtain ⟨C, hC⟩ := poisson_order ht hsum hu hκ hR
  obtain ⟨M, hM0, hM⟩ := bounded_ball (source_continuous hu2) R
  refine ⟨2 * |C| + 96 * (1 + 4 * R ^ 2) * R ^ 2 * (q + 1) * M ^ 2, ?_⟩
  intro t cells B p alloc other h ρ htri hf hh0 hh1 hqa hρ0 hρ hv ha ho
  have hA : 0 ≤ areaOf cells p := List.sum_nonneg fun y hy => by
    obtain ⟨c, hc, rfl⟩ := List.mem_map.mp hy
    exact (positions_area htri hc).le
  have hq1 : 0 < q + 1 := by linarith
  have h1 := poisson_inexact htri hf hR (a := h ^ 2 / (q + 1)) (by positivity) (fun c hc => by
      rw [div_le_iff₀ hq1]
      have := positions_area htri hc
      nlinarith [hqa c hc]) ha ho ht hsum (hu.of_le (by norm_num)) hM0
    (fun c hc y hy => hM y (hull_box hR.le (hf c hc).2 hy)) (hC t cells B p alloc other h htri hf hh0.le hh1 hv ha ho) ρ
  obtain ⟨space, l, h2, h3⟩ := h1
  refine ⟨space, l, h2, fun solver hs k => ?_⟩
  obtain ⟨S, U, h4, h5, h6⟩ := h3 solver hs k
  refine ⟨S, U, h4, h5, h6.trans ?_⟩
  set A := areaOf cells p
  have e1 : 96 * (1 + 4 * R ^ 2) * R ^ 2 / (h ^ 2 / (q + 1)) * (ρ * (M * A)) ^ 2 =
      96 * (1 + 4 * R ^ 2) * R ^ 2 * (q + 1) * M ^ 2 * A ^ 2 * (ρ ^ 2 / h ^ 2) := by
    field_simp
  have e2 : ρ ^ 2 / h ^ 2 ≤ h ^ 2 := by
    rw [div_le_iff₀ (by positivity)]
    have := pow_le_pow_left₀ hρ0 hρ 2
    linarith
  rw [e1]
  have e3 := mul_le_mul_of_nonneg_left e2 (show 0 ≤ 96 * (1 + 4 * R ^ 2) * R ^ 2 * (q + 1) * M ^ 2 * A ^ 2 by positivity)
  have e4 : 2 * (C * A * h ^ 2) ≤ 2 * |C| * (A * h ^ 2) := by
    have := mul_le_mul_of_nonneg_right (le_abs_self C) (show 0 ≤ A * h ^ 2 by positivity)
    linarith
  have e5 : 0 ≤ 2 * |C| * (A ^ 2 * h ^ 2) := by positivity
  have e6 : 0 ≤ 96 * (1 + 4 * R ^ 2) * R ^ 2 * (q + 1) * M ^ 2 * (A * h ^ 2) := by positivity
  nlinarith

/-- **C100.**  A fixed tolerance stops the convergence: where exact solvers have the error `η`, any bound `η'` for all solvers with the
tolerance `ρ` is at least `ρ² / 4` times the square of the norm of `u`, up to a multiple of `η`. -/
theorem poisson_stagnates (h : Triangulates t cells B p) (ha : ∀ l, alloc l ∉ l) (ho : other.Nodup) (ht : Inside tb)
    (hsum : (tb.map Prod.snd).sum = 1) (hu : ContDiff ℝ 1 u) {f : (Fin 2 → ℝ) → ℝ} {ρ η η' : ℝ}
    (hη : SolvesWithin tb.rule f u η (discretizeTri1 alloc other p cells B))
    (hη' : NearlySolvesWithin tb.rule f u ρ η' (discretizeTri1 alloc other p cells B)) :
    ∃ space l, discretizeTri1 alloc other p cells B = .ok (space, l) ∧
      ρ ^ 2 * errorSquare space (fun _ => 0) u ≤ (4 + 2 * ρ ^ 2) * η + 4 * η' := by
  obtain ⟨m, s, known, t', hm, hcl, hb⟩ := h.mesh
  obtain ⟨hw1, hw2⟩ := rule_usable ht hsum
  obtain ⟨φ, h1, -⟩ := tri1_discretized h ha ho
  refine ⟨_, _, h1, ?_⟩
  obtain ⟨_, _, h3, h4⟩ := hη
  rw [h1, Outcome.ok.injEq, Prod.mk.injEq] at h3
  obtain ⟨rfl, rfl⟩ := h3
  obtain ⟨_, _, h3, h5⟩ := hη'
  rw [h1, Outcome.ok.injEq, Prod.mk.injEq] at h3
  obtain ⟨rfl, rfl⟩ := h3
  obtain ⟨_, _, h3, h6⟩ := dirichlet_tri1 h.topology hm hcl h.cell h.edges hb p h.positive h.nodes ha ho hw1 hw2
  rw [h1, Outcome.ok.injEq, Prod.mk.injEq] at h3
  obtain ⟨rfl, rfl⟩ := h3
  obtain ⟨S, U, g1, g2, g3⟩ := h4 inverseSolver inverseSolver_exact 0
  obtain ⟨S', U', k1, k2, k3⟩ := h5 (shortSolver ρ) (shortSolver_relative ρ) 0
  have hU' : ∀ ec ∈ tri1Space cells p φ, ∀ a, U' (ec.2 a) = (1 - ρ) * U (ec.2 a) := by
    intro ec hec a
    have hmem : ec.2 a ∈ (functionSpace (tri1Space cells p φ) ((B.flatMap ids).map φ)).elements.flatten :=
      List.mem_flatten.mpr ⟨List.ofFn ec.2, List.mem_map.mpr ⟨ec, hec, rfl⟩, (List.mem_ofFn' _ _).mpr ⟨a, rfl⟩⟩
    have := shortSolver_field (h6 f).1 ρ 0 g1 k1 _ hmem _ (g2 ec hec a)
    exact Option.some_inj.mp ((k2 ec hec a).symm.trans this)
  rw [errorSquare_congr (U' := fun i => (1 - ρ) * U i) hU'] at k3
  have hpos : ∀ c ∈ cells, 0 < triangleArea (positions 3 p c) := fun c hc => positions_area h hc
  -- the difference of the two fields
  have e1 := errorSquare_add (φ := φ) hpos U (fun i => -((1 - ρ) * U i)) hu hu.neg
  rw [errorSquare_neg (U := fun i => (1 - ρ) * U i)] at e1
  have e2 : errorSquare (tri1Space cells p φ) (fun d => U d + -((1 - ρ) * U d)) (fun y => u y + -u y) =
      ρ ^ 2 * errorSquare (tri1Space cells p φ) U fun _ => 0 := by
    rw [← errorSquare_scale]
    congr 1
    · funext d; ring
    · funext y; ring
  rw [e2] at e1
  -- the norm of `u`
  have e3 := errorSquare_add (φ := φ) hpos U (fun i => -U i) hu (contDiff_const (c := (0 : ℝ)))
  have e4 : errorSquare (tri1Space cells p φ) (fun i => -U i) (fun _ => 0) = errorSquare (tri1Space cells p φ) U fun _ => 0 := by
    rw [← errorSquare_neg (U := U)]
    simp
  rw [e4] at e3
  simp only [add_zero, add_neg_cancel] at e3
  have e5 := mul_le_mul_of_nonneg_left e3 (sq_nonneg ρ)
  nlinarith [sq_nonneg ρ, mul_le_mul_of_nonneg_left g3 (sq_nonneg ρ)]

/-! ## An example -/

/-- the theorems apply to three triangles around a node, with the midpoint rule of mito -/
example : ∃ B C, Triangulates exFan exCellsFan B exUnitFan ∧
    Conditioned triangle1.rule (1 / 288) 72 (discretizeTri1 exAlloc [] exUnitFan exCellsFan B) ∧
    ∀ ρ, NearlySolvesWithin triangle1.rule (sourceOf exBubble) exBubble ρ (C * (1 + ρ ^ 2)) (discretizeTri1 exAlloc [] exUnitFan exCellsFan B) := by
  obtain ⟨B, h1, h2, h3⟩ := exUnitFan_triangulates
  obtain ⟨ht, hs⟩ := rules_converge.2.1 triangle1 (by simp)
  obtain ⟨C, hC⟩ := poisson_order ht hs exBubble_smooth (κ := 6) (R := 1) (by norm_num) one_pos
  obtain ⟨M, hM0, hM⟩ := bounded_ball (source_continuous (exBubble_smooth.of_le (by norm_num))) 1
  have harea : ∀ c ∈ exCellsFan, 1 / 6 ≤ triangleArea (positions 3 exUnitFan c) := by
    intro c hc
    have e : (c.nodes.map fun x => x.vertex) = [0, 1, 3] ∨ (c.nodes.map fun x => x.vertex) = [1, 2, 3] ∨
        (c.nodes.map fun x => x.vertex) = [2, 0, 3] := by
      revert c
      decide +kernel
    rcases e with e | e | e <;> norm_num [triangleArea, positions, e, exUnitFan]
  have hval : Valence exCellsFan 3 := by
    intro n
    by_cases hm : n ∈ exCellsFan.flatMap ids
    · have : ∀ i ∈ exCellsFan.flatMap ids, (exCellsFan.flatMap ids).count i ≤ 3 := by decide +kernel
      exact this n hm
    · rw [List.count_eq_zero_of_not_mem hm]
      omega
  refine ⟨B, max (2 * (C * areaOf exCellsFan exUnitFan)) (2880 * (M * areaOf exCellsFan exUnitFan) ^ 2), h1, ?_, fun ρ => ?_⟩
  · have := poisson_conditioned h1 h2 (by norm_num) one_pos (by norm_num : (0 : ℝ) < 1 / 6) harea hval exAlloc_fresh List.nodup_nil hs
    norm_num at this ⊢
    exact this
  · have h4 := poisson_inexact h1 h2 one_pos (by norm_num : (0 : ℝ) < 1 / 6) harea exAlloc_fresh List.nodup_nil ht hs
      (exBubble_smooth.of_le (by norm_num)) hM0 (fun c hc y hy => hM y (hull_box zero_le_one (h2 c hc).2 hy))
      (hC exFan exCellsFan B exUnitFan exAlloc [] 1 h1 h2 zero_le_one le_rfl h3 exAlloc_fresh List.nodup_nil) ρ
    obtain ⟨space, l, h5, h6⟩ := h4
    refine ⟨space, l, h5, fun solver hs k => ?_⟩
    obtain ⟨S, U, h7, h8, h9⟩ := h6 solver hs k
    refine ⟨S, U, h7, h8, h9.trans ?_⟩
    have m1 := le_max_left (2 * (C * areaOf exCellsFan exUnitFan)) (2880 * (M * areaOf exCellsFan exUnitFan) ^ 2)
    have m2 := le_max_right (2 * (C * areaOf exCellsFan exUnitFan)) (2880 * (M * areaOf exCellsFan exUnitFan) ^ 2)
    have m3 := mul_le_mul_of_nonneg_left m2 (sq_nonneg ρ)
    rw [mul_pow]
    norm_num
    nlinarith

end Mito.Fem
