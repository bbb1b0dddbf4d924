import Verif.Fem.EnergyLemmas
import Verif.Props.Dirichlet
import Verif.Props.Stokes

/-! # The sums of divergences over the triangles of a mesh -/

namespace Mito.Fem

open Mito.Functions Mito.Geometry Mito.Quadrature Mito.Meshes Mito.Topology Mito.Discretizer Mito.DiscreteSystem MeasureTheory

/-- the flux through an edge of a field given by its trace -/
noncomputable def traceFlux (τ : Id → Id → ℝ → ℝ) (F : Fin 2 → (Fin 2 → ℝ) → ℝ) (p : Id → Fin 2 → ℝ) : List Id → ℝ
  | [a, b] =>
      ∫ s in (0 : ℝ)..1, τ a b s * (F 0 (fun k => p a k + s * (p b k - p a k)) * (p b 1 - p a 1) -
        F 1 (fun k => p a k + s * (p b k - p a k)) * (p b 0 - p a 0))
  | _ => 0

theorem traceFlux_other (τ : Id → Id → ℝ → ℝ) (F : Fin 2 → (Fin 2 → ℝ) → ℝ) (p : Id → Fin 2 → ℝ) {L : List Id} (h : L.length ≠ 2) :
    traceFlux τ F p L = 0 := by
  match L, h with
  | [], _ | [_], _ | _ :: _ :: _ :: _, _ => rfl
  | [_, _], h => simp at h

theorem traceFlux_alternating {τ : Id → Id → ℝ → ℝ} (hτ : ∀ a b s, τ a b s = τ b a (1 - s)) (F : Fin 2 → (Fin 2 → ℝ) → ℝ)
    (p : Id → Fin 2 → ℝ) : Alternating (traceFlux τ F p) := by
  intro pr x m y s
  by_cases hl : pr.length + m.length + s.length = 0
  · obtain ⟨h1, rfl⟩ : pr.length + m.length = 0 ∧ s = [] := ⟨by omega, List.length_eq_zero_iff.mp (by omega)⟩
    obtain rfl : pr = [] := List.length_eq_zero_iff.mp (by omega)
    obtain rfl : m = [] := List.length_eq_zero_iff.mp (by omega)
    simp only [List.nil_append, traceFlux]
    have := intervalIntegral.integral_comp_sub_left (a := 0) (b := 1) (fun s : ℝ =>
      τ y x s * (F 0 (fun k => p y k + s * (p x k - p y k)) * (p x 1 - p y 1) -
        F 1 (fun k => p y k + s * (p x k - p y k)) * (p x 0 - p y 0))) 1
    simp only [sub_self, sub_zero] at this
    rw [← this, ← intervalIntegral.integral_neg]
    congr 1
    funext s
    have e : (fun k => p x k + s * (p y k - p x k)) = fun k => p y k + (1 - s) * (p x k - p y k) := by funext k; ring
    rw [hτ x y s, e]
    ring
  · rw [traceFlux_other, traceFlux_other, neg_zero] <;> simp only [List.length_append, List.length_cons] <;> omega

theorem positions_area {p : Id → Val (.vec 2)} {t : Topo} {cells B : List GCell} (h : Triangulates t cells B p) {c : GCell} (hc : c ∈ cells) :
    0 < triangleArea (positions 3 p c) := positive_triangle (h.positive c hc).2

/-- the divergences of fields with traces on the edges that vanish on the boundary sum up to zero -/
theorem sum_divergence_zero {t : Topo} {cells B : List GCell} {p : Id → Fin 2 → ℝ} (h : Triangulates t cells B p)
    {Φ : GCell → Fin 2 → (Fin 2 → ℝ) → ℝ} (hΦ : ∀ c ∈ cells, ∀ k, ContDiff ℝ 1 (Φ c k)) {τ : Id → Id → ℝ → ℝ}
    (hτ : ∀ a b s, τ a b s = τ b a (1 - s)) (F : Fin 2 → (Fin 2 → ℝ) → ℝ)
    (hF : ∀ c ∈ cells, ∀ x y, x ∈ c.nodes → y ∈ c.nodes → ∀ s k, Φ c k (fun i => p x.vertex i + s * (p y.vertex i - p x.vertex i)) =
      τ x.vertex y.vertex s * F k (fun i => p x.vertex i + s * (p y.vertex i - p x.vertex i)))
    (h0 : ∀ b ∈ B, ∀ x y, b.nodes = [x, y] → ∀ s, τ x.vertex y.vertex s = 0) :
    (cells.map fun c => ∫ y in hull (positions 3 p c), ∑ k, fderiv ℝ (Φ c k) y (Pi.single k 1)).sum = 0 := by
  obtain ⟨ok, st⟩ := h.topology.ok
  obtain ⟨m, s, known, t', hm, hcl, hb⟩ := h.mesh
  have hst := stokes_triangles h.topology hm hcl h.cell h.edges t' B hb (traceFlux τ F p) (traceFlux_alternating hτ F p)
  have hz : (B.map fun d => traceFlux τ F p d.vertices).sum = 0 := by
    refine List.sum_eq_zero fun y hy => ?_
    obtain ⟨b, hb', rfl⟩ := List.mem_map.mp hy
    obtain ⟨x, y, hn, -⟩ := nodes_pair (boundary_nodes h.topology (by omega) hm hcl h.cell hb b hb').1
    simp only [GCell.vertices, hn, List.map_cons, List.map_nil, traceFlux, h0 b hb' x y hn, zero_mul,
      intervalIntegral.integral_zero]
  rw [hz] at hst
  rw [hst]
  refine congrArg List.sum (List.map_congr_left fun c hc => ?_)
  have hlen := (h.cell c hc).length ok.inv st (by omega)
  rw [divergence_triangle (hΦ c hc) _ (positions_area h hc)]
  match hn : c.nodes, hlen with
  | [x, y, z], _ =>
    have hx : positions 3 p c 0 = p x.vertex := by simp [positions, hn]
    have hy : positions 3 p c 1 = p y.vertex := by simp [positions, hn]
    have hz : positions 3 p c 2 = p z.vertex := by simp [positions, hn]
    have key : ∀ x ∈ c.nodes, ∀ y ∈ c.nodes, flux (Φ c) (p x.vertex) (p y.vertex) = traceFlux τ F p [x.vertex, y.vertex] := by
      intro x hx y hy
      simp only [flux, traceFlux, hF c hc x y hx hy]
      congr 1
      funext s
      ring
    rw [hx, hy, hz, key x (by simp [hn]) y (by simp [hn]), key y (by simp [hn]) z (by simp [hn]), key z (by simp [hn]) x (by simp [hn]),
      (h.positive c hc).1]
    simp [GCell.vertices, hn, overEdges]

/-! ## The error on a triangle -/

theorem hull_error (x : Fin 3 → Fin 2 → ℝ) (hx : 0 < triangleArea x) (U : Fin 3 → ℝ) (u : (Fin 2 → ℝ) → ℝ) :
    ∫ ξ in Simplex 2 1, (triP1 x).detJ ξ *
      ((∑ a, U a * ((triP1 x).shape a).eval ξ () - u ((triP1 x).parametrization.eval ξ)) ^ 2 +
        ∑ k, (∑ a, U a * (triP1 x).gradient a ξ k - partial2 u k ((triP1 x).parametrization.eval ξ)) ^ 2) =
      ∫ y in hull x, ((linear x U y - u y) ^ 2 + ∑ k, (slope2 x U k - partial2 u k y) ^ 2) := by
  rw [hull, integral_hull (n := 1), simplexVolume_area, abs_of_pos hx, meanOver]
  simp only [tri1_detJ, linear_shape hx.ne', slope_gradient, integral_const_mul]
  norm_num [Nat.factorial]
  rw [mul_comm 2, mul_assoc]
  rfl

theorem add_square (a b : ℝ) : (a + b) ^ 2 ≤ 2 * a ^ 2 + 2 * b ^ 2 := by nlinarith [sq_nonneg (a - b)]

theorem linear_sub (x : Fin 3 → Fin 2 → ℝ) (U w : Fin 3 → ℝ) (y : Fin 2 → ℝ) :
    linear x U y = linear x (fun a => U a - w a) y + linear x w y := by
  simp only [linear, Fin.sum_univ_two, slope_sub]
  ring

/-- the error in terms of the difference `v` between the discrete solution and the interpolating function -/
theorem hull_error_le {x : Fin 3 → Fin 2 → ℝ} (hx : 0 < triangleArea x) (U : Fin 3 → ℝ) {u : (Fin 2 → ℝ) → ℝ} (hu : ContDiff ℝ 2 u) {h e : ℝ}
    (hr : ∀ a b, dist (x a) (x b) ≤ h)
    (he : ∀ k, ∀ y ∈ hull x, |slope2 x (fun b => u (x b)) k - partial2 u k y| ≤ e) :
    ∫ y in hull x, ((linear x U y - u y) ^ 2 + ∑ k, (slope2 x U k - partial2 u k y) ^ 2) ≤
      2 * (∫ y in hull x, linear x (fun a => U a - u (x a)) y ^ 2) +
        2 * (triangleArea x * ∑ k, slope2 x (fun a => U a - u (x a)) k ^ 2) + triangleArea x * (8 * e ^ 2 * h ^ 2 + 4 * e ^ 2) := by
  set v : Fin 3 → ℝ := fun a => U a - u (x a) with hv
  have hlc := linear_continuous x v
  have hlU := linear_continuous x U
  have huc : Continuous u := hu.continuous
  have hpc : ∀ k, Continuous (partial2 u k) := fun k => (partial_contDiff hu k).continuous
  have hc2 : Continuous fun y => 2 * linear x v y ^ 2 := continuous_const.mul (hlc.pow 2)
  have e1 : 2 * (∫ y in hull x, linear x v y ^ 2) + 2 * (triangleArea x * ∑ k, slope2 x v k ^ 2) +
        triangleArea x * (8 * e ^ 2 * h ^ 2 + 4 * e ^ 2) =
      ∫ y in hull x, (2 * linear x v y ^ 2 + (2 * (∑ k, slope2 x v k ^ 2) + (8 * e ^ 2 * h ^ 2 + 4 * e ^ 2))) := by
    rw [integral_add (hull_integrable x hc2) (hull_integrable x continuous_const), hull_const x hx.le, integral_const_mul]
    ring
  rw [e1]
  refine hull_mono x ?_ (hc2.add continuous_const) fun y hy => ?_
  · exact ((hlU.sub huc).pow 2).add (continuous_finsetSum _ fun k _ => ((continuous_const.sub (hpc k)).pow 2))
  have h1 : (linear x U y - u y) ^ 2 ≤ 2 * linear x v y ^ 2 + 8 * e ^ 2 * h ^ 2 := by
    have h2 := linear_error (hu.differentiable two_ne_zero) hx hr he hy
    have h3 : (linear x (fun a => u (x a)) y - u y) ^ 2 ≤ (2 * e * h) ^ 2 := sq_le_sq' (neg_le_of_abs_le h2) (le_of_abs_le h2)
    have h4 := add_square (linear x v y) (linear x (fun a => u (x a)) y - u y)
    rw [linear_sub x U (fun a => u (x a)) y, add_sub_assoc]
    nlinarith
  have h5 : ∀ k, (slope2 x U k - partial2 u k y) ^ 2 ≤ 2 * slope2 x v k ^ 2 + 2 * e ^ 2 := by
    intro k
    have h2 := he k y hy
    have h3 : (slope2 x (fun a => u (x a)) k - partial2 u k y) ^ 2 ≤ e ^ 2 := sq_le_sq' (neg_le_of_abs_le h2) (le_of_abs_le h2)
    have h4 := add_square (slope2 x v k) (slope2 x (fun a => u (x a)) k - partial2 u k y)
    rw [hv, slope_sub] at h4 ⊢
    rw [show slope2 x U k - partial2 u k y = slope2 x U k - slope2 x (fun a => u (x a)) k +
      (slope2 x (fun a => u (x a)) k - partial2 u k y) by ring]
    nlinarith
  rw [Fin.sum_univ_two, Fin.sum_univ_two]
  linarith [h5 0, h5 1]

/-- the same at the points of a rule -/
theorem rule_error_le {t : Table 2} (ht : Inside t) (hsum : (t.map Prod.snd).sum = 1) {x : Fin 3 → Fin 2 → ℝ} (hx : 0 < triangleArea x)
    (U : Fin 3 → ℝ) {u : (Fin 2 → ℝ) → ℝ} (hu : ContDiff ℝ 2 u) {h e : ℝ} (hr : ∀ a b, dist (x a) (x b) ≤ h)
    (he : ∀ k, ∀ y ∈ hull x, |slope2 x (fun b => u (x b)) k - partial2 u k y| ≤ e) :
    (t.rule.map fun p => factor (triP1 x) p *
        (∑ a, ((triP1 x).shape a).eval p.1 () * U a - u ((triP1 x).parametrization.eval p.1)) ^ 2).sum ≤
      4 * (∫ y in hull x, linear x (fun a => U a - u (x a)) y ^ 2) +
        8 * h ^ 2 * (triangleArea x * ∑ k, slope2 x (fun a => U a - u (x a)) k ^ 2) + triangleArea x * (8 * e ^ 2 * h ^ 2) := by
  set v : Fin 3 → ℝ := fun a => U a - u (x a) with hv
  have hlc := linear_continuous x v
  have hc2 : Continuous fun y => 4 * linear x v y ^ 2 := continuous_const.mul (hlc.pow 2)
  have key : ∀ p ∈ t.rule, factor (triP1 x) p *
      (∑ a, ((triP1 x).shape a).eval p.1 () * U a - u ((triP1 x).parametrization.eval p.1)) ^ 2 ≤
      p.2 * (4 * (∫ y in hull x, linear x v y ^ 2) +
        8 * h ^ 2 * (triangleArea x * ∑ k, slope2 x v k ^ 2) + triangleArea x * (8 * e ^ 2 * h ^ 2)) := by
    intro p hp
    obtain ⟨hp0, hpm⟩ := rule_mem ht p hp
    have hf : factor (triP1 x) p = p.2 * triangleArea x := by
      rw [factor, tri1_detJ]
      have h2 : Geometry.area 2 = 1 / 2 := by simp [Geometry.area, Nat.factorial]
      rw [h2]
      ring
    have hs : ∑ a, ((triP1 x).shape a).eval p.1 () * U a = linear x U ((parametrization x).eval p.1) := by
      rw [← linear_shape hx.ne']
      exact Finset.sum_congr rfl fun a _ => mul_comm _ _
    have hz : (parametrization x).eval p.1 ∈ hull x := by
      rw [hull, ← parametrization_image]
      exact ⟨p.1, hpm, rfl⟩
    set z := (parametrization x).eval p.1
    have hpar : (triP1 x).parametrization.eval p.1 = z := rfl
    rw [hf, hs, hpar, mul_assoc]
    refine mul_le_mul_of_nonneg_left ?_ hp0.le
    have h1 : (linear x U z - u z) ^ 2 ≤ 2 * linear x v z ^ 2 + 8 * e ^ 2 * h ^ 2 := by
      have h2 := linear_error (hu.differentiable two_ne_zero) hx hr he hz
      have h3 : (linear x (fun a => u (x a)) z - u z) ^ 2 ≤ (2 * e * h) ^ 2 := sq_le_sq' (neg_le_of_abs_le h2) (le_of_abs_le h2)
      have h4 := add_square (linear x v z) (linear x (fun a => u (x a)) z - u z)
      rw [linear_sub x U (fun a => u (x a)) z, add_sub_assoc]
      nlinarith
    have h2 : triangleArea x * (2 * linear x v z ^ 2) ≤
        4 * (∫ y in hull x, linear x v y ^ 2) + 8 * h ^ 2 * (triangleArea x * ∑ k, slope2 x v k ^ 2) := by
      have e1 : 4 * (∫ y in hull x, linear x v y ^ 2) + 8 * h ^ 2 * (triangleArea x * ∑ k, slope2 x v k ^ 2) =
          ∫ y in hull x, (4 * linear x v y ^ 2 + 8 * h ^ 2 * ∑ k, slope2 x v k ^ 2) := by
        rw [integral_add (hull_integrable x hc2) (hull_integrable x continuous_const), hull_const x hx.le, integral_const_mul]
        ring
      rw [e1, ← hull_const x hx.le]
      refine hull_mono x continuous_const (hc2.add continuous_const) fun y hy => ?_
      have h3 := linear_variation hr v hz hy
      have h4 : (linear x v z - linear x v y) ^ 2 ≤ (h * ∑ k, |slope2 x v k|) ^ 2 := sq_le_sq' (neg_le_of_abs_le h3) (le_of_abs_le h3)
      have h5 : (∑ k, |slope2 x v k|) ^ 2 ≤ 2 * ∑ k, slope2 x v k ^ 2 := by
        rw [Fin.sum_univ_two, Fin.sum_univ_two, ← sq_abs (slope2 x v 0), ← sq_abs (slope2 x v 1)]
        linarith [add_square |slope2 x v 0| |slope2 x v 1|]
      have h6 := add_square (linear x v y) (linear x v z - linear x v y)
      rw [add_sub_cancel, mul_pow] at *
      nlinarith [mul_le_mul_of_nonneg_left h5 (sq_nonneg h)]
    nlinarith [mul_le_mul_of_nonneg_left h1 hx.le]
  refine (list_le t.rule key).trans (le_of_eq ?_)
  rw [List.sum_map_mul_right, rule_sum hsum, one_mul]

/-! ## The error on a mesh -/

theorem load_poisson {d n : Nat} (rule : Rule d) (f : Val (.vec d) → ℝ) (space : Space Nat d n) (l : List Nat) (w : Nat → ℝ) :
    load (functionSpace space l) (poisson rule f space) w = (space.map fun ec => ∑ a, w (ec.2 a) * sourceTerm f rule ec.1 a).sum := by
  unfold load
  have hlen : (functionSpace space l).elements.length = space.length := by simp [functionSpace]
  rw [← List.ofFn_getElem (xs := space.map _), List.sum_ofFn]
  refine Fintype.sum_equiv (finCongr (by rw [hlen, List.length_map])) _ _ fun e => ?_
  rw [elementLoad_poisson rule f space l e (by have := e.isLt; omega)]
  simp

/-- the values on the cells of a function of the discretization nodes -/
def onCell (φ : Nat → Nat) (U : Nat → ℝ) (c : GCell) (a : Fin 3) : ℝ := U (((ids c).map φ).getD a 0)

theorem cell_node {t : Topo} {cells B : List GCell} {p : Id → Fin 2 → ℝ} (h : Triangulates t cells B p) {c : GCell} (hc : c ∈ cells)
    (a : Fin 3) : ∃ x ∈ c.nodes, positions 3 p c a = p x.vertex ∧ ∀ φ U, onCell φ U c a = U (φ x.id) := by
  obtain ⟨ok, st⟩ := h.topology.ok
  have hlen := (h.cell c hc).length ok.inv st (by omega)
  match hn : c.nodes, hlen with
  | [x, y, z], _ =>
    fin_cases a
    · exact ⟨x, by simp, by simp [positions, hn], fun φ U => by simp [onCell, ids, hn]⟩
    · exact ⟨y, by simp, by simp [positions, hn], fun φ U => by simp [onCell, ids, hn]⟩
    · exact ⟨z, by simp, by simp [positions, hn], fun φ U => by simp [onCell, ids, hn]⟩

theorem node_cell {t : Topo} {cells B : List GCell} {p : Id → Fin 2 → ℝ} (h : Triangulates t cells B p) {c : GCell} (hc : c ∈ cells)
    {x : Node} (hx : x ∈ c.nodes) : ∃ a, positions 3 p c a = p x.vertex ∧ ∀ φ U, onCell φ U c a = U (φ x.id) := by
  obtain ⟨ok, st⟩ := h.topology.ok
  have hlen := (h.cell c hc).length ok.inv st (by omega)
  match hn : c.nodes, hlen with
  | [x', y, z], _ =>
    rw [hn] at hx
    simp only [List.mem_cons, List.not_mem_nil, or_false] at hx
    rcases hx with rfl | rfl | rfl
    · exact ⟨0, by simp [positions, hn], fun φ U => by simp [onCell, ids, hn]⟩
    · exact ⟨1, by simp [positions, hn], fun φ U => by simp [onCell, ids, hn]⟩
    · exact ⟨2, by simp [positions, hn], fun φ U => by simp [onCell, ids, hn]⟩

/-- a continuous function that is linear on the cells and vanishes on the boundary -/
theorem sum_green {t : Topo} {cells B : List GCell} {p : Id → Fin 2 → ℝ} (h : Triangulates t cells B p) {v : GCell → Fin 3 → ℝ}
    {ω : Id → ℝ} (hv : ∀ c ∈ cells, ∀ x ∈ c.nodes, ∃ a, positions 3 p c a = p x.vertex ∧ v c a = ω x.vertex)
    (h0 : ∀ b ∈ B, ∀ x ∈ b.nodes, ω x.vertex = 0) {u : (Fin 2 → ℝ) → ℝ} (hu : ContDiff ℝ 2 u) :
    (cells.map fun c => (∑ k, slope2 (positions 3 p c) (v c) k * ∫ y in hull (positions 3 p c), partial2 u k y) -
        ∫ y in hull (positions 3 p c), sourceOf u y * linear (positions 3 p c) (v c) y).sum = 0 ∧
    (cells.map fun c => (∫ y in hull (positions 3 p c), linear (positions 3 p c) (v c) y ^ 2) +
      2 * slope2 (positions 3 p c) (v c) 0 * ∫ y in hull (positions 3 p c), y 0 * linear (positions 3 p c) (v c) y).sum = 0 := by
  have hedge : ∀ c ∈ cells, ∀ x y, x ∈ c.nodes → y ∈ c.nodes → ∀ s : ℝ,
      linear (positions 3 p c) (v c) (fun i => p x.vertex i + s * (p y.vertex i - p x.vertex i)) =
        ω x.vertex + s * (ω y.vertex - ω x.vertex) := by
    intro c hc x y hx hy s
    obtain ⟨a, ha, ha'⟩ := hv c hc x hx
    obtain ⟨b, hb, hb'⟩ := hv c hc y hy
    rw [← ha, ← hb, linear_edge (positions_area h hc).ne', ha', hb']
  constructor
  · rw [← sum_divergence_zero h (Φ := fun c k y => linear (positions 3 p c) (v c) y * partial2 u k y)
      (fun c _ k => ((linear_smooth _ _).of_le (by norm_num)).mul (partial_contDiff hu k))
      (τ := fun a b s => ω a + s * (ω b - ω a)) (fun a b s => by ring) (partial2 u)
      (fun c hc x y hx hy s k => by rw [hedge c hc x y hx hy]) ?_]
    · exact congrArg List.sum (List.map_congr_left fun c _ => (green_cell hu _ _).symm)
    · intro b hb x y hn s
      rw [h0 b hb x (by simp [hn]), h0 b hb y (by simp [hn])]
      ring
  · rw [← sum_divergence_zero h (Φ := fun c => firstTimes (linear (positions 3 p c) (v c))) ?_
      (τ := fun a b s => (ω a + s * (ω b - ω a)) ^ 2) (fun a b s => by ring) (fun k y => if k = 0 then y 0 else 0) ?_ ?_]
    · exact congrArg List.sum (List.map_congr_left fun c _ => (friedrichs_cell _ _).symm)
    · intro c _ k
      have := ((linear_smooth (positions 3 p c) (v c)).of_le (show (1 : WithTop ℕ∞) ≤ 2 by norm_num))
      unfold firstTimes
      split
      · exact (contDiff_apply ℝ ℝ 0).mul (this.pow 2)
      · exact contDiff_const
    · intro c hc x y hx hy s k
      simp only [firstTimes, hedge c hc x y hx hy]
      split <;> ring
    · intro b hb x y hn s
      rw [h0 b hb x (by simp [hn]), h0 b hb y (by simp [hn])]
      ring

open Classical in
/-- The error of the discrete solution: the energy of the difference to the interpolating function, and its square. -/
theorem galerkin_error {t : Topo} {cells B : List GCell} {p : Id → Fin 2 → ℝ} (h : Triangulates t cells B p) {φ : Nat → Nat}
    (hφ : ∀ c ∈ cells, ∀ c' ∈ cells, ∀ x ∈ c.nodes, ∀ y ∈ c'.nodes, φ x.id = φ y.id → x.id = y.id)
    {tb : Table 2} (ht : Inside tb) (hsum : (tb.map Prod.snd).sum = 1) {u : (Fin 2 → ℝ) → ℝ} (hu : ContDiff ℝ 2 u) (hu0 : Vanishes B p u)
    {r e ε F R : ℝ} (hr : ∀ c ∈ cells, ∀ a b, dist (positions 3 p c a) (positions 3 p c b) ≤ r)
    (he : ∀ c ∈ cells, ∀ k, ∀ y ∈ hull (positions 3 p c),
      |slope2 (positions 3 p c) (fun b => u (positions 3 p c b)) k - partial2 u k y| ≤ e)
    (hε : ∀ c ∈ cells, ∀ y ∈ hull (positions 3 p c), ∀ z ∈ hull (positions 3 p c), |sourceOf u y - sourceOf u z| ≤ ε)
    (hF : ∀ c ∈ cells, ∀ y ∈ hull (positions 3 p c), |sourceOf u y| ≤ F) (hR0 : 0 < R)
    (hR : ∀ c ∈ cells, ∀ y ∈ hull (positions 3 p c), |y 0| ≤ R) {U : Nat → ℝ}
    (hU : Galerkin (functionSpace (cells.map fun c => (triP1 (positions 3 p c), fun a : Fin 3 => ((ids c).map φ).getD a 0))
        ((B.flatMap ids).map φ))
      (poisson tb.rule (sourceOf u) (cells.map fun c => (triP1 (positions 3 p c), fun a : Fin 3 => ((ids c).map φ).getD a 0))) U) :
    (cells.map fun c => triangleArea (positions 3 p c) *
        ∑ k, slope2 (positions 3 p c) (fun a => onCell φ U c a - u (positions 3 p c a)) k ^ 2).sum ≤
      areaOf cells p * (4 * (e + (F + ε) * r) ^ 2 + 8 * R ^ 2 * ε ^ 2) ∧
    (cells.map fun c => ∫ y in hull (positions 3 p c),
        linear (positions 3 p c) (fun a => onCell φ U c a - u (positions 3 p c a)) y ^ 2).sum ≤
      4 * R ^ 2 * (cells.map fun c => triangleArea (positions 3 p c) *
        ∑ k, slope2 (positions 3 p c) (fun a => onCell φ U c a - u (positions 3 p c a)) k ^ 2).sum := by
  set v : GCell → Fin 3 → ℝ := fun c a => onCell φ U c a - u (positions 3 p c a) with hv
  obtain ⟨m, s, known, t', hm, hcl, hb⟩ := h.mesh
  have hBn := boundary_nodes h.topology (by omega) hm hcl h.cell hb
  have hBz : ∀ b ∈ B, ∀ x ∈ b.nodes, U (φ x.id) = 0 := fun b hb x hx => hU.1 _ (List.mem_map.mpr
    ⟨x.id, List.mem_flatMap.mpr ⟨b, hb, List.mem_map.mpr ⟨x, hx, rfl⟩⟩, rfl⟩)
  -- the difference as a test function
  let w : Nat → ℝ := fun d => if hd : ∃ x : Node, (∃ c ∈ cells, x ∈ c.nodes) ∧ φ x.id = d then U d - u (p hd.choose.vertex) else 0
  have hw : ∀ c ∈ cells, ∀ x ∈ c.nodes, w (φ x.id) = U (φ x.id) - u (p x.vertex) := by
    intro c hc x hx
    have hd : ∃ y : Node, (∃ c ∈ cells, y ∈ c.nodes) ∧ φ y.id = φ x.id := ⟨x, ⟨c, hc, hx⟩, rfl⟩
    simp only [w]
    rw [dif_pos hd]
    obtain ⟨⟨c', hc', hy⟩, hv⟩ := hd.choose_spec
    rw [h.ids c' hc' c hc _ hy x hx (hφ c' hc' c hc _ hy x hx hv)]
  have hwv : ∀ c ∈ cells, (fun a : Fin 3 => w (((ids c).map φ).getD a 0)) = v c := by
    intro c hc
    funext a
    obtain ⟨x, hx, h1, h2⟩ := cell_node h hc a
    have h3 := h2 φ w
    simp only [onCell] at h3
    rw [h3, hw c hc x hx, hv]
    simp only [h2 φ U, h1]
  have hadm : Admissible (functionSpace (cells.map fun c => (triP1 (positions 3 p c), fun a : Fin 3 => ((ids c).map φ).getD a 0))
      ((B.flatMap ids).map φ)) w := by
    intro d hd
    obtain ⟨i, hi, rfl⟩ := List.mem_map.mp hd
    obtain ⟨b, hb', hi⟩ := List.mem_flatMap.mp hi
    obtain ⟨x, hx, rfl⟩ := List.mem_map.mp hi
    obtain ⟨-, -, c, hc, hsub⟩ := hBn b hb'
    rw [hw c hc x (hsub x hx), hBz b hb' x hx, hu0 b hb' x hx, sub_zero]
  have hgal := hU.2 w hadm
  rw [form_poisson, load_poisson, List.map_map, List.map_map] at hgal
  have hE : (cells.map fun c => triangleArea (positions 3 p c) * ∑ k, slope2 (positions 3 p c) (v c) k * slope2 (positions 3 p c) (onCell φ U c) k).sum =
      (cells.map fun c => triangleArea (positions 3 p c) * apply tb fun ξ => sourceOf u ((parametrization (positions 3 p c)).eval ξ) *
        linear (positions 3 p c) (v c) ((parametrization (positions 3 p c)).eval ξ)).sum := by
    refine Eq.trans (congrArg List.sum (List.map_congr_left fun c hc => ?_)) (hgal.trans (congrArg List.sum (List.map_congr_left fun c hc => ?_)))
    · simp only [Function.comp]
      rw [← form_linear (rule_sum hsum), ← hwv c hc]
      rfl
    · simp only [Function.comp]
      rw [← load_linear tb _ (positions_area h hc), ← hwv c hc]
  obtain ⟨hG, h0⟩ := sum_green h (v := v) (ω := fun i => U (φ (nodeAt cells i)) - u (p i)) (fun c hc x hx => by
      obtain ⟨a, h1, h2⟩ := node_cell h hc hx
      refine ⟨a, h1, ?_⟩
      rw [nodeAt_eq h.nodes hc hx, hv]
      simp only [h2 φ U, h1]) (fun b hb' x hx => by
      obtain ⟨-, -, c, hc, hsub⟩ := hBn b hb'
      rw [nodeAt_eq h.nodes hc (hsub x hx), hBz b hb' x hx, hu0 b hb' x hx, sub_zero]) hu
  exact ⟨energy_estimate cells (positions 3 p) v (onCell φ U) ht hsum hu (fun c hc => positions_area h hc) hr he hε hF hR0 hR
    (fun c _ b => rfl) hG h0 hE, friedrichs cells (positions 3 p) v (fun c hc => positions_area h hc) hR h0⟩

end Mito.Fem
