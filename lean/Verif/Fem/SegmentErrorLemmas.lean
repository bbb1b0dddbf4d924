import Verif.Fem.SegmentLemmas
import Verif.Fem.ConvergenceLemmas

/-! # The error of the discrete solution of the Poisson problem on segments -/

namespace Mito.Fem

open Mito.Functions Mito.Geometry Mito.Quadrature Mito.Meshes Mito.Topology Mito.Discretizer Mito.DiscreteSystem MeasureTheory

variable {x : Fin 2 → Val (.vec 1)} {v w : Fin 2 → ℝ}

/-! ## Interpolation -/

theorem rise_error (hx : 0 < length x) {u : ℝ → ℝ} (hu : ContDiff ℝ 2 u) {δ : ℝ}
    (hδ : ∀ y ∈ Set.Icc (x 0 0) (x 1 0), ∀ z ∈ Set.Icc (x 0 0) (x 1 0), |deriv u y - deriv u z| ≤ δ) {y : ℝ}
    (hy : y ∈ Set.Icc (x 0 0) (x 1 0)) : |rise x (fun a => u (x a 0)) - deriv u y| ≤ δ := by
  have hlt : x 0 0 < x 1 0 := sub_pos.mp hx
  obtain ⟨z, hz, e⟩ := exists_deriv_eq_slope u hlt hu.continuous.continuousOn (hu.differentiable two_ne_zero).differentiableOn
  have : rise x (fun a => u (x a 0)) = deriv u z := e.symm
  rw [this]
  exact hδ z (Set.Ioo_subset_Icc_self hz) y hy

theorem chord_error (hx : 0 < length x) {u : ℝ → ℝ} (hu : ContDiff ℝ 2 u) {δ h : ℝ} (hh : length x ≤ h)
    (hδ : ∀ y ∈ Set.Icc (x 0 0) (x 1 0), ∀ z ∈ Set.Icc (x 0 0) (x 1 0), |deriv u y - deriv u z| ≤ δ) {y : ℝ}
    (hy : y ∈ Set.Icc (x 0 0) (x 1 0)) : |chord x (fun a => u (x a 0)) y - u y| ≤ δ * h := by
  have h0 : x 0 0 ∈ Set.Icc (x 0 0) (x 1 0) := ⟨le_rfl, le_ends hx⟩
  have hd : 0 ≤ δ := (abs_nonneg _).trans (hδ _ h0 _ h0)
  have := (convex_Icc (x 0 0) (x 1 0)).norm_image_sub_le_of_norm_hasDerivWithin_le
    (f := fun y => chord x (fun a => u (x a 0)) y - u y) (f' := fun y => rise x (fun a => u (x a 0)) - deriv u y) (C := δ)
    (fun y _ => ((chord_deriv y).sub ((smooth_deriv hu).1 y)).hasDerivWithinAt) (fun y hy => rise_error hx hu hδ hy) h0 hy
  rw [chord_start, sub_self, sub_zero, Real.norm_eq_abs, Real.norm_eq_abs] at this
  refine this.trans (mul_le_mul_of_nonneg_left ?_ hd)
  have e : x 1 0 - x 0 0 = length x := rfl
  rw [abs_of_nonneg (by linarith [hy.1])]
  linarith [hy.2]

theorem chord_variation {h : ℝ} (hh : length x ≤ h) (v : Fin 2 → ℝ) {y z : ℝ} (hy : y ∈ Set.Icc (x 0 0) (x 1 0))
    (hz : z ∈ Set.Icc (x 0 0) (x 1 0)) : |z - y| ≤ h ∧ chord x v z = chord x v y + (z - y) * rise x v := by
  have e : x 1 0 - x 0 0 = length x := rfl
  refine ⟨abs_le.mpr ⟨by linarith [hy.2, hz.1], by linarith [hy.1, hz.2]⟩, ?_⟩
  simp only [chord]
  ring

/-! ## The error of the loads -/

theorem defect_continuous {t : Table 1} (ht : Inside t) (hs : (t.map Prod.snd).sum = 1) (hx : 0 < length x) {h : ℝ} (hh : length x ≤ h)
    {f : ℝ → ℝ} (hf : Continuous f) {ε F : ℝ}
    (hε : ∀ y ∈ Set.Icc (x 0 0) (x 1 0), ∀ z ∈ Set.Icc (x 0 0) (x 1 0), |f y - f z| ≤ ε)
    (hF : ∀ y ∈ Set.Icc (x 0 0) (x 1 0), |f y| ≤ F) (v : Fin 2 → ℝ) :
    quad t x (fun y => f y * chord x v y) - ∫ y in x 0 0..x 1 0, f y * chord x v y ≤
      ∫ y in x 0 0..x 1 0, (ε * |chord x v y| + F * h * |rise x v|) := by
  have hc := chord_continuous (x := x) (v := v)
  refine quad_error ht hs hx (by fun_prop) (by fun_prop) fun z hz y hy => ?_
  obtain ⟨h1, h2⟩ := chord_variation hh v hy hz
  have e : f z * chord x v z - f y * chord x v y = (f z - f y) * chord x v y + f z * ((z - y) * rise x v) := by rw [h2]; ring
  rw [e]
  refine add_le_add ?_ ?_
  · refine (le_abs_self _).trans ?_
    rw [abs_mul]
    exact mul_le_mul_of_nonneg_right (hε z hz y hy) (abs_nonneg _)
  · refine (le_abs_self _).trans ?_
    rw [abs_mul, abs_mul, ← mul_assoc]
    refine mul_le_mul_of_nonneg_right ?_ (abs_nonneg _)
    exact mul_le_mul (hF z hz) h1 (abs_nonneg _) ((abs_nonneg _).trans (hF z hz))

theorem defect_smooth {t : Table 1} (ht : Inside t) (hs : (t.map Prod.snd).sum = 1) (hm : apply t (fun ξ => ξ 0) = 1 / 2)
    (hx : 0 < length x) {h : ℝ} (hh : length x ≤ h) {f : ℝ → ℝ} (hf : Continuous f) {d τ F : ℝ}
    (hτ : ∀ y ∈ Set.Icc (x 0 0) (x 1 0), |f y - f ((x 0 0 + x 1 0) / 2) - d * (y - (x 0 0 + x 1 0) / 2)| ≤ τ) (hF : |d| ≤ F)
    (v : Fin 2 → ℝ) :
    quad t x (fun y => f y * chord x v y) - ∫ y in x 0 0..x 1 0, f y * chord x v y ≤
      ∫ y in x 0 0..x 1 0, (2 * τ * |chord x v y| + (2 * F * h ^ 2 + τ * h) * |rise x v|) := by
  have hc := chord_continuous (x := x) (v := v)
  set m := (x 0 0 + x 1 0) / 2 with hmdef
  set r : ℝ → ℝ := fun y => f y - f m - d * (y - m) with hr
  set s := rise x v with hsdef
  have hmm : m ∈ Set.Icc (x 0 0) (x 1 0) := ⟨by linarith [le_ends hx], by linarith [le_ends hx]⟩
  have hrc : Continuous r := by rw [hr]; fun_prop
  have e1 : (fun y => f y * chord x v y) = fun y => (f m * chord x v m + (d * chord x v m + f m * s) * (y - m)) +
      (d * s * (y - m) ^ 2 + r y * chord x v y) := by
    funext y
    have e : chord x v y = chord x v m + (y - m) * s := by simp only [chord]; ring
    rw [e, hr]
    ring
  have e2 : (∫ y in x 0 0..x 1 0, f y * chord x v y) =
      (∫ y in x 0 0..x 1 0, (f m * chord x v m + (d * chord x v m + f m * s) * (y - m))) +
        ∫ y in x 0 0..x 1 0, (d * s * (y - m) ^ 2 + r y * chord x v y) := by
    rw [← integral_add1 (by fun_prop) (by fun_prop)]
    exact congrArg (fun g : ℝ → ℝ => ∫ y in x 0 0..x 1 0, g y) e1
  rw [e2, e1, quad_add, quad_linear hs hm, add_sub_add_left_eq_sub]
  refine quad_error ht hs hx (by fun_prop) (by fun_prop) fun z hz y hy => ?_
  obtain ⟨h1, h2⟩ := chord_variation hh v hy hz
  have hτ0 : 0 ≤ τ := (abs_nonneg _).trans (hτ y hy)
  have hF0 : 0 ≤ F := (abs_nonneg _).trans hF
  have hh0 : 0 ≤ h := hx.le.trans hh
  have hsq : ∀ y ∈ Set.Icc (x 0 0) (x 1 0), |d * s * (y - m) ^ 2| ≤ F * h ^ 2 * |s| := by
    intro y hy
    rw [abs_mul, abs_mul, abs_pow, mul_right_comm]
    refine mul_le_mul_of_nonneg_right ?_ (abs_nonneg _)
    exact mul_le_mul hF (pow_le_pow_left₀ (abs_nonneg _) (chord_variation hh v hmm hy).1 2) (by positivity) hF0
  have hrv : |r y * chord x v y| ≤ τ * |chord x v y| := by
    rw [abs_mul]
    exact mul_le_mul_of_nonneg_right (hτ y hy) (abs_nonneg _)
  have hrz : |r z * chord x v z| ≤ τ * (|chord x v y| + h * |s|) := by
    rw [abs_mul]
    refine mul_le_mul (hτ z hz) ?_ (abs_nonneg _) hτ0
    rw [h2]
    refine (abs_add_le _ _).trans (add_le_add le_rfl ?_)
    rw [abs_mul]
    exact mul_le_mul_of_nonneg_right h1 (abs_nonneg _)
  have a1 := hsq y hy
  have a2 := hsq z hz
  rw [abs_le] at a1 a2 hrv hrz
  nlinarith [a1.1, a2.2, hrv.1, hrz.2]

/-! ## The error on a segment -/

theorem segment_error (hx : 0 < length x) (U : Fin 2 → ℝ) (u : ℝ → ℝ) :
    (∫ ξ in (0 : ℝ)..1, (segP1 x).detJ (fun _ => ξ) *
      ((∑ a, U a * ((segP1 x).shape a).eval (fun _ => ξ) () - u ((segP1 x).parametrization.eval (fun _ => ξ) 0)) ^ 2 +
        (∑ a, U a * (segP1 x).gradient a (fun _ => ξ) 0 - deriv u ((segP1 x).parametrization.eval (fun _ => ξ) 0)) ^ 2)) =
      ∫ y in x 0 0..x 1 0, ((chord x U y - u y) ^ 2 + (rise x U - deriv u y) ^ 2) := by
  simp only [seg1_detJ, segP1_shape hx, segP1_gradient, segP1_point, intervalIntegral.integral_const_mul, pointAt]
  have := intervalIntegral.smul_integral_comp_add_mul (a := 0) (b := 1)
    (fun y => (chord x U y - u y) ^ 2 + (rise x U - deriv u y) ^ 2) (length x) (x 0 0)
  rw [smul_eq_mul, mul_zero, mul_one, add_zero, show x 0 0 + length x = x 1 0 by simp [length]] at this
  rw [← this]
  simp only [mul_comm]

theorem segment_error_le (hx : 0 < length x) (U : Fin 2 → ℝ) {u : ℝ → ℝ} (hu : ContDiff ℝ 2 u) {h δ : ℝ} (hh : length x ≤ h)
    (hδ : ∀ y ∈ Set.Icc (x 0 0) (x 1 0), ∀ z ∈ Set.Icc (x 0 0) (x 1 0), |deriv u y - deriv u z| ≤ δ) :
    ∫ y in x 0 0..x 1 0, ((chord x U y - u y) ^ 2 + (rise x U - deriv u y) ^ 2) ≤
      2 * (∫ y in x 0 0..x 1 0, chord x (fun a => U a - u (x a 0)) y ^ 2) + 2 * (length x * rise x (fun a => U a - u (x a 0)) ^ 2) +
        length x * (2 * δ ^ 2 * h ^ 2 + 2 * δ ^ 2) := by
  set v : Fin 2 → ℝ := fun a => U a - u (x a 0) with hv
  have hcv := chord_continuous (x := x) (v := v)
  have hcU := chord_continuous (x := x) (v := U)
  have huc : Continuous u := hu.continuous
  have hdc : Continuous (deriv u) := (smooth_deriv hu).2.2.1
  have e1 : 2 * (∫ y in x 0 0..x 1 0, chord x v y ^ 2) + 2 * (length x * rise x v ^ 2) + length x * (2 * δ ^ 2 * h ^ 2 + 2 * δ ^ 2) =
      ∫ y in x 0 0..x 1 0, (2 * chord x v y ^ 2 + (2 * rise x v ^ 2 + (2 * δ ^ 2 * h ^ 2 + 2 * δ ^ 2))) := by
    rw [integral_add1 (by fun_prop) continuous_const, integral_const1, intervalIntegral.integral_const_mul]
    ring
  rw [e1]
  refine integral_mono1 hx (by fun_prop) (by fun_prop) fun y hy => ?_
  have h1 := rise_error hx hu hδ hy
  have h2 := chord_error hx hu hh hδ hy
  have h3 : (rise x (fun a => u (x a 0)) - deriv u y) ^ 2 ≤ δ ^ 2 := sq_le_sq' (neg_le_of_abs_le h1) (le_of_abs_le h1)
  have h4 : (chord x (fun a => u (x a 0)) y - u y) ^ 2 ≤ (δ * h) ^ 2 := sq_le_sq' (neg_le_of_abs_le h2) (le_of_abs_le h2)
  have h5 := add_square (rise x v) (rise x (fun a => u (x a 0)) - deriv u y)
  have h6 := add_square (chord x v y) (chord x (fun a => u (x a 0)) y - u y)
  rw [hv, rise_sub] at h5
  rw [chord_sub (v := U) (w := fun a => u (x a 0)) y, add_sub_assoc, hv, rise_sub]
  rw [show rise x U - deriv u y = rise x U - rise x (fun a => u (x a 0)) + (rise x (fun a => u (x a 0)) - deriv u y) by ring]
  nlinarith

/-- the same at the points of a rule -/
theorem segment_rule_error_le {t : Table 1} (ht : Inside t) (hs : (t.map Prod.snd).sum = 1) (hx : 0 < length x) (U : Fin 2 → ℝ)
    {u : ℝ → ℝ} (hu : ContDiff ℝ 2 u) {h δ : ℝ} (hh : length x ≤ h)
    (hδ : ∀ y ∈ Set.Icc (x 0 0) (x 1 0), ∀ z ∈ Set.Icc (x 0 0) (x 1 0), |deriv u y - deriv u z| ≤ δ) :
    (t.rule.map fun q => factor (segP1 x) q *
        (∑ a, U a * ((segP1 x).shape a).eval q.1 () - u ((segP1 x).parametrization.eval q.1 0)) ^ 2).sum ≤
      4 * (∫ y in x 0 0..x 1 0, chord x (fun a => U a - u (x a 0)) y ^ 2) +
        4 * h ^ 2 * (length x * rise x (fun a => U a - u (x a 0)) ^ 2) + length x * (2 * δ ^ 2 * h ^ 2) := by
  set v : Fin 2 → ℝ := fun a => U a - u (x a 0) with hv
  have hcv := chord_continuous (x := x) (v := v)
  have hs' : (t.rule.map fun p => p.2).sum = 1 := rule_sum hs
  have key : ∀ q ∈ t.rule, factor (segP1 x) q *
      (∑ a, U a * ((segP1 x).shape a).eval q.1 () - u ((segP1 x).parametrization.eval q.1 0)) ^ 2 ≤
      q.2 * (4 * (∫ y in x 0 0..x 1 0, chord x v y ^ 2) + 4 * h ^ 2 * (length x * rise x v ^ 2) + length x * (2 * δ ^ 2 * h ^ 2)) := by
    intro q hq
    obtain ⟨h1, hz⟩ := point_mem ht hx hq
    have h2 : Geometry.area 1 = 1 := by simp [Geometry.area]
    rw [segP1_shape hx, segP1_point, factor, seg1_detJ, h2, one_mul, mul_assoc]
    refine mul_le_mul_of_nonneg_left ?_ h1.le
    set z := pointAt x q.1
    have e1 : 4 * (∫ y in x 0 0..x 1 0, chord x v y ^ 2) + 4 * h ^ 2 * (length x * rise x v ^ 2) + length x * (2 * δ ^ 2 * h ^ 2) =
        ∫ y in x 0 0..x 1 0, (4 * chord x v y ^ 2 + (4 * h ^ 2 * rise x v ^ 2 + 2 * δ ^ 2 * h ^ 2)) := by
      rw [integral_add1 (by fun_prop) continuous_const, integral_const1, intervalIntegral.integral_const_mul]
      ring
    rw [e1, ← integral_const1]
    refine integral_mono1 hx continuous_const (by fun_prop) fun y hy => ?_
    have h3 := chord_error hx hu hh hδ hz
    have h4 : (chord x (fun a => u (x a 0)) z - u z) ^ 2 ≤ (δ * h) ^ 2 := sq_le_sq' (neg_le_of_abs_le h3) (le_of_abs_le h3)
    have h5 := add_square (chord x v z) (chord x (fun a => u (x a 0)) z - u z)
    obtain ⟨h6, h7⟩ := chord_variation hh v hy hz
    have h8 := add_square (chord x v y) ((z - y) * rise x v)
    have h9 : ((z - y) * rise x v) ^ 2 ≤ h ^ 2 * rise x v ^ 2 := by
      rw [mul_pow]
      refine mul_le_mul_of_nonneg_right ?_ (sq_nonneg _)
      rw [← sq_abs]
      exact pow_le_pow_left₀ (abs_nonneg _) h6 2
    rw [← h7] at h8
    rw [chord_sub (v := U) (w := fun a => u (x a 0)) z, add_sub_assoc]
    nlinarith
  refine (list_le t.rule key).trans (le_of_eq ?_)
  rw [List.sum_map_mul_right, hs', one_mul]

/-! ## The error on a mesh -/

variable {t : Topo} {cells B : List GCell} {p : Id → Val (.vec 1)}

theorem positions_length (h : Divides t cells B p) {c : GCell} (hc : c ∈ cells) : 0 < length (positions 2 p c) := by
  have := (h.positive c hc).2
  match hv : c.vertices with
  | [] | [_] | _ :: _ :: _ :: _ => rw [hv] at this; simp [extent] at this
  | [a, b] =>
    rw [hv, extent] at this
    rw [GCell.vertices] at hv
    simpa [length, positions, hv] using this

/-- differences between the ends of the segments sum up to zero if they vanish on the boundary -/
theorem sum_ends_zero (h : Divides t cells B p) {g : Id → ℝ} (h0 : ∀ b ∈ B, ∀ x ∈ b.nodes, g x.vertex = 0) {d : GCell → ℝ}
    (hd : ∀ c ∈ cells, ∀ x y, c.nodes = [x, y] → d c = g y.vertex - g x.vertex) : (cells.map d).sum = 0 := by
  obtain ⟨ok, st⟩ := h.topology.ok
  obtain ⟨m, s, known, t', hm, hcl, hb⟩ := h.mesh
  have hst := stokes_segments h.topology hm hcl h.cell h.ends t' B hb g
  have hz : (B.map fun d => (t.sg 0 d.simplex : ℝ) * atVertex g d.vertices).sum = 0 := by
    refine List.sum_eq_zero fun y hy => ?_
    obtain ⟨b, hb', rfl⟩ := List.mem_map.mp hy
    have hl := (boundary_nodes h.topology (by omega) hm hcl h.cell hb b hb').1
    match hn : b.nodes, hl with
    | [x], _ => simp only [GCell.vertices, hn, List.map_cons, List.map_nil, atVertex, h0 b hb' x (by simp [hn]), mul_zero]
  rw [hz] at hst
  rw [hst]
  refine congrArg List.sum (List.map_congr_left fun c hc => ?_)
  have hlen := (h.cell c hc).length ok.inv st (by omega)
  match hn : c.nodes, hlen with
  | [x, y], _ =>
    rw [hd c hc x y hn, (h.positive c hc).1]
    simp [GCell.vertices, hn, overEnds]

/-- the values on the cells of a function of the discretization nodes -/
def onSegment (φ : Nat → Nat) (U : Nat → ℝ) (c : GCell) (a : Fin 2) : ℝ := U (((ids c).map φ).getD a 0)

theorem segment_node (h : Divides t cells B p) {c : GCell} (hc : c ∈ cells) (a : Fin 2) :
    ∃ x ∈ c.nodes, positions 2 p c a = p x.vertex ∧ ∀ φ U, onSegment φ U c a = U (φ x.id) := by
  obtain ⟨ok, st⟩ := h.topology.ok
  have hlen := (h.cell c hc).length ok.inv st (by omega)
  match hn : c.nodes, hlen with
  | [x, y], _ =>
    fin_cases a
    · exact ⟨x, by simp, by simp [positions, hn], fun φ U => by simp [onSegment, ids, hn]⟩
    · exact ⟨y, by simp, by simp [positions, hn], fun φ U => by simp [onSegment, ids, hn]⟩

theorem segment_ends {c : GCell} {x y : Node} (hn : c.nodes = [x, y]) :
    positions 2 p c 0 = p x.vertex ∧ positions 2 p c 1 = p y.vertex ∧
      ∀ φ U, onSegment φ U c 0 = U (φ x.id) ∧ onSegment φ U c 1 = U (φ y.id) := by
  refine ⟨by simp [positions, hn], by simp [positions, hn], fun φ U => ⟨by simp [onSegment, ids, hn], by simp [onSegment, ids, hn]⟩⟩

open Classical in
/-- The error of the discrete solution: the energy of the difference to the interpolating function, and its square, in terms of the error
of the loads. -/
theorem galerkin_segments (h : Divides t cells B p) {φ : Nat → Nat}
    (hφ : ∀ c ∈ cells, ∀ c' ∈ cells, ∀ x ∈ c.nodes, ∀ y ∈ c'.nodes, φ x.id = φ y.id → x.id = y.id)
    {tb : Table 1} (hsum : (tb.map Prod.snd).sum = 1) {u : ℝ → ℝ} (hu : ContDiff ℝ 2 u) (hu0 : VanishesAtEnds B p u)
    {R a b : ℝ} (hR0 : 0 < R) (hR : ∀ c ∈ cells, ∀ y ∈ Set.Icc (positions 2 p c 0 0) (positions 2 p c 1 0), |y| ≤ R)
    (hD : ∀ c ∈ cells, ∀ v, quad tb (positions 2 p c) (fun y => -deriv (deriv u) y * chord (positions 2 p c) v y) -
        (∫ y in positions 2 p c 0 0..positions 2 p c 1 0, -deriv (deriv u) y * chord (positions 2 p c) v y) ≤
      ∫ y in positions 2 p c 0 0..positions 2 p c 1 0, (a * |chord (positions 2 p c) v y| + b * |rise (positions 2 p c) v|))
    {U : Nat → ℝ}
    (hU : Galerkin (functionSpace (cells.map fun c => (segP1 (positions 2 p c), fun a : Fin 2 => ((ids c).map φ).getD a 0))
        ((B.flatMap ids).map φ))
      (poisson tb.rule (source1 u) (cells.map fun c => (segP1 (positions 2 p c), fun a : Fin 2 => ((ids c).map φ).getD a 0))) U) :
    (cells.map fun c => length (positions 2 p c) *
        rise (positions 2 p c) (fun a => onSegment φ U c a - u (positions 2 p c a 0)) ^ 2).sum ≤
      2 * lengthOf cells p * (4 * R ^ 2 * a ^ 2 + b ^ 2) ∧
    (cells.map fun c => ∫ y in positions 2 p c 0 0..positions 2 p c 1 0,
        chord (positions 2 p c) (fun a => onSegment φ U c a - u (positions 2 p c a 0)) y ^ 2).sum ≤
      4 * R ^ 2 * (cells.map fun c => length (positions 2 p c) *
        rise (positions 2 p c) (fun a => onSegment φ U c a - u (positions 2 p c a 0)) ^ 2).sum := by
  set v : GCell → Fin 2 → ℝ := fun c a => onSegment φ U c a - u (positions 2 p c a 0) with hv
  obtain ⟨m, s, known, t', hm, hcl, hb⟩ := h.mesh
  have hBn := boundary_nodes h.topology (by omega) hm hcl h.cell hb
  have hBz : ∀ b ∈ B, ∀ x ∈ b.nodes, U (φ x.id) = 0 := fun b hb x hx => hU.1 _ (List.mem_map.mpr
    ⟨x.id, List.mem_flatMap.mpr ⟨b, hb, List.mem_map.mpr ⟨x, hx, rfl⟩⟩, rfl⟩)
  -- the difference as a test function
  let w : Nat → ℝ := fun d => if hd : ∃ x : Node, (∃ c ∈ cells, x ∈ c.nodes) ∧ φ x.id = d then U d - u (p hd.choose.vertex 0) else 0
  have hw : ∀ c ∈ cells, ∀ x ∈ c.nodes, w (φ x.id) = U (φ x.id) - u (p x.vertex 0) := by
    intro c hc x hx
    have hd : ∃ y : Node, (∃ c ∈ cells, y ∈ c.nodes) ∧ φ y.id = φ x.id := ⟨x, ⟨c, hc, hx⟩, rfl⟩
    simp only [w]
    rw [dif_pos hd]
    obtain ⟨⟨c', hc', hy⟩, hv⟩ := hd.choose_spec
    rw [h.ids c' hc' c hc _ hy x hx (hφ c' hc' c hc _ hy x hx hv)]
  have hwv : ∀ c ∈ cells, (fun a : Fin 2 => w (((ids c).map φ).getD a 0)) = v c := by
    intro c hc
    funext a
    obtain ⟨x, hx, h1, h2⟩ := segment_node h hc a
    have h3 := h2 φ w
    simp only [onSegment] at h3
    rw [h3, hw c hc x hx, hv]
    simp only [h2 φ U, h1]
  have hadm : Admissible (functionSpace (cells.map fun c => (segP1 (positions 2 p c), fun a : Fin 2 => ((ids c).map φ).getD a 0))
      ((B.flatMap ids).map φ)) w := by
    intro d hd
    obtain ⟨i, hi, rfl⟩ := List.mem_map.mp hd
    obtain ⟨b, hb', hi⟩ := List.mem_flatMap.mp hi
    obtain ⟨x, hx, rfl⟩ := List.mem_map.mp hi
    obtain ⟨-, -, c, hc, hsub⟩ := hBn b hb'
    rw [hw c hc x (hsub x hx), hBz b hb' x hx, hu0 b hb' x hx, sub_zero]
  have hgal := hU.2 w hadm
  rw [form_poisson, load_poisson, List.map_map, List.map_map] at hgal
  have hE : (cells.map fun c => length (positions 2 p c) * (rise (positions 2 p c) (v c) * rise (positions 2 p c) (onSegment φ U c))).sum =
      (cells.map fun c => quad tb (positions 2 p c) fun y => -deriv (deriv u) y * chord (positions 2 p c) (v c) y).sum := by
    refine Eq.trans (congrArg List.sum (List.map_congr_left fun c hc => ?_)) (hgal.trans (congrArg List.sum (List.map_congr_left fun c hc => ?_)))
    · simp only [Function.comp]
      rw [← form_segment hsum (positions_length h hc), ← hwv c hc]
      rfl
    · simp only [Function.comp]
      rw [← load_segment tb (fun y => -deriv (deriv u) y) (positions_length h hc), ← hwv c hc]
      rfl
  -- the sums over the ends
  have hvn : ∀ c ∈ cells, ∀ x y, c.nodes = [x, y] →
      v c 0 = U (φ (nodeAt cells x.vertex)) - u (p x.vertex 0) ∧ v c 1 = U (φ (nodeAt cells y.vertex)) - u (p y.vertex 0) := by
    intro c hc x y hn
    obtain ⟨e1, e2, e3⟩ := segment_ends (p := p) hn
    rw [nodeAt_eq h.nodes hc (x := x) (by simp [hn]), nodeAt_eq h.nodes hc (x := y) (by simp [hn])]
    simp only [hv, e1, e2, (e3 φ U).1, (e3 φ U).2, and_self]
  have hB0 : ∀ b ∈ B, ∀ x ∈ b.nodes, U (φ (nodeAt cells x.vertex)) - u (p x.vertex 0) = 0 := by
    intro b hb' x hx
    obtain ⟨-, -, c, hc, hsub⟩ := hBn b hb'
    rw [nodeAt_eq h.nodes hc (hsub x hx), hBz b hb' x hx, hu0 b hb' x hx, sub_zero]
  have h1 := sum_ends_zero h (g := fun i => deriv u (p i 0) * (U (φ (nodeAt cells i)) - u (p i 0)))
    (fun b hb' x hx => by simp only [hB0 b hb' x hx, mul_zero])
    (d := fun c => deriv u (positions 2 p c 1 0) * v c 1 - deriv u (positions 2 p c 0 0) * v c 0) (fun c hc x y hn => by
      obtain ⟨e1, e2, -⟩ := segment_ends (p := p) hn
      rw [(hvn c hc x y hn).1, (hvn c hc x y hn).2, e1, e2])
  have h2 := sum_ends_zero h (g := fun i => p i 0 * (U (φ (nodeAt cells i)) - u (p i 0)) ^ 2)
    (fun b hb' x hx => by simp only [hB0 b hb' x hx, ne_eq, OfNat.ofNat_ne_zero, not_false_eq_true, zero_pow, mul_zero])
    (d := fun c => positions 2 p c 1 0 * v c 1 ^ 2 - positions 2 p c 0 0 * v c 0 ^ 2) (fun c hc x y hn => by
      obtain ⟨e1, e2, -⟩ := segment_ends (p := p) hn
      rw [(hvn c hc x y hn).1, (hvn c hc x y hn).2, e1, e2])
  have hN := friedrichs1 cells (positions 2 p) v (fun c hc => positions_length h hc) hR h2
  refine ⟨energy_defect cells (positions 2 p) v (fun c hc => positions_length h hc) hR0 hN
    (fun c => quad tb (positions 2 p c) (fun y => -deriv (deriv u) y * chord (positions 2 p c) (v c) y) -
        (∫ y in positions 2 p c 0 0..positions 2 p c 1 0, -deriv (deriv u) y * chord (positions 2 p c) (v c) y)) ?_
    fun c hc => hD c hc (v c), hN⟩
  rw [list_sub, ← hE]
  have hG : (cells.map fun c => ∫ y in positions 2 p c 0 0..positions 2 p c 1 0,
        -deriv (deriv u) y * chord (positions 2 p c) (v c) y).sum =
      (cells.map fun c => rise (positions 2 p c) (v c) * (u (positions 2 p c 1 0) - u (positions 2 p c 0 0))).sum := by
    rw [← sub_zero (List.sum (cells.map fun c => rise _ _ * _)), ← h1, ← list_sub]
    exact congrArg List.sum (List.map_congr_left fun c hc => green_segment (positions_length h hc) hu (v c))
  rw [hG, ← list_sub]
  refine congrArg List.sum (List.map_congr_left fun c hc => ?_)
  have e1 : rise (positions 2 p c) (v c) = rise (positions 2 p c) (onSegment φ U c) - rise (positions 2 p c) fun a => u (positions 2 p c a 0) :=
    rise_sub
  have e2 : u (positions 2 p c 1 0) - u (positions 2 p c 0 0) =
      length (positions 2 p c) * rise (positions 2 p c) fun a => u (positions 2 p c a 0) := by
    rw [rise, mul_div_cancel₀ _ (positions_length h hc).ne']
  rw [e2, e1]
  ring

end Mito.Fem
