import Verif.Fem.ConditioningLemmas
import Verif.Fem.ConvergenceLemmas
import Verif.Fem.QuadraticLemmas

/-! # Bounds on the energy of linear triangles -/

namespace Mito.Fem

open Mito.Functions Mito.Geometry Mito.Quadrature Mito.Meshes Mito.Topology Mito.Discretizer Mito.DiscreteSystem MeasureTheory

/-- the mass matrix of a triangle -/
theorem linear_mass {x : Fin 3 → Fin 2 → ℝ} (hx : 0 < triangleArea x) (v : Fin 3 → ℝ) :
    ∫ y in hull x, linear x v y ^ 2 = triangleArea x / 12 * ((∑ a, v a) ^ 2 + ∑ a, v a ^ 2) := by
  rw [Quadratic.hull_poly2 (c := ![v 2 ^ 2, 2 * v 2 * (v 0 - v 2), 2 * v 2 * (v 1 - v 2), (v 0 - v 2) ^ 2, (v 1 - v 2) ^ 2,
    2 * (v 0 - v 2) * (v 1 - v 2)]) hx]
  · simp [Quadratic.poly2Mean, Fin.sum_univ_three]
    ring
  · intro ξ
    rw [linear_param hx.ne']
    simp [Quadratic.poly2]
    ring

theorem mass_lower {x : Fin 3 → Fin 2 → ℝ} {a : ℝ} (ha : a ≤ triangleArea x) (hx : 0 < triangleArea x) (v : Fin 3 → ℝ) :
    a / 12 * ∑ b, v b ^ 2 ≤ ∫ y in hull x, linear x v y ^ 2 := by
  rw [linear_mass hx]
  have h1 : 0 ≤ ∑ b, v b ^ 2 := Finset.sum_nonneg fun _ _ => sq_nonneg _
  have h2 : 0 ≤ triangleArea x * (∑ b, v b) ^ 2 := mul_nonneg hx.le (sq_nonneg _)
  nlinarith [mul_le_mul_of_nonneg_right ha h1]

/-- the energy on a triangle in terms of the values at the nodes -/
theorem slope_upper {x : Fin 3 → Fin 2 → ℝ} (hx : 0 < triangleArea x) {r κ : ℝ} (hr : ∀ a b, dist (x a) (x b) ≤ r)
    (hκ : r ^ 2 ≤ κ * triangleArea x) (v : Fin 3 → ℝ) : triangleArea x * ∑ k, slope2 x v k ^ 2 ≤ 4 * κ * ∑ a, v a ^ 2 := by
  have hr0 : 0 ≤ r := dist_nonneg.trans (hr 0 0)
  have hcoord : ∀ a b i, |x a i - x b i| ≤ r := fun a b i => by
    have h1 := dist_le_pi_dist (x a) (x b) i
    rw [Real.dist_eq] at h1
    exact h1.trans (hr a b)
  set A := triangleArea x with hA
  set T := ∑ a, v a ^ 2 with hT
  have hpq : ∀ p q : ℝ, |p| ≤ r → |q| ≤ r → ((v 0 - v 2) * p + (v 1 - v 2) * q) ^ 2 ≤ 8 * r ^ 2 * T := by
    intro p q hp hq
    have h1 : p ^ 2 ≤ r ^ 2 := by rw [← sq_abs]; exact pow_le_pow_left₀ (abs_nonneg _) hp 2
    have h2 : q ^ 2 ≤ r ^ 2 := by rw [← sq_abs]; exact pow_le_pow_left₀ (abs_nonneg _) hq 2
    have h3 := add_square ((v 0 - v 2) * p) ((v 1 - v 2) * q)
    have h4 := mul_le_mul_of_nonneg_left h1 (sq_nonneg (v 0 - v 2))
    have h5 := mul_le_mul_of_nonneg_left h2 (sq_nonneg (v 1 - v 2))
    have h6 : (v 0 - v 2) ^ 2 + (v 1 - v 2) ^ 2 ≤ 4 * T := by
      rw [hT, Fin.sum_univ_three]
      nlinarith [sq_nonneg (v 0 + v 2), sq_nonneg (v 1 + v 2), sq_nonneg (v 0), sq_nonneg (v 1)]
    have h7 := mul_le_mul_of_nonneg_left h6 (sq_nonneg r)
    rw [mul_pow, mul_pow] at h3
    nlinarith
  have e0 : slope2 x v 0 * (2 * A) = (v 0 - v 2) * (x 1 1 - x 2 1) + (v 1 - v 2) * (x 2 1 - x 0 1) := by
    simp only [slope2]
    rw [div_mul_cancel₀ _ (by positivity)]
    ring
  have e1 : slope2 x v 1 * (2 * A) = (v 0 - v 2) * (x 2 0 - x 1 0) + (v 1 - v 2) * (x 0 0 - x 2 0) := by
    simp only [slope2]
    rw [div_mul_cancel₀ _ (by positivity)]
    ring
  have s0 := hpq _ _ (hcoord 1 2 1) (hcoord 2 0 1)
  have s1 := hpq _ _ (hcoord 2 1 0) (hcoord 0 2 0)
  rw [← e0] at s0
  rw [← e1] at s1
  have hT0 : 0 ≤ T := Finset.sum_nonneg fun _ _ => sq_nonneg _
  have h8 := mul_le_mul_of_nonneg_right hκ hT0
  rw [Fin.sum_univ_two]
  have : A * (A * (slope2 x v 0 ^ 2 + slope2 x v 1 ^ 2)) ≤ A * (4 * κ * T) := by nlinarith
  exact le_of_mul_le_mul_left this hx

/-- the linear elements on the cells; `φ` are the discretization nodes -/
noncomputable abbrev tri1Space (cells : List GCell) (p : Id → Val (.vec 2)) (φ : Nat → Nat) : Space Nat 2 3 :=
  cells.map fun c => (triP1 (positions 3 p c), fun a : Fin 3 => ((ids c).map φ).getD a 0)

/-- the sum over the nodes of the elements -/
theorem tri1_flatten (cells : List GCell) (p : Id → Val (.vec 2)) (φ : Nat → Nat) (l : List Nat) (g : Nat → ℝ) :
    ((functionSpace (tri1Space cells p φ) l).elements.flatten.map g).sum = (cells.map fun c => ∑ a : Fin 3, g (((ids c).map φ).getD a 0)).sum := by
  simp only [functionSpace, List.map_map]
  induction cells with
  | nil => simp
  | cons c cells ih =>
    rw [List.map_cons, List.flatten_cons, List.map_append, List.sum_append, ih, List.map_cons, List.sum_cons]
    simp only [Function.comp, List.map_ofFn, List.sum_ofFn]

/-- the energy -/
theorem tri1_form {tb : Table 2} (hsum : (tb.map Prod.snd).sum = 1) (f : (Fin 2 → ℝ) → ℝ) (cells : List GCell) (p : Id → Val (.vec 2))
    (φ : Nat → Nat) (l : List Nat) (w : Nat → ℝ) :
    form (functionSpace (tri1Space cells p φ) l) (poisson tb.rule f (tri1Space cells p φ)) w w =
      (cells.map fun c => triangleArea (positions 3 p c) * ∑ k, slope2 (positions 3 p c) (onCell φ w c) k ^ 2).sum := by
  rw [form_poisson, List.map_map]
  refine congrArg List.sum (List.map_congr_left fun c hc => ?_)
  simp only [Function.comp, pow_two]
  rw [← form_linear (rule_sum hsum)]
  rfl

variable {t : Topo} {cells B : List GCell} {p : Id → Val (.vec 2)} {φ : Nat → Nat} {tb : Table 2}

/-- Friedrichs' inequality for functions of the discretization nodes that vanish on the boundary -/
theorem tri1_friedrichs (h : Triangulates t cells B p) {R : ℝ} (hR : ∀ c ∈ cells, ∀ y ∈ hull (positions 3 p c), |y 0| ≤ R) {w : Nat → ℝ}
    (hw : ∀ d ∈ (B.flatMap ids).map φ, w d = 0) :
    (cells.map fun c => ∫ y in hull (positions 3 p c), linear (positions 3 p c) (onCell φ w c) y ^ 2).sum ≤
      4 * R ^ 2 * (cells.map fun c => triangleArea (positions 3 p c) * ∑ k, slope2 (positions 3 p c) (onCell φ w c) k ^ 2).sum := by
  obtain ⟨m, s, known, t', hm, hcl, hb⟩ := h.mesh
  have hBn := boundary_nodes h.topology (by omega) hm hcl h.cell hb
  obtain ⟨-, h0⟩ := sum_green h (v := onCell φ w) (ω := fun i => w (φ (nodeAt cells i))) (fun c hc x hx => by
      obtain ⟨a, h1, h2⟩ := node_cell h hc hx
      exact ⟨a, h1, by rw [nodeAt_eq h.nodes hc hx, h2]⟩) (fun b hb' x hx => by
      obtain ⟨-, -, c, hc, hsub⟩ := hBn b hb'
      rw [nodeAt_eq h.nodes hc (hsub x hx)]
      exact hw _ (List.mem_map.mpr ⟨x.id, List.mem_flatMap.mpr ⟨b, hb', List.mem_map.mpr ⟨x, hx, rfl⟩⟩, rfl⟩)) (u := fun _ => 0)
    contDiff_const
  exact friedrichs cells (positions 3 p) (onCell φ w) (fun c hc => positions_area h hc) hR h0

/-- the lower bound of the energy -/
theorem tri1_lower (h : Triangulates t cells B p) (hsum : (tb.map Prod.snd).sum = 1) (f : (Fin 2 → ℝ) → ℝ) {R a : ℝ} (hR0 : 0 < R)
    (hR : ∀ c ∈ cells, ∀ y ∈ hull (positions 3 p c), |y 0| ≤ R) (ha0 : 0 < a) (ha : ∀ c ∈ cells, a ≤ triangleArea (positions 3 p c))
    (v : Nat → ℝ) :
    a / (48 * R ^ 2) * square (buildEquationMap (functionSpace (tri1Space cells p φ) ((B.flatMap ids).map φ))).2 v ≤
      form (functionSpace (tri1Space cells p φ) ((B.flatMap ids).map φ)) (poisson tb.rule f (tri1Space cells p φ))
        (extend (functionSpace (tri1Space cells p φ) ((B.flatMap ids).map φ)) v)
        (extend (functionSpace (tri1Space cells p φ) ((B.flatMap ids).map φ)) v) := by
  set V := functionSpace (tri1Space cells p φ) ((B.flatMap ids).map φ) with hV
  have h1 := square_le V v
  rw [tri1_flatten cells p φ _ (fun x => extend V v x ^ 2)] at h1
  rw [tri1_form hsum]
  have h2 := tri1_friedrichs h hR (φ := φ) (w := extend V v) (extend_admissible V v)
  have h3 := list_le cells fun c hc => mass_lower (ha c hc) (positions_area h hc) (onCell φ (extend V v) c)
  rw [List.sum_map_mul_left] at h3
  have h4 := mul_le_mul_of_nonneg_left h1 (show 0 ≤ a / 12 by positivity)
  have h5 := (h4.trans h3).trans h2
  rw [div_mul_eq_mul_div, div_le_iff₀ (by positivity)]
  linarith

/-- the upper bound of the energy -/
theorem tri1_upper (h : Triangulates t cells B p) (hφ : ∀ n ∈ cells.flatMap ids, ∀ n' ∈ cells.flatMap ids, φ n = φ n' → n = n')
    (hsum : (tb.map Prod.snd).sum = 1) (f : (Fin 2 → ℝ) → ℝ) {r κ R : ℝ} (hκ : 0 ≤ κ) (hf : Fine cells p r κ R) {D : Nat} (hD : Valence cells D)
    (l : List Nat) (v : Nat → ℝ) :
    form (functionSpace (tri1Space cells p φ) l) (poisson tb.rule f (tri1Space cells p φ))
        (extend (functionSpace (tri1Space cells p φ) l) v) (extend (functionSpace (tri1Space cells p φ) l) v) ≤
      4 * κ * D * square (buildEquationMap (functionSpace (tri1Space cells p φ) l)).2 v := by
  set V := functionSpace (tri1Space cells p φ) l with hV
  have hflat : V.elements.flatten = (cells.flatMap ids).map φ := by
    rw [hV, functionSpace]
    simp only [List.map_map, List.flatMap_def, List.map_flatten]
    refine congrArg List.flatten (List.map_congr_left fun c hc => ?_)
    obtain ⟨ok, st⟩ := h.topology.ok
    have hlen := (h.cell c hc).length ok.inv st (by omega)
    match hn : c.nodes, hlen with
    | [x, y, z], _ => simp [Function.comp, ids, hn, List.ofFn_succ]
  have hcount : ∀ x, V.elements.flatten.count x ≤ D := by
    intro x
    rw [hflat]
    by_cases hx : x ∈ (cells.flatMap ids).map φ
    · obtain ⟨n, hn, rfl⟩ := List.mem_map.mp hx
      refine le_of_eq_of_le ?_ (hD n)
      rw [List.count, List.countP_map, List.count]
      refine List.countP_congr fun n' hn' => ?_
      simp only [Function.comp, beq_iff_eq]
      exact ⟨fun e => hφ n' hn' n hn e, fun e => by rw [e]⟩
    · rw [List.count_eq_zero_of_not_mem hx]
      exact Nat.zero_le _
  have h1 := le_square V hcount v
  rw [tri1_flatten cells p φ _ (fun x => extend V v x ^ 2)] at h1
  rw [tri1_form hsum]
  have h2 := list_le cells fun c hc => by
    obtain ⟨⟨rc, -, h4, h5⟩, -⟩ := hf c hc
    exact slope_upper (positions_area h hc) h4 h5 (onCell φ (extend V v) c)
  rw [List.sum_map_mul_left] at h2
  refine h2.trans ?_
  rw [mul_assoc (4 * κ)]
  exact mul_le_mul_of_nonneg_left h1 (by positivity)

/-- the right-hand side -/
theorem tri1_load (h : Triangulates t cells B p) (ht : Inside tb) (hsum : (tb.map Prod.snd).sum = 1) {f : (Fin 2 → ℝ) → ℝ} {F : ℝ}
    (hF0 : 0 ≤ F) (hF : ∀ c ∈ cells, ∀ y ∈ hull (positions 3 p c), |f y| ≤ F) (l : List Nat) :
    square (buildEquationMap (functionSpace (tri1Space cells p φ) l)).2
        (DiscreteSystem.F (functionSpace (tri1Space cells p φ) l) (poisson tb.rule f (tri1Space cells p φ))) ≤ (F * areaOf cells p) ^ 2 := by
  set V := functionSpace (tri1Space cells p φ) l with hV
  set g := DiscreteSystem.F V (poisson tb.rule f (tri1Space cells p φ)) with hg
  set s := square (buildEquationMap V).2 g with hs
  have hs0 : 0 ≤ s := square_nonneg _ _
  -- the values are bounded by the norm
  have hsup : ∀ x, |extend V g x| ≤ √s := fun x => Real.abs_le_sqrt (extend_sq_le V g x)
  have h1 := rhs_load V (poisson tb.rule f (tri1Space cells p φ)) g
  have e1 : (∑ i : Fin (buildEquationMap V).2, g i * DiscreteSystem.F V (poisson tb.rule f (tri1Space cells p φ)) i) = s := by
    simp only [hs, square, pow_two]
    rfl
  rw [e1, hV, load_poisson, ← hV, List.map_map] at h1
  have h2 : s ≤ areaOf cells p * (F * √s) := by
    refine h1.le.trans ((list_le cells fun c hc => ?_).trans (le_of_eq (List.sum_map_mul_right ..)))
    simp only [Function.comp]
    rw [load_linear tb f (positions_area h hc) (fun a => extend V g (((ids c).map φ).getD a 0))]
    refine mul_le_mul_of_nonneg_left ?_ (positions_area h hc).le
    have h3 : ∀ q ∈ tb.rule, q.2 * (f ((parametrization (positions 3 p c)).eval q.1) * linear (positions 3 p c)
        (fun a => extend V g (((ids c).map φ).getD a 0)) ((parametrization (positions 3 p c)).eval q.1)) ≤ q.2 * (F * √s) := by
      intro q hq
      obtain ⟨hq0, hq1⟩ := rule_mem (n := 1) ht q hq
      refine mul_le_mul_of_nonneg_left ((le_abs_self _).trans ?_) hq0.le
      rw [abs_mul]
      refine mul_le_mul (hF c hc _ ?_) ?_ (abs_nonneg _) hF0
      · rw [hull, ← parametrization_image]
        exact ⟨q.1, hq1, rfl⟩
      · rw [linear_param (positions_area h hc).ne']
        obtain ⟨p1, p2⟩ := hq1
        have a0 := p1 0
        have a1 := p1 1
        rw [Fin.sum_univ_two] at p2
        have b0 := hsup (((ids c).map φ).getD (0 : Fin 3) 0)
        have b1 := hsup (((ids c).map φ).getD (1 : Fin 3) 0)
        have b2 := hsup (((ids c).map φ).getD (2 : Fin 3) 0)
        rw [abs_le] at *
        constructor <;> nlinarith
    refine (list_le tb.rule h3).trans (le_of_eq ?_)
    rw [List.sum_map_mul_right, rule_sum hsum, one_mul]
  have h3 : √s ^ 2 = s := Real.sq_sqrt hs0
  rcases (Real.sqrt_nonneg s).eq_or_lt with h0 | h0
  · rw [← h3, ← h0, zero_pow two_ne_zero]
    positivity
  · have h4 : √s ≤ F * areaOf cells p := by
      refine le_of_mul_le_mul_right ?_ h0
      nlinarith
    rw [← h3]
    exact pow_le_pow_left₀ h0.le h4 2

end Mito.Fem
