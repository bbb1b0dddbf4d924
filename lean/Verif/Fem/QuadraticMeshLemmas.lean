import Verif.Fem.QuadraticEnergyLemmas
import Verif.Spec.QuadraticConvergence
import Verif.Props.PoissonConvergence

/-! # Quadratic functions on the triangles of a mesh -/

namespace Mito.Fem.Quadratic

open Mito.Functions Mito.Geometry Mito.Meshes Mito.Topology Mito.Discretizer Mito.DiscreteSystem Mito.Quadrature MeasureTheory

/-! ## Taylor's formula -/

theorem partial_smooth {n : WithTop ℕ∞} {u : (Fin 2 → ℝ) → ℝ} (hu : ContDiff ℝ (n + 1) u) (k : Fin 2) : ContDiff ℝ n (partial2 u k) := by
  unfold partial2
  exact (hu.fderiv_right le_rfl).clm_apply contDiff_const

theorem coord_dist (y z : Fin 2 → ℝ) (k : Fin 2) : |z k - y k| ≤ dist y z := by
  rw [← Real.dist_eq, dist_comm y z]
  exact dist_le_pi_dist z y k

theorem segment_ball {R : ℝ} {y z : Fin 2 → ℝ} (hy : y ∈ Metric.closedBall 0 R) (hz : z ∈ Metric.closedBall 0 R) {s : ℝ}
    (hs : s ∈ Set.Icc (0 : ℝ) 1) : (fun i => y i + s * (z i - y i)) ∈ Metric.closedBall 0 R := by
  have := (convex_closedBall (0 : Fin 2 → ℝ) R) hy hz (sub_nonneg.mpr hs.2) hs.1 (by ring)
  convert this using 1
  funext i
  simp
  ring

theorem segment_dist (y z : Fin 2 → ℝ) {s : ℝ} (hs : s ∈ Set.Icc (0 : ℝ) 1) : dist y (fun i => y i + s * (z i - y i)) ≤ dist y z := by
  rw [dist_pi_le_iff dist_nonneg]
  intro k
  rw [Real.dist_eq, show y k - (y k + s * (z k - y k)) = -(s * (z k - y k)) by ring, abs_neg, abs_mul, abs_of_nonneg hs.1]
  exact (mul_le_of_le_one_left (abs_nonneg _) hs.2).trans (coord_dist y z k)

theorem sum_bound {a b : Fin 2 → ℝ} {A D : ℝ} (hA : 0 ≤ A) (ha : ∀ k, |a k| ≤ A) (hb : ∀ k, |b k| ≤ D) : |∑ k, a k * b k| ≤ 2 * A * D := by
  rw [Fin.sum_univ_two]
  refine (abs_add_le _ _).trans ?_
  rw [abs_mul, abs_mul]
  have h0 := mul_le_mul (ha 0) (hb 0) (abs_nonneg _) hA
  have h1 := mul_le_mul (ha 1) (hb 1) (abs_nonneg _) hA
  linarith

/-- the first order -/
theorem taylor_first {u : (Fin 2 → ℝ) → ℝ} (hu : ContDiff ℝ 2 u) (R : ℝ) :
    ∃ M, 0 ≤ M ∧ ∀ y ∈ Metric.closedBall 0 R, ∀ z ∈ Metric.closedBall 0 R,
      |u z - (u y + ∑ k, partial2 u k y * (z k - y k))| ≤ M * dist y z ^ 2 := by
  obtain ⟨M, hM, h1⟩ := gradient_lipschitz hu R
  refine ⟨2 * M, by positivity, fun y hy z hz => ?_⟩
  obtain ⟨s, hs, h2⟩ := mean_value (hu.differentiable two_ne_zero) y z
  have hw := segment_ball hy hz hs
  have hd := segment_dist y z hs
  have e : u z - (u y + ∑ k, partial2 u k y * (z k - y k)) =
      ∑ k, (partial2 u k (fun i => y i + s * (z i - y i)) - partial2 u k y) * (z k - y k) := by
    rw [← sub_sub, h2, ← Finset.sum_sub_distrib]
    exact Finset.sum_congr rfl fun k _ => by ring
  rw [e]
  have h0 : (0 : ℝ) ≤ dist y z := dist_nonneg
  refine (sum_bound (A := M * dist y z) (by positivity) (fun k => ?_) (coord_dist y z)).trans (le_of_eq (by ring))
  refine (h1 k _ hw y hy).trans (mul_le_mul_of_nonneg_left ?_ hM)
  rw [dist_comm]
  exact hd

/-- the second order -/
theorem taylor_second {u : (Fin 2 → ℝ) → ℝ} (hu : ContDiff ℝ 3 u) (R : ℝ) :
    ∃ M, 0 ≤ M ∧ ∀ y ∈ Metric.closedBall 0 R, ∃ H, ∀ z ∈ Metric.closedBall 0 R,
      |u z - taylor y (u y) (fun k => partial2 u k y) H z| ≤ M * dist y z ^ 3 := by
  have hp : ∀ k, ContDiff ℝ 2 (partial2 u k) := fun k => partial_smooth (by norm_num; exact hu) k
  obtain ⟨M0, hM0, h0⟩ := taylor_first (hp 0) R
  obtain ⟨M1, hM1, h1⟩ := taylor_first (hp 1) R
  have hk : ∀ k, ∀ y ∈ Metric.closedBall 0 R, ∀ z ∈ Metric.closedBall 0 R,
      |partial2 u k z - (partial2 u k y + ∑ j, partial2 (partial2 u k) j y * (z j - y j))| ≤ (M0 + M1) * dist y z ^ 2 := by
    intro k y hy z hz
    have hd : (0 : ℝ) ≤ dist y z ^ 2 := by positivity
    fin_cases k
    · exact (h0 y hy z hz).trans (mul_le_mul_of_nonneg_right (by linarith) hd)
    · exact (h1 y hy z hz).trans (mul_le_mul_of_nonneg_right (by linarith) hd)
  refine ⟨2 * (M0 + M1), by positivity, fun y hy => ⟨fun j k => partial2 (partial2 u k) j y, fun z hz => ?_⟩⟩
  set H : Fin 2 → Fin 2 → ℝ := fun j k => partial2 (partial2 u k) j y with hH
  set G := ∑ k, partial2 u k y * (z k - y k) with hG
  set Q := ∑ j, ∑ k, H j k * ((z j - y j) * (z k - y k)) with hQ
  have hd : ∀ s : ℝ, HasDerivAt (fun s : ℝ => u (fun i => y i + s * (z i - y i)) - (s * G + s ^ 2 * (1 / 2 * Q)))
      (∑ k, partial2 u k (fun i => y i + s * (z i - y i)) * (z k - y k) - (1 * G + (2 * s ^ (2 - 1) * 1) * (1 / 2 * Q))) s := by
    intro s
    have h1 : HasDerivAt (fun s : ℝ => (fun i => y i + s * (z i - y i) : Fin 2 → ℝ)) (fun i => z i - y i) s := by
      rw [hasDerivAt_pi]
      intro k
      have := ((hasDerivAt_id s).mul_const (z k - y k)).const_add (y k)
      simpa using this
    rw [← fderiv_partial u _ (fun i => z i - y i)]
    refine HasDerivAt.sub ((hu.differentiable (by norm_num) _).hasFDerivAt.comp_hasDerivAt s h1) ?_
    exact ((hasDerivAt_id s).mul_const G).add (((hasDerivAt_id s).pow 2).mul_const (1 / 2 * Q))
  obtain ⟨s, hs, h⟩ := exists_hasDerivAt_eq_slope (fun s : ℝ => u (fun i => y i + s * (z i - y i)) - (s * G + s ^ 2 * (1 / 2 * Q))) _ one_pos
    (fun s _ => (hd s).continuousAt.continuousWithinAt) fun s _ => hd s
  have hs' : s ∈ Set.Icc (0 : ℝ) 1 := ⟨hs.1.le, hs.2.le⟩
  have hw := segment_ball hy hz hs'
  have hdist := segment_dist y z hs'
  have e : u z - taylor y (u y) (fun k => partial2 u k y) H z =
      ∑ k, (partial2 u k (fun i => y i + s * (z i - y i)) -
        (partial2 u k y + ∑ j, partial2 (partial2 u k) j y * ((y j + s * (z j - y j)) - y j))) * (z k - y k) := by
    have e1 : u z - taylor y (u y) (fun k => partial2 u k y) H z =
        ∑ k, partial2 u k (fun i => y i + s * (z i - y i)) * (z k - y k) - (G + s * Q) := by
      have : taylor y (u y) (fun k => partial2 u k y) H z = u y + G + 1 / 2 * Q := rfl
      rw [this]
      have h' : ∑ k, partial2 u k (fun i => y i + s * (z i - y i)) * (z k - y k) - (1 * G + (2 * s ^ (2 - 1) * 1) * (1 / 2 * Q)) =
          u z - (u y + G + 1 / 2 * Q) := by
        rw [h]
        simp
        ring
      rw [← h']
      norm_num
      ring
    rw [e1, hG, hQ, hH]
    simp only [Fin.sum_univ_two]
    ring
  rw [e]
  have h0 : (0 : ℝ) ≤ dist y z := dist_nonneg
  refine (sum_bound (A := (M0 + M1) * dist y z ^ 2) (by positivity) (fun k => ?_) (coord_dist y z)).trans (le_of_eq (by ring))
  exact (hk k y hy _ hw).trans (mul_le_mul_of_nonneg_left (pow_le_pow_left₀ dist_nonneg hdist 2) (by positivity))

/-! ## The rule -/

theorem accurate_not_collinear {tb : Table 2} (ht : Inside tb) (h : Accurate mean2 tb 2 0) : ¬ Collinear tb.rule := by
  rintro ⟨a, b, c, hab, hc⟩
  have h1 := accurate_poly2 h ![c ^ 2, -2 * c * a, -2 * c * b, a ^ 2, b ^ 2, 2 * a * b]
  rw [mean_poly2] at h1
  have h2 : apply tb (poly2 ![c ^ 2, -2 * c * a, -2 * c * b, a ^ 2, b ^ 2, 2 * a * b]) = 0 := by
    unfold apply
    refine List.sum_eq_zero fun y hy => ?_
    obtain ⟨q, hq, rfl⟩ := List.mem_map.mp hy
    have h3 := hc q hq (rule_mem (n := 1) ht q hq).1
    have h4 : poly2 ![c ^ 2, -2 * c * a, -2 * c * b, a ^ 2, b ^ 2, 2 * a * b] q.1 = (a * q.1 0 + b * q.1 1 - c) ^ 2 := by
      simp [poly2]
      ring
    rw [h4, h3]
    ring
  rw [h2] at h1
  have h3 : poly2Mean ![c ^ 2, -2 * c * a, -2 * c * b, a ^ 2, b ^ 2, 2 * a * b] =
      (c - (a + b) / 3) ^ 2 + (a ^ 2 + b ^ 2 + (a - b) ^ 2) / 36 := by
    simp [poly2Mean]
    ring
  rw [h3] at h1
  rcases hab with h | h
  · have := pow_pos (abs_pos.mpr h) 2
    rw [sq_abs] at this
    nlinarith [sq_nonneg (c - (a + b) / 3), sq_nonneg b, sq_nonneg (a - b)]
  · have := pow_pos (abs_pos.mpr h) 2
    rw [sq_abs] at this
    nlinarith [sq_nonneg (c - (a + b) / 3), sq_nonneg a, sq_nonneg (a - b)]

/-! ## Forms and loads -/

theorem form_quad (t : Table 2) {x : Fin 3 → Fin 2 → ℝ} (hx : 0 < triangleArea x) (v w : Fin 6 → ℝ) :
    ∑ a, ∑ b, v a * gradGrad t.rule (triP2 x) a b * w b =
      triangleArea x * apply t fun ξ => ∑ k, qslope x v k ((parametrization x).eval ξ) * qslope x w k ((parametrization x).eval ξ) := by
  rw [gradGrad_form]
  simp only [qslope_gradient hx.ne', factor, tri2_detJ, apply]
  have h2 : Geometry.area 2 = 1 / 2 := by simp [Geometry.area, Nat.factorial]
  rw [← List.sum_map_mul_left]
  refine congrArg List.sum (List.map_congr_left fun q _ => ?_)
  rw [h2]
  ring

theorem load_quad (t : Table 2) (f : (Fin 2 → ℝ) → ℝ) {x : Fin 3 → Fin 2 → ℝ} (hx : 0 < triangleArea x) (v : Fin 6 → ℝ) :
    ∑ a, v a * sourceTerm f t.rule (triP2 x) a =
      triangleArea x * apply t fun ξ => f ((parametrization x).eval ξ) * quad x v ((parametrization x).eval ξ) := by
  simp only [sourceTerm_sum, ← quad_shape hx.ne', apply]
  have h2 : Geometry.area 2 = 1 / 2 := by simp [Geometry.area, Nat.factorial]
  simp only [← List.sum_map_mul_left]
  rw [sum_list_comm]
  refine congrArg List.sum (List.map_congr_left fun p _ => ?_)
  simp only [factor, tri2_detJ, h2, Finset.mul_sum]
  refine Finset.sum_congr rfl fun a _ => ?_
  simp only [triP2]
  ring

/-! ## The places of a cell -/

theorem cell_places {c : GCell} (hn : c.nodes.length = 3) (p : Id → Fin 2 → ℝ) :
    ∃ g : Fin 3 → Node, (∀ x, x ∈ c.nodes ↔ ∃ a, x = g a) ∧ (∀ a, positions 3 p c a = p (g a).vertex) ∧
      places (triple c) = [.inl (g 0).id, .inl (g 1).id, .inl (g 2).id, .inr s((g 0).id, (g 1).id), .inr s((g 1).id, (g 2).id),
        .inr s((g 2).id, (g 0).id)] := by
  match hl : c.nodes, hn with
  | [x, y, z], _ =>
    refine ⟨![x, y, z], fun w => ?_, fun a => ?_, ?_⟩
    · rw [Fin.exists_fin_succ, Fin.exists_fin_succ, Fin.exists_fin_succ]
      simp
    · fin_cases a <;> simp [positions, hl]
    · simp [triple, ids, hl, places]

/-- the places of the nodes of the element -/
def placeOf (c : GCell) (a : Fin 6) : Nat ⊕ Sym2 Nat := (places (triple c)).getD a (.inl 0)

theorem placeOf_mem (c : GCell) (a : Fin 6) : placeOf c a ∈ places (triple c) := by
  unfold placeOf places
  fin_cases a <;> simp

theorem placeOf_map (f : Nat ⊕ Sym2 Nat → Nat) (c : GCell) (a : Fin 6) : ((places (triple c)).map f).getD a 0 = f (placeOf c a) := by
  unfold placeOf places
  fin_cases a <;> simp

theorem placeOf_all {c : GCell} {q : Nat ⊕ Sym2 Nat} (h : q ∈ places (triple c)) : ∃ a, q = placeOf c a := by
  obtain ⟨i, hi, rfl⟩ := List.mem_iff_getElem.mp h
  refine ⟨⟨i, by simpa [places] using hi⟩, ?_⟩
  simp [placeOf, List.getD_eq_getElem?_getD, List.getElem?_eq_getElem hi]

open Classical in
/-- the vertex of the node with a given id -/
noncomputable def vertexOf (cells : List GCell) (n : Nat) : Id :=
  if h : ∃ x : Node, (∃ c ∈ cells, x ∈ c.nodes) ∧ x.id = n then h.choose.vertex else 0

theorem vertexOf_eq {t : Topo} {cells B : List GCell} {p : Id → Fin 2 → ℝ} (ht : Triangulates t cells B p) {c : GCell} (hc : c ∈ cells)
    {x : Node} (hx : x ∈ c.nodes) : vertexOf cells x.id = x.vertex := by
  have h : ∃ y : Node, (∃ c ∈ cells, y ∈ c.nodes) ∧ y.id = x.id := ⟨x, ⟨c, hc, hx⟩, rfl⟩
  unfold vertexOf
  rw [dif_pos h]
  obtain ⟨⟨c', hc', hy⟩, hv⟩ := h.choose_spec
  rw [ht.ids c' hc' c hc _ hy x hx hv]

/-- the position of a node or of the middle of an edge -/
noncomputable def placeAt (cells : List GCell) (p : Id → Fin 2 → ℝ) : Nat ⊕ Sym2 Nat → Fin 2 → ℝ
  | .inl n => p (vertexOf cells n)
  | .inr e => Sym2.lift ⟨fun a b => (1 / 2 : ℝ) • (p (vertexOf cells a) + p (vertexOf cells b)), fun a b => by simp only [add_comm]⟩ e

section mesh

variable {t : Topo} {cells B : List GCell} {p : Id → Fin 2 → ℝ}

theorem cell_length (h : Triangulates t cells B p) {c : GCell} (hc : c ∈ cells) : c.nodes.length = 3 := by
  obtain ⟨ok, st⟩ := h.topology.ok
  exact (h.cell c hc).length ok.inv st (by omega)

theorem cell_place (h : Triangulates t cells B p) {c : GCell} (hc : c ∈ cells) (a : Fin 6) :
    placeAt cells p (placeOf c a) = nodesTri2 (positions 3 p c) a := by
  obtain ⟨g, hg, hpos, hpl⟩ := cell_places (cell_length h hc) p
  have hv : ∀ i, vertexOf cells (g i).id = (g i).vertex := fun i => vertexOf_eq h hc ((hg _).mpr ⟨i, rfl⟩)
  unfold placeOf
  rw [hpl]
  fin_cases a <;> simp [placeAt, nodesTri2, hv, hpos]

/-- the trace on the edges of a function with the values `V` at the places -/
noncomputable def trace (cells : List GCell) (V : Nat ⊕ Sym2 Nat → ℝ) (a b : Id) (s : ℝ) : ℝ :=
  alongEdge (V (.inl (nodeAt cells a)))
    (if a = b then V (.inl (nodeAt cells a)) else V (.inr s(nodeAt cells a, nodeAt cells b))) (V (.inl (nodeAt cells b))) s

theorem trace_comm (cells : List GCell) (V : Nat ⊕ Sym2 Nat → ℝ) (a b : Id) (s : ℝ) : trace cells V a b s = trace cells V b a (1 - s) := by
  unfold trace
  rw [alongEdge_comm]
  by_cases h : a = b
  · subst h; rfl
  · rw [if_neg h, if_neg (Ne.symm h), Sym2.eq_swap]

theorem cell_trace (h : Triangulates t cells B p) {c : GCell} (hc : c ∈ cells) (V : Nat ⊕ Sym2 Nat → ℝ) {x y : Node}
    (hx : x ∈ c.nodes) (hy : y ∈ c.nodes) (s : ℝ) :
    quad (positions 3 p c) (fun a => V (placeOf c a)) (fun i => p x.vertex i + s * (p y.vertex i - p x.vertex i)) =
      trace cells V x.vertex y.vertex s := by
  obtain ⟨g, hg, hpos, hpl⟩ := cell_places (cell_length h hc) p
  obtain ⟨i, rfl⟩ := (hg x).mp hx
  obtain ⟨j, rfl⟩ := (hg y).mp hy
  have hA := positions_area h hc
  have hn : ∀ i, nodeAt cells (g i).vertex = (g i).id := fun i => nodeAt_eq h.nodes hc ((hg _).mpr ⟨i, rfl⟩)
  have hne : ∀ i j, i ≠ j → (g i).vertex ≠ (g j).vertex := by
    intro i j hij he
    have e : positions 3 p c i = positions 3 p c j := by rw [hpos, hpos, he]
    have : triangleArea (positions 3 p c) = 0 := by
      unfold triangleArea
      fin_cases i <;> fin_cases j <;> simp at hij e ⊢ <;> rw [e] <;> ring
    exact hA.ne' this
  rw [← hpos, ← hpos, quad_edge hA.ne', trace, hn, hn]
  unfold placeOf
  rw [hpl]
  by_cases hij : i = j
  · subst hij
    rw [if_pos rfl]
    fin_cases i <;> simp [midNode]
  · rw [if_neg (hne i j hij)]
    fin_cases i <;> fin_cases j <;> simp [midNode] at hij ⊢ <;> rw [Sym2.eq_swap]

theorem trace_zero {V : Nat ⊕ Sym2 Nat → ℝ} {a b : Id} (h1 : V (.inl (nodeAt cells a)) = 0) (h2 : V (.inl (nodeAt cells b)) = 0)
    (h3 : V (.inr s(nodeAt cells a, nodeAt cells b)) = 0) (s : ℝ) : trace cells V a b s = 0 := by
  unfold trace
  rw [h1, h2, h3]
  simp [alongEdge]

/-- a continuous function that is quadratic on the cells and vanishes on the boundary -/
theorem sum_green2 (h : Triangulates t cells B p) (V : Nat ⊕ Sym2 Nat → ℝ)
    (h0 : ∀ b ∈ B, ∀ x y, b.nodes = [x, y] → V (.inl x.id) = 0 ∧ V (.inl y.id) = 0 ∧ V (.inr s(x.id, y.id)) = 0)
    {u : (Fin 2 → ℝ) → ℝ} (hu : ContDiff ℝ 2 u) :
    (cells.map fun c => (∫ y in hull (positions 3 p c), ∑ k,
          partial2 (quad (positions 3 p c) fun a => V (placeOf c a)) k y * partial2 u k y) -
        ∫ y in hull (positions 3 p c), sourceOf u y * quad (positions 3 p c) (fun a => V (placeOf c a)) y).sum = 0 ∧
    (cells.map fun c => (∫ y in hull (positions 3 p c), quad (positions 3 p c) (fun a => V (placeOf c a)) y ^ 2) +
      ∫ y in hull (positions 3 p c), 2 * y 0 * quad (positions 3 p c) (fun a => V (placeOf c a)) y *
        partial2 (quad (positions 3 p c) fun a => V (placeOf c a)) 0 y).sum = 0 := by
  obtain ⟨m, s, known, t', hm, hcl, hb⟩ := h.mesh
  have hBn := boundary_nodes h.topology (by omega) hm hcl h.cell hb
  have hz : ∀ b ∈ B, ∀ x y, b.nodes = [x, y] → ∀ s, trace cells V x.vertex y.vertex s = 0 := by
    intro b hb x y hn s
    obtain ⟨-, -, c, hc, hsub⟩ := hBn b hb
    obtain ⟨h1, h2, h3⟩ := h0 b hb x y hn
    have hx := nodeAt_eq h.nodes hc (hsub x (by simp [hn]))
    have hy := nodeAt_eq h.nodes hc (hsub y (by simp [hn]))
    exact trace_zero (by rw [hx, h1]) (by rw [hy, h2]) (by rw [hx, hy, h3]) s
  constructor
  · rw [← sum_divergence_zero h (Φ := fun c k y => quad (positions 3 p c) (fun a => V (placeOf c a)) y * partial2 u k y)
      (fun c _ k => ((quad_smooth _ _).of_le (by norm_num)).mul (partial_contDiff hu k))
      (τ := trace cells V) (trace_comm cells V) (partial2 u)
      (fun c hc x y hx hy s k => by rw [cell_trace h hc V hx hy]) hz]
    exact congrArg List.sum (List.map_congr_left fun c _ => (green_smooth hu (quad_smooth _ _) _).symm)
  · rw [← sum_divergence_zero h (Φ := fun c => firstTimes (quad (positions 3 p c) fun a => V (placeOf c a))) ?_
      (τ := fun a b s => trace cells V a b s ^ 2) (fun a b s => by rw [trace_comm]) (fun k y => if k = 0 then y 0 else 0) ?_ ?_]
    · exact congrArg List.sum (List.map_congr_left fun c _ => (friedrichs_smooth (quad_smooth _ _) _).symm)
    · intro c _ k
      have := ((quad_smooth (positions 3 p c) fun a => V (placeOf c a)).of_le (show (1 : WithTop ℕ∞) ≤ 2 by norm_num))
      unfold firstTimes
      split
      · exact (contDiff_apply ℝ ℝ 0).mul (this.pow 2)
      · exact contDiff_const
    · intro c hc x y hx hy s k
      simp only [firstTimes, cell_trace h hc V hx hy]
      split <;> ring
    · intro b hb x y hn s
      rw [hz b hb x y hn]
      ring

open Classical in
/-- The error of the discrete solution: the energy of the difference to the interpolating function, and its square. -/
theorem galerkin_quad (h : Triangulates t cells B p) {f : Nat ⊕ Sym2 Nat → Nat}
    (hf : ∀ q ∈ (cells.map triple).flatMap places, ∀ q' ∈ (cells.map triple).flatMap places, f q = f q' → q = q')
    {l : List Nat} (hl : ∀ d, d ∈ l ↔ ∃ b ∈ B, ∃ x y, b.nodes = [x, y] ∧ (d = f (.inl x.id) ∨ d = f (.inl y.id) ∨ d = f (.inr s(x.id, y.id))))
    {tb : Table 2} (ht : Inside tb) (hacc : Accurate mean2 tb 2 0) {u : (Fin 2 → ℝ) → ℝ} (hu : ContDiff ℝ 2 u) (hu0 : Vanishes2 B p u)
    {r e ε η R : ℝ} (hr : ∀ c ∈ cells, ∀ a b, dist (positions 3 p c a) (positions 3 p c b) ≤ r)
    (he : ∀ c ∈ cells, ∀ k, ∀ y ∈ hull (positions 3 p c),
      |qslope (positions 3 p c) (fun b => u (nodesTri2 (positions 3 p c) b)) k y - partial2 u k y| ≤ e)
    (hε : ∀ c ∈ cells, ∀ y ∈ hull (positions 3 p c), ∀ z ∈ hull (positions 3 p c), |sourceOf u y - sourceOf u z| ≤ ε)
    (hη : ∀ c ∈ cells, ∃ (c' : ℝ) (z g : Fin 2 → ℝ), ∀ y ∈ hull (positions 3 p c), |sourceOf u y - (c' + ∑ k, g k * (y k - z k))| ≤ η)
    (hR0 : 0 < R) (hR : ∀ c ∈ cells, ∀ y ∈ hull (positions 3 p c), |y 0| ≤ R) {U : Nat → ℝ}
    (hU : Galerkin (functionSpace (cells.map fun c => (triP2 (positions 3 p c), fun a : Fin 6 => ((places (triple c)).map f).getD a 0)) l)
      (poisson tb.rule (sourceOf u) (cells.map fun c => (triP2 (positions 3 p c), fun a : Fin 6 => ((places (triple c)).map f).getD a 0))) U) :
    (cells.map fun c => ∫ y in hull (positions 3 p c), ∑ k, qslope (positions 3 p c)
        (fun a => U (f (placeOf c a)) - u (nodesTri2 (positions 3 p c) a)) k y ^ 2).sum ≤
      areaOf cells p * (8 * e ^ 2 + 384 * ε ^ 2 * r ^ 2 + 32 * R ^ 2 * η ^ 2) ∧
    (cells.map fun c => ∫ y in hull (positions 3 p c),
        quad (positions 3 p c) (fun a => U (f (placeOf c a)) - u (nodesTri2 (positions 3 p c) a)) y ^ 2).sum ≤
      4 * R ^ 2 * (cells.map fun c => ∫ y in hull (positions 3 p c), ∑ k, qslope (positions 3 p c)
        (fun a => U (f (placeOf c a)) - u (nodesTri2 (positions 3 p c) a)) k y ^ 2).sum := by
  have hmem : ∀ c ∈ cells, ∀ q ∈ places (triple c), q ∈ (cells.map triple).flatMap places := fun c hc q hq =>
    List.mem_flatMap.mpr ⟨triple c, List.mem_map.mpr ⟨c, hc, rfl⟩, hq⟩
  obtain ⟨m, s, known, t', hm, hcl, hb⟩ := h.mesh
  have hBn := boundary_nodes h.topology (by omega) hm hcl h.cell hb
  -- the difference at the places
  let V : Nat ⊕ Sym2 Nat → ℝ := fun q => U (f q) - u (placeAt cells p q)
  have hV : ∀ c ∈ cells, (fun a => U (f (placeOf c a)) - u (nodesTri2 (positions 3 p c) a)) = fun a => V (placeOf c a) := by
    intro c hc
    funext a
    simp only [V]
    rw [cell_place h hc]
  have hB : ∀ b ∈ B, ∀ x y, b.nodes = [x, y] → (U (f (.inl x.id)) = 0 ∧ U (f (.inl y.id)) = 0 ∧ U (f (.inr s(x.id, y.id))) = 0) := by
    intro b hb x y hn
    refine ⟨hU.1 _ ((hl _).mpr ⟨b, hb, x, y, hn, .inl rfl⟩), hU.1 _ ((hl _).mpr ⟨b, hb, x, y, hn, .inr (.inl rfl)⟩),
      hU.1 _ ((hl _).mpr ⟨b, hb, x, y, hn, .inr (.inr rfl)⟩)⟩
  have hB' : ∀ b ∈ B, ∀ x y, b.nodes = [x, y] → u (placeAt cells p (.inl x.id)) = 0 ∧ u (placeAt cells p (.inl y.id)) = 0 ∧
      u (placeAt cells p (.inr s(x.id, y.id))) = 0 := by
    intro b hb x y hn
    obtain ⟨-, -, c, hc, hsub⟩ := hBn b hb
    have hx := vertexOf_eq h hc (hsub x (by simp [hn]))
    have hy := vertexOf_eq h hc (hsub y (by simp [hn]))
    have half : ∀ z : Fin 2 → ℝ, (1 / 2 : ℝ) • (z + z) = z := fun z => by rw [← two_smul ℝ z, smul_smul]; norm_num
    refine ⟨?_, ?_, ?_⟩
    · have := hu0 b hb x (by simp [hn]) x (by simp [hn])
      rw [half] at this
      simpa [placeAt, hx] using this
    · have := hu0 b hb y (by simp [hn]) y (by simp [hn])
      rw [half] at this
      simpa [placeAt, hy] using this
    · have := hu0 b hb x (by simp [hn]) y (by simp [hn])
      simpa [placeAt, hx, hy] using this
  have hVB : ∀ b ∈ B, ∀ x y, b.nodes = [x, y] → V (.inl x.id) = 0 ∧ V (.inl y.id) = 0 ∧ V (.inr s(x.id, y.id)) = 0 := by
    intro b hb x y hn
    obtain ⟨h1, h2, h3⟩ := hB b hb x y hn
    obtain ⟨h4, h5, h6⟩ := hB' b hb x y hn
    simp only [V, h1, h2, h3, h4, h5, h6, sub_zero, and_self]
  -- the difference as a test function
  let w : Nat → ℝ := fun d => if hd : ∃ q ∈ (cells.map triple).flatMap places, f q = d then V hd.choose else 0
  have hw : ∀ q ∈ (cells.map triple).flatMap places, w (f q) = V q := by
    intro q hq
    have hd : ∃ q' ∈ (cells.map triple).flatMap places, f q' = f q := ⟨q, hq, rfl⟩
    simp only [w]
    rw [dif_pos hd]
    rw [hf _ hd.choose_spec.1 q hq hd.choose_spec.2]
  have hplaces : ∀ b ∈ B, ∀ x y, b.nodes = [x, y] → ∃ c ∈ cells, Sum.inl x.id ∈ places (triple c) ∧ Sum.inl y.id ∈ places (triple c) ∧
      Sum.inr s(x.id, y.id) ∈ places (triple c) := by
    intro b hb x y hn
    obtain ⟨-, hnd, c, hc, hsub⟩ := hBn b hb
    rw [hn] at hnd hsub
    have hlen := cell_length h hc
    refine ⟨c, hc, mem_triple hlen (hsub x (by simp)), mem_triple hlen (hsub y (by simp)),
      mem_triple_edge hlen (hsub x (by simp)) (hsub y (by simp)) ?_⟩
    rintro rfl
    simp at hnd
  have hadm : Admissible (functionSpace (cells.map fun c => (triP2 (positions 3 p c), fun a : Fin 6 => ((places (triple c)).map f).getD a 0)) l) w := by
    intro d hd
    obtain ⟨b, hb, x, y, hn, hd⟩ := (hl d).mp hd
    obtain ⟨c, hc, i1, i2, i3⟩ := hplaces b hb x y hn
    obtain ⟨z1, z2, z3⟩ := hVB b hb x y hn
    rcases hd with rfl | rfl | rfl
    · rw [hw _ (hmem c hc _ i1), z1]
    · rw [hw _ (hmem c hc _ i2), z2]
    · rw [hw _ (hmem c hc _ i3), z3]
  have hgal := hU.2 w hadm
  rw [form_poisson, load_poisson, List.map_map, List.map_map] at hgal
  have hwv : ∀ c ∈ cells, ∀ a : Fin 6, w (((places (triple c)).map f).getD a 0) = V (placeOf c a) := by
    intro c hc a
    rw [placeOf_map, hw _ (hmem c hc _ (placeOf_mem c a))]
  have hE : (cells.map fun c => triangleArea (positions 3 p c) * apply tb fun ξ => ∑ k,
        qslope (positions 3 p c) (fun a => V (placeOf c a)) k ((parametrization (positions 3 p c)).eval ξ) *
        qslope (positions 3 p c) (fun a => U (f (placeOf c a))) k ((parametrization (positions 3 p c)).eval ξ)).sum =
      (cells.map fun c => triangleArea (positions 3 p c) * apply tb fun ξ => sourceOf u ((parametrization (positions 3 p c)).eval ξ) *
        quad (positions 3 p c) (fun a => V (placeOf c a)) ((parametrization (positions 3 p c)).eval ξ)).sum := by
    refine Eq.trans (congrArg List.sum (List.map_congr_left fun c hc => ?_)) (hgal.trans (congrArg List.sum (List.map_congr_left fun c hc => ?_)))
    · simp only [Function.comp]
      rw [← form_quad tb (positions_area h hc)]
      simp only [hwv c hc]
      simp only [placeOf_map]
    · simp only [Function.comp]
      rw [← load_quad tb _ (positions_area h hc)]
      simp only [hwv c hc]
  obtain ⟨hG, h0⟩ := sum_green2 h V hVB hu
  have hen := quad_energy cells (positions 3 p) (fun c a => V (placeOf c a)) (fun c a => U (f (placeOf c a))) ht hacc hu
    (fun c hc => positions_area h hc) hr he hε hη hR0 hR (fun c hc b => (congrFun (hV c hc) b).symm) hG h0 hE
  have hfr := quad_friedrichs cells (positions 3 p) (fun c a => V (placeOf c a)) hR h0
  have e1 : (cells.map fun c => ∫ y in hull (positions 3 p c), ∑ k, qslope (positions 3 p c)
        (fun a => U (f (placeOf c a)) - u (nodesTri2 (positions 3 p c) a)) k y ^ 2) =
      cells.map fun c => ∫ y in hull (positions 3 p c), ∑ k, qslope (positions 3 p c) (fun a => V (placeOf c a)) k y ^ 2 :=
    List.map_congr_left fun c hc => by rw [hV c hc]
  have e2 : (cells.map fun c => ∫ y in hull (positions 3 p c),
        quad (positions 3 p c) (fun a => U (f (placeOf c a)) - u (nodesTri2 (positions 3 p c) a)) y ^ 2) =
      cells.map fun c => ∫ y in hull (positions 3 p c), quad (positions 3 p c) (fun a => V (placeOf c a)) y ^ 2 :=
    List.map_congr_left fun c hc => by rw [hV c hc]
  rw [e1, e2]
  exact ⟨hen, hfr⟩

/-- the quadratic discretizer succeeds; the discretization nodes are given by an injective map of the nodes and edges, and those of the
boundary are constrained -/
theorem discretize_quad (h : Triangulates t cells B p) {alloc : List Nat → Nat} {other : List Nat} (ha : ∀ l, alloc l ∉ l) (ho : other.Nodup) :
    ∃ (f : Nat ⊕ Sym2 Nat → Nat) (l : List Nat),
      discretizeTri2 alloc other p cells B =
        .ok (cells.map fun c => (triP2 (positions 3 p c), fun a : Fin 6 => ((places (triple c)).map f).getD a 0), l) ∧
      (∀ q ∈ (cells.map triple).flatMap places, ∀ q' ∈ (cells.map triple).flatMap places, f q = f q' → q = q') ∧
      ∀ d, d ∈ l ↔ ∃ b ∈ B, ∃ x y, b.nodes = [x, y] ∧ (d = f (.inl x.id) ∨ d = f (.inl y.id) ∨ d = f (.inr s(x.id, y.id))) := by
  obtain ⟨m, s, known, t', hm, hcl, hb⟩ := h.mesh
  have hBn := boundary_nodes h.topology (by omega) hm hcl h.cell hb
  obtain ⟨f, h1, h2, -, -, hinj⟩ := elementsP2_eq ha ho (cells.map triple)
  have hconn : (elementsP2 alloc other ⟨[], []⟩ (cells.map triple)).2 = cells.map fun c => (places (triple c)).map f := by
    rw [h1, List.map_map]; rfl
  have hl : ∀ L : List GCell, (∀ b ∈ L, b ∈ B) →
      constrainedP2 (elementsP2 alloc other ⟨[], []⟩ (cells.map triple)).1 (L.map pair) =
        .ok (L.flatMap fun b => (segmentPlaces (pair b)).map f) := by
    intro L
    induction L with
    | nil => intro _; rfl
    | cons b L ih =>
      intro hL
      obtain ⟨h2', hnd, c, hc, hsub⟩ := hBn b (hL b (by simp))
      obtain ⟨x, y, hn, hpair⟩ := nodes_pair h2'
      rw [hn] at hnd hsub
      have hlen := cell_length h hc
      have hmem : ∀ q ∈ places (triple c), q ∈ (cells.map triple).flatMap places := fun q hq =>
        List.mem_flatMap.mpr ⟨triple c, List.mem_map.mpr ⟨c, hc, rfl⟩, hq⟩
      have la : Numbering.lookup _ x.id = some _ := h2 _ (hmem _ (mem_triple hlen (hsub x (by simp))))
      have lb : Numbering.lookup _ y.id = some _ := h2 _ (hmem _ (mem_triple hlen (hsub y (by simp))))
      have lm := h2 _ (hmem _ (mem_triple_edge hlen (hsub x (by simp)) (hsub y (by simp)) (by rintro rfl; simp at hnd)))
      rw [lookupPlace_inr _ _ _ _ _ la lb] at lm
      rw [List.map_cons, hpair, constrainedP2, la, lb]
      simp only [lm, ih fun b hb => hL b (by simp [hb])]
      simp [segmentPlaces, hpair]
  refine ⟨f, B.flatMap fun b => (segmentPlaces (pair b)).map f, ?_, hinj, fun d => ?_⟩
  · unfold discretizeTri2
    simp only [hl B fun _ hb => hb, collect, hconn]
    rw [spaceOf_map (fun c => triP2 (positions 3 p c)) cells fun c => (places (triple c)).map f]
  · rw [List.mem_flatMap]
    constructor
    · rintro ⟨b, hb, hd⟩
      obtain ⟨x, y, hn, hpair⟩ := nodes_pair (hBn b hb).1
      rw [hpair] at hd
      refine ⟨b, hb, x, y, hn, ?_⟩
      simpa [segmentPlaces] using hd
    · rintro ⟨b, hb, x, y, hn, hd⟩
      obtain ⟨x', y', hn', hpair⟩ := nodes_pair (hBn b hb).1
      obtain ⟨rfl, rfl⟩ : x = x' ∧ y = y' := by
        rw [hn] at hn'
        simpa using hn'
      refine ⟨b, hb, ?_⟩
      rw [hpair]
      simpa [segmentPlaces] using hd

end mesh

/-! ## The error on a triangle -/

theorem hull_error2 (x : Fin 3 → Fin 2 → ℝ) (hx : 0 < triangleArea x) (U : Fin 6 → ℝ) (u : (Fin 2 → ℝ) → ℝ) :
    ∫ ξ in Simplex 2 1, (triP2 x).detJ ξ *
      ((∑ a, U a * ((triP2 x).shape a).eval ξ () - u ((triP2 x).parametrization.eval ξ)) ^ 2 +
        ∑ k, (∑ a, U a * (triP2 x).gradient a ξ k - partial2 u k ((triP2 x).parametrization.eval ξ)) ^ 2) =
      ∫ y in hull x, ((quad x U y - u y) ^ 2 + ∑ k, (qslope x U k y - partial2 u k y) ^ 2) := by
  rw [hull, integral_hull (n := 1), simplexVolume_area, abs_of_pos hx, meanOver]
  simp only [tri2_detJ, quad_shape hx.ne', qslope_gradient hx.ne', integral_const_mul]
  norm_num [Nat.factorial]
  rw [mul_comm 2, mul_assoc]
  rfl

/-- the error in terms of the difference between the discrete solution and the interpolating function -/
theorem hull_error2_le {x : Fin 3 → Fin 2 → ℝ} (hx : 0 < triangleArea x) (U : Fin 6 → ℝ) {u : (Fin 2 → ℝ) → ℝ} (hu : ContDiff ℝ 2 u) {τ e : ℝ}
    (hτ : ∀ y ∈ hull x, |quad x (fun a => u (nodesTri2 x a)) y - u y| ≤ τ)
    (he : ∀ k, ∀ y ∈ hull x, |qslope x (fun a => u (nodesTri2 x a)) k y - partial2 u k y| ≤ e) :
    ∫ y in hull x, ((quad x U y - u y) ^ 2 + ∑ k, (qslope x U k y - partial2 u k y) ^ 2) ≤
      2 * (∫ y in hull x, quad x (fun a => U a - u (nodesTri2 x a)) y ^ 2) +
        2 * (∫ y in hull x, ∑ k, qslope x (fun a => U a - u (nodesTri2 x a)) k y ^ 2) + triangleArea x * (2 * τ ^ 2 + 4 * e ^ 2) := by
  set v : Fin 6 → ℝ := fun a => U a - u (nodesTri2 x a) with hv
  have hq := quad_continuous x v
  have hec := energy_continuous x v
  have hpc : ∀ k, Continuous (partial2 u k) := fun k => (partial_contDiff hu k).continuous
  rw [← integral_const_mul, ← integral_const_mul, ← hull_const x hx.le,
    ← hull_add x (f := fun y => 2 * quad x v y ^ 2) (g := fun y => 2 * ∑ k, qslope x v k y ^ 2) (by fun_prop) (hec.const_mul _),
    ← hull_add x (f := fun y => 2 * quad x v y ^ 2 + 2 * ∑ k, qslope x v k y ^ 2) (g := fun _ => 2 * τ ^ 2 + 4 * e ^ 2)
      ((by fun_prop : Continuous fun y => 2 * quad x v y ^ 2).add (hec.const_mul _)) continuous_const]
  refine hull_mono x ?_ (((by fun_prop : Continuous fun y => 2 * quad x v y ^ 2).add (hec.const_mul _)).add continuous_const) fun y hy => ?_
  · exact (((quad_continuous x U).sub hu.continuous).pow 2).add
      (continuous_finset_sum _ fun k _ => (((qslope_continuous x U k).sub (hpc k)).pow 2))
  have h1 : (quad x U y - u y) ^ 2 ≤ 2 * quad x v y ^ 2 + 2 * τ ^ 2 := by
    have h2 := hτ y hy
    have h3 : (quad x (fun a => u (nodesTri2 x a)) y - u y) ^ 2 ≤ τ ^ 2 := sq_le_sq' (neg_le_of_abs_le h2) (le_of_abs_le h2)
    have h4 := add_square (quad x v y) (quad x (fun a => u (nodesTri2 x a)) y - u y)
    rw [hv, quad_sub] at h4 ⊢
    rw [show quad x U y - u y = quad x U y - quad x (fun a => u (nodesTri2 x a)) y + (quad x (fun a => u (nodesTri2 x a)) y - u y) by ring]
    nlinarith
  have h5 : ∀ k, (qslope x U k y - partial2 u k y) ^ 2 ≤ 2 * qslope x v k y ^ 2 + 2 * e ^ 2 := by
    intro k
    have h2 := he k y hy
    have h3 : (qslope x (fun a => u (nodesTri2 x a)) k y - partial2 u k y) ^ 2 ≤ e ^ 2 := sq_le_sq' (neg_le_of_abs_le h2) (le_of_abs_le h2)
    have h4 := add_square (qslope x v k y) (qslope x (fun a => u (nodesTri2 x a)) k y - partial2 u k y)
    rw [hv, qslope_sub] at h4 ⊢
    rw [show qslope x U k y - partial2 u k y = qslope x U k y - qslope x (fun a => u (nodesTri2 x a)) k y +
      (qslope x (fun a => u (nodesTri2 x a)) k y - partial2 u k y) by ring]
    nlinarith
  rw [Fin.sum_univ_two, Fin.sum_univ_two]
  linarith [h5 0, h5 1]

/-- the same at the points of a rule -/
theorem rule_error2_le {t : Table 2} (ht : Inside t) (hsum : (t.map Prod.snd).sum = 1) {x : Fin 3 → Fin 2 → ℝ} (hx : 0 < triangleArea x)
    (U : Fin 6 → ℝ) {u : (Fin 2 → ℝ) → ℝ} {r τ : ℝ} (hr : ∀ a b, dist (x a) (x b) ≤ r)
    (hτ : ∀ y ∈ hull x, |quad x (fun a => u (nodesTri2 x a)) y - u y| ≤ τ) :
    (t.rule.map fun p => factor (triP2 x) p *
        (∑ a, ((triP2 x).shape a).eval p.1 () * U a - u ((triP2 x).parametrization.eval p.1)) ^ 2).sum ≤
      4 * (∫ y in hull x, quad x (fun a => U a - u (nodesTri2 x a)) y ^ 2) +
        96 * r ^ 2 * (∫ y in hull x, ∑ k, qslope x (fun a => U a - u (nodesTri2 x a)) k y ^ 2) + triangleArea x * (2 * τ ^ 2) := by
  set v : Fin 6 → ℝ := fun a => U a - u (nodesTri2 x a) with hv
  have hq := quad_continuous x v
  obtain ⟨G, hG0, hG1, hG2⟩ := gradient_max hx v
  have key : ∀ p ∈ t.rule, factor (triP2 x) p *
      (∑ a, ((triP2 x).shape a).eval p.1 () * U a - u ((triP2 x).parametrization.eval p.1)) ^ 2 ≤
      p.2 * (4 * (∫ y in hull x, quad x v y ^ 2) +
        96 * r ^ 2 * (∫ y in hull x, ∑ k, qslope x v k y ^ 2) + triangleArea x * (2 * τ ^ 2)) := by
    intro p hp
    obtain ⟨hp0, hpm⟩ := rule_mem ht p hp
    have hf : factor (triP2 x) p = p.2 * triangleArea x := by
      rw [factor, tri2_detJ]
      have h2 : Geometry.area 2 = 1 / 2 := by simp [Geometry.area, Nat.factorial]
      rw [h2]
      ring
    have hs : ∑ a, ((triP2 x).shape a).eval p.1 () * U a = quad x U ((parametrization x).eval p.1) := by
      rw [← quad_shape hx.ne']
      exact Finset.sum_congr rfl fun a _ => mul_comm _ _
    have hz : (parametrization x).eval p.1 ∈ hull x := by
      rw [hull, ← parametrization_image]
      exact ⟨p.1, hpm, rfl⟩
    set z := (parametrization x).eval p.1
    have hpar : (triP2 x).parametrization.eval p.1 = z := rfl
    rw [hf, hs, hpar, mul_assoc]
    refine mul_le_mul_of_nonneg_left ?_ hp0.le
    have h1 : (quad x U z - u z) ^ 2 ≤ 2 * quad x v z ^ 2 + 2 * τ ^ 2 := by
      have h2 := hτ z hz
      have h3 : (quad x (fun a => u (nodesTri2 x a)) z - u z) ^ 2 ≤ τ ^ 2 := sq_le_sq' (neg_le_of_abs_le h2) (le_of_abs_le h2)
      have h4 := add_square (quad x v z) (quad x (fun a => u (nodesTri2 x a)) z - u z)
      rw [hv, quad_sub] at h4 ⊢
      rw [show quad x U z - u z = quad x U z - quad x (fun a => u (nodesTri2 x a)) z + (quad x (fun a => u (nodesTri2 x a)) z - u z) by ring]
      nlinarith
    have h2 : triangleArea x * (2 * quad x v z ^ 2) ≤
        4 * (∫ y in hull x, quad x v y ^ 2) + 4 * r ^ 2 * (triangleArea x * G ^ 2) := by
      have e1 : 4 * (∫ y in hull x, quad x v y ^ 2) + 4 * r ^ 2 * (triangleArea x * G ^ 2) =
          ∫ y in hull x, (4 * quad x v y ^ 2 + 4 * r ^ 2 * G ^ 2) := by
        rw [hull_add x (f := fun y => 4 * quad x v y ^ 2) (g := fun _ => 4 * r ^ 2 * G ^ 2) (by fun_prop) continuous_const,
          hull_const x hx.le, integral_const_mul]
        ring
      rw [e1, ← hull_const x hx.le]
      refine hull_mono x continuous_const (by fun_prop) fun y hy => ?_
      have h3 := quad_variation hx.ne' hr v hG1 hz hy
      have h4 : (quad x v z - quad x v y) ^ 2 ≤ (r * G) ^ 2 := sq_le_sq' (neg_le_of_abs_le h3) (le_of_abs_le h3)
      have h6 := add_square (quad x v y) (quad x v z - quad x v y)
      rw [add_sub_cancel] at h6
      nlinarith
    rw [hG2] at h2
    nlinarith [mul_le_mul_of_nonneg_left h1 hx.le]
  refine (list_le t.rule key).trans (le_of_eq ?_)
  rw [List.sum_map_mul_right, rule_sum hsum, one_mul]

end Mito.Fem.Quadratic
