import Verif.Fem.DirichletLemmas
import Verif.Fem.PoissonLemmas
import Verif.Props.Elements
import Verif.Props.MaximumPrinciple
import Verif.Mesh.StokesLemmas

/-! # Lemmas for the patch test -/

namespace Mito.Fem

open Mito.Functions Mito.Discretizer Mito.Meshes Mito.DiscreteSystem Mito.Topology

variable {d n : Nat}

/-- the form of the Poisson problem as a sum over the list of elements -/
theorem form_poisson (rule : Rule d) (f : Val (.vec d) → ℝ) (space : Space Nat d n) (l : List Nat) (w u : Nat → ℝ) :
    form (functionSpace space l) (poisson rule f space) w u =
      (space.map fun ec => ∑ a, ∑ b, w (ec.2 a) * gradGrad rule ec.1 a b * u (ec.2 b)).sum := by
  unfold form
  have hlen : (functionSpace space l).elements.length = space.length := by simp [functionSpace]
  rw [← List.ofFn_getElem (xs := space.map _), List.sum_ofFn]
  refine Fintype.sum_equiv (finCongr (by rw [hlen, List.length_map])) _ _ fun e => ?_
  rw [elementForm_poisson rule f space l e (by have := e.isLt; omega)]
  simp

theorem spaceOf_map (mk : GCell → Element d n) (cells : List GCell) (g : GCell → List Nat) :
    spaceOf mk cells (cells.map g) = cells.map fun c => (mk c, fun a : Fin n => (g c).getD a 0) := by
  unfold spaceOf
  rw [List.zipWith_map_right, List.zipWith_self]

open Classical in
/-- the id of the node at a vertex -/
noncomputable def nodeAt (cells : List GCell) (v : Id) : Nat :=
  if h : ∃ x : Node, (∃ c ∈ cells, x ∈ c.nodes) ∧ x.vertex = v then h.choose.id else 0

theorem nodeAt_eq {cells : List GCell} (hone : OneNode cells) {c : GCell} (hc : c ∈ cells) {x : Node} (hx : x ∈ c.nodes) :
    nodeAt cells x.vertex = x.id := by
  have h : ∃ y : Node, (∃ c ∈ cells, y ∈ c.nodes) ∧ y.vertex = x.vertex := ⟨x, ⟨c, hc, hx⟩, rfl⟩
  unfold nodeAt
  rw [dif_pos h]
  obtain ⟨⟨c', hc', hy⟩, hv⟩ := h.choose_spec
  rw [hone c' hc' c hc _ hy x hx hv]

/-- the quadratic discretizer succeeds, with the discretization nodes given by a map of the nodes and edges -/
theorem discretize_p2 {alloc : List Nat → Nat} {other : List Nat} (ha : ∀ l, alloc l ∉ l) (ho : other.Nodup) {cells B : List GCell}
    (hB : ∀ b ∈ B, b.nodes.length = 2 ∧ (b.nodes.map (·.vertex)).Nodup ∧ ∃ c ∈ cells, ∀ n ∈ b.nodes, n ∈ c.nodes)
    (hlen : ∀ c ∈ cells, c.nodes.length = 3) :
    ∃ (f : Nat ⊕ Sym2 Nat → Nat) (l : List Nat),
      (elementsP2 alloc other ⟨[], []⟩ (cells.map triple)).2 = cells.map (fun c => (places (triple c)).map f) ∧
      constrainedP2 (elementsP2 alloc other ⟨[], []⟩ (cells.map triple)).1 (B.map pair) = .ok l ∧
      ∀ b ∈ B, ∀ x y, b.nodes = [x, y] → f (.inl x.id) ∈ l ∧ f (.inl y.id) ∈ l ∧ f (.inr s(x.id, y.id)) ∈ l := by
  obtain ⟨f, h1, -, -, -, -⟩ := elementsP2_eq ha ho (cells.map triple)
  have hin : ∀ b ∈ B, ∀ x y, b.nodes = [x, y] → ∃ c ∈ cells, Sum.inl x.id ∈ places (triple c) ∧ Sum.inl y.id ∈ places (triple c) ∧
      Sum.inr s(x.id, y.id) ∈ places (triple c) := by
    intro b hb x y hn
    obtain ⟨-, hnd, c, hc, hsub⟩ := hB b hb
    rw [hn] at hnd hsub
    refine ⟨c, hc, mem_triple (hlen c hc) (hsub x (by simp)), mem_triple (hlen c hc) (hsub y (by simp)),
      mem_triple_edge (hlen c hc) (hsub x (by simp)) (hsub y (by simp)) ?_⟩
    rintro rfl
    simp at hnd
  have hedge : ∀ p ∈ B.map pair, Sum.inr s(p.1, p.2) ∈ (cells.map triple).flatMap places := by
    intro p hp
    obtain ⟨b, hb, rfl⟩ := List.mem_map.mp hp
    obtain ⟨x, y, hn, hpair⟩ := nodes_pair (hB b hb).1
    obtain ⟨c, hc, -, -, h3⟩ := hin b hb x y hn
    rw [hpair]
    exact List.mem_flatMap.mpr ⟨triple c, List.mem_map.mpr ⟨c, hc, rfl⟩, h3⟩
  obtain ⟨l, hl, hmem⟩ := p2_constrained ha ho (cells.map triple) (B.map pair) hedge
  have hconn : (elementsP2 alloc other ⟨[], []⟩ (cells.map triple)).2 = cells.map fun c => (places (triple c)).map f := by
    rw [h1, List.map_map]; rfl
  refine ⟨f, l, hconn, hl, fun b hb x y hn => ?_⟩
  obtain ⟨c, hc, i1, i2, i3⟩ := hin b hb x y hn
  obtain ⟨x', y', hn', hpair⟩ := nodes_pair (hB b hb).1
  obtain ⟨rfl, rfl⟩ : x = x' ∧ y = y' := by
    rw [hn] at hn'
    simpa using hn'
  have key : ∀ q, q ∈ places (triple c) → q ∈ segmentPlaces (x.id, y.id) → f q ∈ l := by
    intro q hq hs
    obtain ⟨j, hj, rfl⟩ := List.mem_iff_getElem.mp hc
    obtain ⟨k, hk, hk'⟩ := List.mem_iff_getElem.mp hq
    refine (hmem j k (triple cells[j]) ((places (triple cells[j])).map f) q _ (by simp [List.getElem?_eq_getElem hj])
      (by rw [List.getElem?_eq_getElem hk, hk']) (by rw [hconn]; simp [List.getElem?_eq_getElem hj])
      (by rw [List.getElem?_map, List.getElem?_eq_getElem hk, hk']; rfl)).mpr ?_
    exact List.mem_flatMap.mpr ⟨pair b, List.mem_map.mpr ⟨b, hb, rfl⟩, hpair ▸ hs⟩
  exact ⟨key _ i1 (by simp [segmentPlaces]), key _ i2 (by simp [segmentPlaces]), key _ i3 (by simp [segmentPlaces])⟩

/-- the flux of the constant field `l` through an edge, times a value that depends on the edge only -/
def weightedFlux (q : Id → Id → ℝ) (l : Fin 2 → ℝ) (p : Id → Val (.vec 2)) : List Id → ℝ
  | [a, b] => q a b * (l 0 * (p b 1 - p a 1) - l 1 * (p b 0 - p a 0))
  | _ => 0

theorem weightedFlux_other (q : Id → Id → ℝ) (l : Fin 2 → ℝ) (p : Id → Val (.vec 2)) {L : List Id} (h : L.length ≠ 2) :
    weightedFlux q l p L = 0 := by
  match L, h with
  | [], _ | [_], _ | _ :: _ :: _ :: _, _ => rfl
  | [_, _], h => simp at h

theorem weightedFlux_alternating {q : Id → Id → ℝ} (hq : ∀ a b, q a b = q b a) (l : Fin 2 → ℝ) (p : Id → Val (.vec 2)) :
    Alternating (weightedFlux q l p) := by
  intro pr x m y s
  by_cases hl : pr.length + m.length + s.length = 0
  · obtain ⟨h1, rfl⟩ : pr.length + m.length = 0 ∧ s = [] := ⟨by omega, List.length_eq_zero_iff.mp (by omega)⟩
    obtain rfl : pr = [] := List.length_eq_zero_iff.mp (by omega)
    obtain rfl : m = [] := List.length_eq_zero_iff.mp (by omega)
    simp only [List.nil_append, weightedFlux, hq y x]
    ring
  · rw [weightedFlux_other, weightedFlux_other, neg_zero] <;> simp only [List.length_append, List.length_cons] <;> omega

/-- the residual of an affine function on a linear triangle is a sum over the edges -/
theorem residual_tri1 (rule : Rule 2) {x : Fin 3 → Val (.vec 2)} (hx : triangleArea x ≠ 0) (c : ℝ) (l : Fin 2 → ℝ) (w : Fin 3 → ℝ) :
    ∑ a, ∑ b, w a * gradGrad rule (triP1 x) a b * affine c l (x b) = (rule.map fun p => p.2).sum *
      ((w 0 + w 1) / 2 * (l 0 * (x 1 1 - x 0 1) - l 1 * (x 1 0 - x 0 0)) +
        (w 1 + w 2) / 2 * (l 0 * (x 2 1 - x 1 1) - l 1 * (x 2 0 - x 1 0)) +
        (w 2 + w 0) / 2 * (l 0 * (x 0 1 - x 2 1) - l 1 * (x 0 0 - x 2 0))) := by
  simp only [gradGrad_tri1 rule x hx, affine, Fin.sum_univ_three, Fin.sum_univ_two]
  have hA : triangleArea x = 1 / 2 * ((x 1 0 - x 0 0) * (x 2 1 - x 0 1) - (x 2 0 - x 0 0) * (x 1 1 - x 0 1)) := by
    unfold triangleArea; ring
  generalize (rule.map fun p => p.2).sum = W
  field_simp
  rw [hA]
  simp [edge]
  ring

/-- the inverse of the jacobian of triangles -/
theorem inverse_tri (x : Fin 3 → Val (.vec 2)) (ξ : Val (.vec 2)) :
    inverse ((triP2 x).jacobian ξ) (0, 0) = (x 1 1 - x 2 1) / (2 * triangleArea x) ∧
    inverse ((triP2 x).jacobian ξ) (0, 1) = - (x 1 0 - x 2 0) / (2 * triangleArea x) ∧
    inverse ((triP2 x).jacobian ξ) (1, 0) = - (x 0 1 - x 2 1) / (2 * triangleArea x) ∧
    inverse ((triP2 x).jacobian ξ) (1, 1) = (x 0 0 - x 2 0) / (2 * triangleArea x) := by
  rw [jacobian_tri2]
  have hd := tri1_detJ x ξ
  unfold Element.detJ at hd
  have hinv : (toMatrix ((triP1 x).jacobian ξ))⁻¹ = (2 * triangleArea x)⁻¹ • (toMatrix ((triP1 x).jacobian ξ)).adjugate := by
    rw [Matrix.inv_def, hd, Ring.inverse_eq_inv']
  obtain ⟨h0, h1, h2⟩ := tri1_dshape ξ 0
  obtain ⟨k0, k1, k2⟩ := tri1_dshape ξ 1
  simp only [inverse, hinv, Matrix.adjugate_fin_two]
  simp only [toMatrix, triP1, Matrix.smul_apply, Matrix.of_apply, dyadic, Pi.add_apply, h0, h1, h2, k0, k1, k2]
  simp
  refine ⟨?_, ?_, ?_, ?_⟩ <;> ring

/-- the residual of an affine function on a quadratic triangle is a sum over the edges, with Simpson's rule -/
theorem residual_tri2 {rule : Rule 2} {W : ℝ} (h0 : (rule.map fun p => p.2).sum = W) (h1 : (rule.map fun p => p.2 * p.1 0).sum = W / 3)
    (h2 : (rule.map fun p => p.2 * p.1 1).sum = W / 3) {x : Fin 3 → Val (.vec 2)} (hx : triangleArea x ≠ 0) (c : ℝ) (l : Fin 2 → ℝ)
    (w : Fin 6 → ℝ) :
    ∑ a, ∑ b, w a * gradGrad rule (triP2 x) a b * affine c l (nodesTri2 x b) = W *
      ((w 0 + 4 * w 3 + w 1) / 6 * (l 0 * (x 1 1 - x 0 1) - l 1 * (x 1 0 - x 0 0)) +
        (w 1 + 4 * w 4 + w 2) / 6 * (l 0 * (x 2 1 - x 1 1) - l 1 * (x 2 0 - x 1 0)) +
        (w 2 + 4 * w 5 + w 0) / 6 * (l 0 * (x 0 1 - x 2 1) - l 1 * (x 0 0 - x 2 0))) := by
  have hA : triangleArea x = 1 / 2 * ((x 1 0 - x 0 0) * (x 2 1 - x 0 1) - (x 2 0 - x 0 0) * (x 1 1 - x 0 1)) := by
    unfold triangleArea; ring
  have hg : ∀ (v : Fin 6 → ℝ) (ξ : Val (.vec 2)) (k : Fin 2), ∑ a, v a * (triP2 x).gradient a ξ k =
      (∑ a, v a * ((triP2 x).dshape a).eval ξ 0) * inverse ((triP2 x).jacobian ξ) (0, k) +
      (∑ a, v a * ((triP2 x).dshape a).eval ξ 1) * inverse ((triP2 x).jacobian ξ) (1, k) := by
    intro v ξ k
    rw [Finset.sum_mul, Finset.sum_mul, ← Finset.sum_add_distrib]
    refine Finset.sum_congr rfl fun a _ => ?_
    simp only [Element.gradient, mul, Fin.sum_univ_two]
    ring
  have hu : ∀ (ξ : Val (.vec 2)) (k : Fin 2), ∑ b, affine c l (nodesTri2 x b) * (triP2 x).gradient b ξ k = l k := by
    intro ξ k
    rw [hg, (tri2_gradient_zero ξ).1, (tri2_gradient_zero ξ).2]
    obtain ⟨i1, i2, i3, i4⟩ := inverse_tri x ξ
    fin_cases k
    · simp only [Fin.zero_eta, Fin.isValue, i1, i3]
      field_simp
      simp [affine, nodesTri2, hA, Fin.sum_univ_two]
      ring
    · simp only [Fin.mk_one, Fin.isValue, i2, i4]
      field_simp
      simp [affine, nodesTri2, hA, Fin.sum_univ_two]
      ring
  have hw : ∀ p ∈ rule, factor (triP2 x) p * ∑ k : Fin 2, (∑ a, w a * (triP2 x).gradient a p.1 k) * l k =
      p.2 * (((-w 0 - 3 * w 2 + 4 * w 5) * (l 0 * (x 1 1 - x 2 1) - l 1 * (x 1 0 - x 2 0)) +
          (-w 1 - 3 * w 2 + 4 * w 4) * (- l 0 * (x 0 1 - x 2 1) + l 1 * (x 0 0 - x 2 0))) / 2) +
      p.2 * p.1 0 * (((4 * w 0 + 4 * w 2 - 8 * w 5) * (l 0 * (x 1 1 - x 2 1) - l 1 * (x 1 0 - x 2 0)) +
          (4 * w 2 + 4 * w 3 - 4 * w 4 - 4 * w 5) * (- l 0 * (x 0 1 - x 2 1) + l 1 * (x 0 0 - x 2 0))) / 2) +
      p.2 * p.1 1 * (((4 * w 2 + 4 * w 3 - 4 * w 4 - 4 * w 5) * (l 0 * (x 1 1 - x 2 1) - l 1 * (x 1 0 - x 2 0)) +
          (4 * w 1 + 4 * w 2 - 8 * w 4) * (- l 0 * (x 0 1 - x 2 1) + l 1 * (x 0 0 - x 2 0))) / 2) := by
    intro p _
    have ha : Geometry.area 2 = 1 / 2 := by simp [Geometry.area]
    obtain ⟨i1, i2, i3, i4⟩ := inverse_tri x p.1
    rw [Fin.sum_univ_two, hg, hg, (tri2_gradient_zero p.1).1, (tri2_gradient_zero p.1).2, i1, i2, i3, i4, factor, tri2_detJ, ha]
    field_simp
    ring
  rw [gradGrad_form]
  simp only [hu]
  rw [List.map_congr_left hw, List.sum_map_add, List.sum_map_add, List.sum_map_mul_right, List.sum_map_mul_right,
    List.sum_map_mul_right, h0, h1, h2]
  ring

end Mito.Fem
