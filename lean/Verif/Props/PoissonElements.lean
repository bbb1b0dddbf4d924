import Verif.Fem.PoissonLemmas
import Verif.Props.Blocks
import Verif.Props.Poisson
import Verif.Quadrature.Tables
import Verif.Spec.PoissonElements

/-!
# C78: the Poisson problem on the elements of mito

The stiffness matrices of segments and linear triangles vanish on constants only; those of quadratic triangles do exactly when the
quadrature points of positive weight are not on one line.  So the system of the Poisson problem is solvable exactly when every node is
joined to a constrained node by a chain of elements.
-/

namespace Mito.Fem

open Mito.Functions Mito.DiscreteSystem Mito.Geometry Mito.Assoc

variable {d n : Nat}

theorem stiff_seg1 {rule : Rule 1} (hw : ∀ p ∈ rule, 0 ≤ p.2) (hp : ∃ p ∈ rule, 0 < p.2) {x : Fin 2 → Val (.vec 1)}
    (hx : 0 < length x) : Stiff rule (segP1 x) :=
  ⟨gradGrad_psd hw fun ξ => by rw [seg1_detJ]; exact hx.le, fun u => gradGrad_definite.1 rule x u hw hp hx,
    gradGrad_constants rule (.seg1 x)⟩

theorem stiff_tri1 {rule : Rule 2} (hw : ∀ p ∈ rule, 0 ≤ p.2) (hp : ∃ p ∈ rule, 0 < p.2) {x : Fin 3 → Val (.vec 2)}
    (hx : 0 < triangleArea x) : Stiff rule (triP1 x) :=
  ⟨gradGrad_psd hw fun ξ => by rw [tri1_detJ]; linarith, fun u => gradGrad_definite.2 rule x u hw hp hx,
    gradGrad_constants rule (.tri1 x)⟩

theorem stiff_tri2 {rule : Rule 2} (hw : ∀ p ∈ rule, 0 ≤ p.2) (hc : ¬ Collinear rule) {x : Fin 3 → Val (.vec 2)}
    (hx : 0 < triangleArea x) : Stiff rule (triP2 x) := by
  have hd : ∀ ξ, 0 < (triP2 x).detJ ξ := fun ξ => by rw [tri2_detJ]; linarith
  refine ⟨gradGrad_psd hw fun ξ => (hd ξ).le, fun u h0 => ?_, gradGrad_constants rule (.tri2 x)⟩
  have hpos : ∃ p ∈ rule, 0 < p.2 := by
    by_contra h
    simp only [not_exists, not_and] at h
    exact hc ⟨1, 0, 0, Or.inl one_ne_zero, fun p hp hp' => absurd hp' (h p hp)⟩
  obtain ⟨p, hp, hp'⟩ := hpos
  have hlin : ∀ α β γ : ℝ, (∀ p ∈ rule, 0 < p.2 → α + β * p.1 0 + γ * p.1 1 = 0) → α = 0 ∧ β = 0 ∧ γ = 0 := by
    intro α β γ h
    have h1 : ¬ (β ≠ 0 ∨ γ ≠ 0) := fun hne => hc ⟨β, γ, -α, hne, fun p hp hp' => by linarith [h p hp hp']⟩
    simp only [not_or, not_not] at h1
    obtain ⟨rfl, rfl⟩ := h1
    have := h p hp hp'
    exact ⟨by linarith, rfl, rfl⟩
  obtain ⟨a1, a2, a3⟩ := hlin _ _ _ fun q hq hq' => by
    have := gradGrad_kernel hw hd u h0 hq hq' 0
    rwa [(tri2_gradient_zero q.1).1] at this
  obtain ⟨b1, b2, b3⟩ := hlin _ _ _ fun q hq hq' => by
    have := gradGrad_kernel hw hd u h0 hq hq' 1
    rwa [(tri2_gradient_zero q.1).2] at this
  have e0 : u 0 = u 5 := by linarith
  have e2 : u 2 = u 5 := by linarith
  have e1 : u 1 = u 5 := by linarith
  have e4 : u 4 = u 5 := by linarith
  have e3 : u 3 = u 5 := by linarith
  have : ∀ a, u a = u 5 := by
    intro a
    fin_cases a <;> simp [e0, e1, e2, e3, e4]
  intro a b
  rw [this a, this b]

/-- **C78.**  Of the rules of mito for triangles, only the one of degree 1 underintegrates quadratic triangles; all weights are
positive. -/
theorem rules_collinear :
    Collinear Quadrature.triangle1.rule ∧ ¬ Collinear Quadrature.triangle2.rule ∧ ¬ Collinear Quadrature.triangle3.rule ∧
      ¬ Collinear Quadrature.triangle4.rule ∧
      ∀ t ∈ [Quadrature.triangle1, Quadrature.triangle2, Quadrature.triangle3, Quadrature.triangle4], ∀ p ∈ t.rule, (0 : ℝ) < p.2 := by
  refine ⟨⟨1, 0, 1 / 3, Or.inl one_ne_zero, ?_⟩, ?_, ?_, ?_, ?_⟩
  · simp [Quadrature.Table.rule, Quadrature.triangle1]; norm_num
  · rintro ⟨a, b, c, hne, h⟩
    simp [Quadrature.Table.rule, Quadrature.triangle2] at h
    norm_num at h
    obtain ⟨h1, h2, h3⟩ := h
    rcases hne with h0 | h0 <;> apply h0 <;> linarith
  · rintro ⟨a, b, c, hne, h⟩
    simp [Quadrature.Table.rule, Quadrature.triangle3] at h
    norm_num at h
    obtain ⟨h1, h2, h3, -⟩ := h
    rcases hne with h0 | h0 <;> apply h0 <;> linarith
  · rintro ⟨a, b, c, hne, h⟩
    simp [Quadrature.Table.rule, Quadrature.triangle4] at h
    norm_num at h
    obtain ⟨h1, h2, h3, -⟩ := h
    rcases hne with h0 | h0 <;> apply h0 <;> linarith
  · have key : ∀ t ∈ [Quadrature.triangle1, Quadrature.triangle2, Quadrature.triangle3, Quadrature.triangle4], ∀ p ∈ t, 0 < p.2 := by
      decide +kernel
    intro t ht p hp
    obtain ⟨q, hq, rfl⟩ := List.mem_map.mp hp
    exact Rat.cast_pos.mpr (key t ht q hq)

/-- **C78.**  If the points are on one line, e.g. for a rule with one or two points, the stiffness matrix of every quadratic triangle
vanishes on the square of the distance from the line: the element is underintegrated. -/
theorem tri2_underintegrated {rule : Rule 2} (hw : ∀ p ∈ rule, 0 ≤ p.2) (hc : Collinear rule) (x : Fin 3 → Val (.vec 2))
    (hx : 0 < triangleArea x) :
    ∃ u : Fin 6 → ℝ, (∑ a, ∑ b, u a * gradGrad rule (triP2 x) a b * u b) = 0 ∧ ∃ a b, u a ≠ u b := by
  obtain ⟨a, b, c, hne, hl⟩ := hc
  let u : Fin 6 → ℝ := ![(a - c) ^ 2, (b - c) ^ 2, c ^ 2, ((a + b) / 2 - c) ^ 2, (b / 2 - c) ^ 2, (a / 2 - c) ^ 2]
  refine ⟨u, ?_, ?_⟩
  · rw [gradGrad_form]
    refine List.sum_eq_zero fun y hy => ?_
    obtain ⟨p, hp, rfl⟩ := List.mem_map.mp hy
    rcases (hw p hp).eq_or_lt with h0 | hpos
    · simp [factor, ← h0]
    · have hz : ∀ k : Fin 2, ∑ a, u a * ((triP2 x).dshape a).eval p.1 k = 0 := by
        have hc' := hl p hp hpos
        intro k
        fin_cases k
        · refine (tri2_gradient_zero p.1).1.trans ?_
          simp [u]
          linear_combination (2 * a) * hc'
        · refine (tri2_gradient_zero p.1).2.trans ?_
          simp [u]
          linear_combination (2 * b) * hc'
      have hg : ∀ k : Fin 2, ∑ a, u a * (triP2 x).gradient a p.1 k = 0 := by
        intro k
        simp only [Element.gradient, mul, Finset.mul_sum]
        rw [Finset.sum_comm]
        refine Finset.sum_eq_zero fun j _ => ?_
        simp only [← mul_assoc]
        rw [← Finset.sum_mul, hz, zero_mul]
      simp [hg]
  · by_contra hall
    simp only [not_exists, not_not] at hall
    have h02 := hall 0 2
    have h52 := hall 5 2
    have h12 := hall 1 2
    have h42 := hall 4 2
    simp [u] at h02 h52 h12 h42
    rcases hne with h | h
    · apply h
      have : a ^ 2 = 0 := by linear_combination 2 * h02 - 4 * h52
      exact pow_eq_zero_iff (two_ne_zero) |>.mp this
    · apply h
      have : b ^ 2 = 0 := by linear_combination 2 * h12 - 4 * h42
      exact pow_eq_zero_iff (two_ne_zero) |>.mp this

theorem elliptic_poisson {rule : Rule d} {f : Val (.vec d) → ℝ} {space : Space Nat d n} {constrained : List Nat}
    (hs : ∀ ec ∈ space, Stiff rule ec.1) : Elliptic (functionSpace space constrained) (poisson rule f space) := by
  have hlen : (functionSpace space constrained).elements.length = space.length := by simp [functionSpace]
  have hl : ∀ (e : Fin (functionSpace space constrained).elements.length) (he : e.val < space.length),
      (functionSpace space constrained).elements[e] = List.ofFn space[e.val].2 := by
    intro e he; exact List.getElem_map ..
  refine ⟨fun e u => ?_, fun e u h0 => ?_, fun e a => ?_⟩
  · have he : e.val < space.length := hlen ▸ e.isLt
    rw [elementForm_poisson rule f space constrained e he]
    exact (hs _ (List.getElem_mem he)).nonneg fun a => u (space[e.val].2 a)
  · have he : e.val < space.length := hlen ▸ e.isLt
    rw [elementForm_poisson rule f space constrained e he] at h0
    have := (hs _ (List.getElem_mem he)).definite (fun a => u (space[e.val].2 a)) h0
    intro y hy z hz
    rw [hl e he, List.mem_ofFn] at hy hz
    obtain ⟨a, rfl⟩ := hy
    obtain ⟨b, rfl⟩ := hz
    exact this a b
  · have he : e.val < space.length := hlen ▸ e.isLt
    have ha : a.val < n := by
      have := a.isLt
      have h2 : (functionSpace space constrained).elements[e].length = n := by rw [hl e he]; simp
      omega
    have key : ∀ a, a < n → rowOf (functionSpace space constrained).elements[e] ((poisson rule f space e).matrix a) = 0 := by
      intro a ha
      rw [hl e he, rowOf_ofFn, ← (hs _ (List.getElem_mem he)).constants ⟨a, ha⟩]
      exact Finset.sum_congr rfl fun b _ => poisson_matrix rule f space e _ (List.getElem?_eq_getElem he) ⟨a, ha⟩ b
    exact key a ha

/-- **C78.**  The system of the Poisson problem is solvable exactly when every node is joined to a constrained one. -/
theorem poisson_wellposed {rule : Rule d} {f : Val (.vec d) → ℝ} {space : Space Nat d n} {constrained : List Nat}
    (hs : ∀ ec ∈ space, Stiff rule ec.1) :
    IsUnit (asMatrix (buildEquationMap (functionSpace space constrained)).2
      (K (functionSpace space constrained) (poisson rule f space))).det ↔ Anchored (functionSpace space constrained) :=
  wellposed_iff (elliptic_poisson hs)

/-- **C78.**  Solving the Poisson problem yields the only solution of the discrete weak form, for every exact solver. -/
theorem poisson_solved {solver : Nat → (Nat → Nat → ℝ) → (Nat → ℝ) → Nat → ℝ} (hx : Exact solver) {rule : Rule d}
    {f : Val (.vec d) → ℝ} {space : Space Nat d n} {constrained : List Nat} (hs : ∀ ec ∈ space, Stiff rule ec.1)
    (hA : Anchored (functionSpace space constrained)) (k : Nat) :
    ∃ S u, solveTimes solver (poisson rule f space) (k + 1) (create (functionSpace space constrained)) = some S ∧
      (∀ ec ∈ space, ∀ a, get S.field (ec.2 a) = some (u (ec.2 a))) ∧
      Galerkin (functionSpace space constrained) (poisson rule f space) u ∧
      ∀ u', Galerkin (functionSpace space constrained) (poisson rule f space) u' → ∀ ec ∈ space, ∀ a, u' (ec.2 a) = u (ec.2 a) := by
  obtain ⟨S, u, h1, h2, h3, h4⟩ := solve_galerkin hx (elliptic_poisson (f := f) (constrained := constrained) hs) hA k
  have hm : ∀ ec ∈ space, ∀ a, ec.2 a ∈ (functionSpace space constrained).elements.flatten := by
    intro ec hec a
    refine List.mem_flatten.mpr ⟨List.ofFn ec.2, ?_, List.mem_ofFn.mpr ⟨a, rfl⟩⟩
    simp only [functionSpace, List.mem_map]
    exact ⟨ec, hec, rfl⟩
  exact ⟨S, u, h1, fun ec hec a => h2 _ (hm ec hec a), h3, fun u' hu' ec hec a => h4 u' hu' _ (hm ec hec a)⟩

/-- the hypotheses hold for two triangles with a common edge, of which one node is constrained -/
example : ∃ space : Space Nat 2 3, (∀ ec ∈ space, Stiff Quadrature.triangle1.rule ec.1) ∧ Anchored (functionSpace space [3]) := by
  refine ⟨[(triP1 ![![0, 0], ![1, 0], ![0, 1]], ![0, 1, 2]), (triP1 ![![1, 0], ![1, 1], ![0, 1]], ![1, 3, 2])], ?_, ?_⟩
  · have hw := rules_collinear.2.2.2.2 _ (List.mem_cons_self ..)
    have hp : ∃ p ∈ (Quadrature.triangle1.rule : Rule 2), (0 : ℝ) < p.2 :=
      ⟨_, List.mem_cons_self .., hw _ (List.mem_cons_self ..)⟩
    intro ec hec
    simp only [List.mem_cons, List.not_mem_nil, or_false] at hec
    rcases hec with rfl | rfl
    · exact stiff_tri1 (fun p hp => (hw p hp).le) hp (by simp [triangleArea])
    · exact stiff_tri1 (fun p hp => (hw p hp).le) hp (by simp [triangleArea])
  · have h13 : ∀ x ∈ [1, 2, 3], Adjacent (functionSpace (d := 2) (n := 3)
        [(triP1 ![![0, 0], ![1, 0], ![0, 1]], ![0, 1, 2]), (triP1 ![![1, 0], ![1, 1], ![0, 1]], ![1, 3, 2])] [3]) x 3 := by
      intro x hx
      refine ⟨[1, 3, 2], by simp [functionSpace, List.ofFn_succ], ?_, by simp⟩
      simp only [List.mem_cons, List.not_mem_nil, or_false] at hx ⊢
      omega
    intro x hx
    refine ⟨3, by simp [functionSpace], ?_⟩
    have hx' : x = 0 ∨ x ∈ [1, 2, 3] := by
      simp [functionSpace, List.ofFn_succ] at hx ⊢
      omega
    rcases hx' with rfl | hx'
    · refine .head (b := 1) ⟨[0, 1, 2], by simp [functionSpace, List.ofFn_succ], by simp, by simp⟩ (.single (h13 1 (by simp)))
    · exact .single (h13 x hx')

end Mito.Fem
