import Verif.Props.PoissonElements
import Verif.Spec.Stiffness

/-!
# C81: the discrete maximum principle

If the elementary matrices have no positive entries off the diagonal, nonnegative loads give nonnegative solutions.  This holds for
segments, and for linear triangles exactly when no angle is obtuse.
-/

namespace Mito.DiscreteSystem

theorem sum_pairs {n : Nat} {M : Fin n → Fin n → ℝ} (hsym : ∀ a b, M a b = M b a) (hrow : ∀ a, ∑ b, M a b = 0) (w u : Fin n → ℝ) :
    ∑ a, ∑ b, w a * M a b * u b = - (1 / 2) * ∑ a, ∑ b, M a b * ((w a - w b) * (u a - u b)) := by
  have h1 : ∑ a, ∑ b, w a * M a b * u a = 0 := by
    refine Finset.sum_eq_zero fun a _ => ?_
    rw [← Finset.sum_mul, ← Finset.mul_sum, hrow, mul_zero, zero_mul]
  have h2 : ∑ a, ∑ b, w b * M a b * u b = 0 := by
    rw [Finset.sum_comm, ← h1]
    exact Finset.sum_congr rfl fun a _ => Finset.sum_congr rfl fun b _ => by rw [hsym]
  have h3 : ∑ a, ∑ b, w b * M a b * u a = ∑ a, ∑ b, w a * M a b * u b := by
    rw [Finset.sum_comm]
    exact Finset.sum_congr rfl fun a _ => Finset.sum_congr rfl fun b _ => by rw [hsym]
  have h4 : ∑ a, ∑ b, M a b * ((w a - w b) * (u a - u b)) =
      ∑ a, ∑ b, w a * M a b * u a - ∑ a, ∑ b, w a * M a b * u b - ∑ a, ∑ b, w b * M a b * u a + ∑ a, ∑ b, w b * M a b * u b := by
    simp only [← Finset.sum_sub_distrib, ← Finset.sum_add_distrib]
    exact Finset.sum_congr rfl fun a _ => Finset.sum_congr rfl fun b _ => by ring
  rw [h4, h1, h2, h3]
  ring

theorem negative_parts (p q : ℝ) : (max (-p) 0 - max (-q) 0) * (p - q + (max (-p) 0 - max (-q) 0)) ≤ 0 := by
  rcases le_total 0 p with hp | hp <;> rcases le_total 0 q with hq | hq
  · simp [hp, hq]
  · rw [max_eq_right (by linarith), max_eq_left (by linarith)]
    nlinarith
  · rw [max_eq_left (by linarith), max_eq_right (by linarith)]
    nlinarith
  · rw [max_eq_left (by linarith), max_eq_left (by linarith)]
    nlinarith

/-- **C81.**  The discrete maximum principle. -/
theorem nonneg_solution {V : FunctionSpace ℝ} {blocks : Nat → Blocks ℝ} (hE : Elliptic V blocks) (hA : Anchored V)
    (hS : Symmetric V blocks) (hO : OffDiagonal V blocks) (hf : Pushing V blocks) {u : Nat → ℝ} (hu : Galerkin V blocks u) :
    ∀ x ∈ V.elements.flatten, 0 ≤ u x := by
  let w : Nat → ℝ := fun x => max (- u x) 0
  have hw : Admissible V w := fun x hx => by simp [w, hu.1 x hx]
  have hle : ∀ e, elementForm V blocks e w u + elementForm V blocks e w w ≤ 0 := by
    intro e
    unfold elementForm
    rw [sum_pairs (M := fun a b => (blocks e).matrix a b) (hS e) (hE.constants e) (fun a => w V.elements[e][a])
        (fun a => u V.elements[e][a]),
      sum_pairs (M := fun a b => (blocks e).matrix a b) (hS e) (hE.constants e) (fun a => w V.elements[e][a])
        (fun a => w V.elements[e][a]), ← mul_add, ← Finset.sum_add_distrib]
    simp only [← Finset.sum_add_distrib]
    refine mul_nonpos_of_nonpos_of_nonneg (by norm_num) (Finset.sum_nonneg fun a _ => Finset.sum_nonneg fun b _ => ?_)
    by_cases hab : a = b
    · subst hab; simp
    · rw [← mul_add, ← mul_add]
      exact mul_nonneg_of_nonpos_of_nonpos (hO e a b hab) (negative_parts _ _)
  have h1 : form V blocks w u + form V blocks w w ≤ 0 := by
    unfold form
    rw [← Finset.sum_add_distrib]
    exact Finset.sum_nonpos fun e _ => hle e
  have h2 : 0 ≤ load V blocks w :=
    Finset.sum_nonneg fun e _ => Finset.sum_nonneg fun a _ => mul_nonneg (le_max_right _ _) (hf e a)
  have h3 : 0 ≤ form V blocks w w := Finset.sum_nonneg fun e _ => hE.nonneg e w
  have h4 : form V blocks w w = 0 := by
    have := hu.2 w hw
    linarith
  intro x hx
  have := zero_of_energy hE hA hw h4 x hx
  have h5 : - u x ≤ w x := le_max_left _ _
  linarith

end Mito.DiscreteSystem

namespace Mito.Fem

open Mito.Functions Mito.DiscreteSystem Mito.Assoc Mito.Geometry

variable {d n : Nat}

/-- the gradients of the shape functions of linear triangles: opposite edges, turned and divided by twice the area -/
theorem gradient_tri1 (x : Fin 3 → Val (.vec 2)) (ξ : Val (.vec 2)) (a : Fin 3) :
    (triP1 x).gradient a ξ 0 = - edge x a 1 / (2 * triangleArea x) ∧ (triP1 x).gradient a ξ 1 = edge x a 0 / (2 * triangleArea x) := by
  have hd := tri1_detJ x ξ
  unfold Element.detJ at hd
  have hinv : (toMatrix ((triP1 x).jacobian ξ))⁻¹ = (2 * triangleArea x)⁻¹ • (toMatrix ((triP1 x).jacobian ξ)).adjugate := by
    rw [Matrix.inv_def, hd, Ring.inverse_eq_inv']
  obtain ⟨h0, h1, h2⟩ := tri1_dshape ξ 0
  obtain ⟨k0, k1, k2⟩ := tri1_dshape ξ 1
  simp only [Element.gradient, mul, inverse, hinv, Matrix.adjugate_fin_two, Fin.sum_univ_two]
  simp only [toMatrix, triP1, Element.dshape, Matrix.smul_apply, Matrix.of_apply, dyadic, Pi.add_apply, h0, h1, h2, k0, k1, k2]
  fin_cases a <;> simp [edge, h0, h1, h2, k0, k1, k2] <;> constructor <;> ring

/-- **C81.**  The stiffness matrix of linear triangles, for every rule: products of opposite edges. -/
theorem gradGrad_tri1 (rule : Rule 2) (x : Fin 3 → Val (.vec 2)) (hx : triangleArea x ≠ 0) (a b : Fin 3) :
    gradGrad rule (triP1 x) a b =
      (rule.map fun p => p.2).sum * ((∑ k : Fin 2, edge x a k * edge x b k) / (4 * triangleArea x)) := by
  rw [gradGrad_sum]
  simp only [factor, tri1_detJ, Fin.sum_univ_two, (gradient_tri1 x _ _).1, (gradient_tri1 x _ _).2]
  rw [← List.sum_map_mul_right]
  refine congrArg List.sum (List.map_congr_left fun p _ => ?_)
  have : area 2 = 1 / 2 := by simp [area, Nat.factorial]
  rw [this]
  field_simp
  ring

/-- **C81.**  Entries off the diagonal are not positive iff no angle is obtuse. -/
theorem offDiagonal_tri1 {rule : Rule 2} (hw : 0 < (rule.map fun p => p.2).sum) {x : Fin 3 → Val (.vec 2)} (hx : 0 < triangleArea x) :
    (∀ a b, a ≠ b → gradGrad rule (triP1 x) a b ≤ 0) ↔ NonObtuse x := by
  have key : ∀ a b, gradGrad rule (triP1 x) a b ≤ 0 ↔ ∑ k : Fin 2, edge x a k * edge x b k ≤ 0 := by
    intro a b
    rw [gradGrad_tri1 rule x hx.ne']
    have hA : 0 < 4 * triangleArea x := by linarith
    constructor
    · intro h
      by_contra h'
      exact absurd h (not_le.mpr (mul_pos hw (div_pos (not_le.mp h') hA)))
    · exact fun h => mul_nonpos_of_nonneg_of_nonpos hw.le (div_nonpos_of_nonpos_of_nonneg h hA.le)
  simp only [key, NonObtuse, edge, Fin.sum_univ_two, Pi.sub_apply]
  constructor
  · intro h c
    fin_cases c
    · have := h 1 2 (by decide)
      simp at this ⊢
      linarith
    · have := h 2 0 (by decide)
      simp at this ⊢
      linarith
    · have := h 0 1 (by decide)
      simp at this ⊢
      linarith
  · intro h a b hab
    have h0 := h 0
    have h1 := h 1
    have h2 := h 2
    simp at h0 h1 h2
    fin_cases a <;> fin_cases b <;> first | exact absurd rfl hab | (simp; linarith)

theorem offDiagonal_seg1 {rule : Rule 1} (hw : ∀ p ∈ rule, 0 ≤ p.2) {x : Fin 2 → Val (.vec 1)} (hx : 0 < length x) (a b : Fin 2)
    (hab : a ≠ b) : gradGrad rule (segP1 x) a b ≤ 0 := by
  rw [gradGrad_seg1 rule x hx.ne', if_neg hab]
  refine mul_nonpos_of_nonneg_of_nonpos (List.sum_nonneg fun y hy => ?_) (div_nonpos_of_nonpos_of_nonneg (by norm_num) hx.le)
  obtain ⟨p, hp, rfl⟩ := List.mem_map.mp hy
  exact hw p hp

/-- the loads of a nonnegative source are not negative if the points are in the reference element -/
theorem load_tri1 {rule : Rule 2} (hw : ∀ p ∈ rule, 0 ≤ p.2 ∧ 0 ≤ p.1 0 ∧ 0 ≤ p.1 1 ∧ p.1 0 + p.1 1 ≤ 1) {f : Val (.vec 2) → ℝ}
    (hf : ∀ y, 0 ≤ f y) {x : Fin 3 → Val (.vec 2)} (hx : 0 < triangleArea x) (a : Fin 3) : 0 ≤ sourceTerm f rule (triP1 x) a := by
  rw [sourceTerm_sum]
  refine list_sum_nonneg _ _ fun p hp => ?_
  obtain ⟨h1, h2, h3, h4⟩ := hw p hp
  refine mul_nonneg (mul_nonneg (factor_nonneg h1 fun ξ => by rw [tri1_detJ]; linarith) (hf _)) ?_
  obtain ⟨k0, k1, k2⟩ := tri1_eval p.1
  fin_cases a
  · exact k0 ▸ h2
  · exact k1 ▸ h3
  · exact k2 ▸ (by linarith)

@[inherit_doc load_tri1]
theorem load_seg1 {rule : Rule 1} (hw : ∀ p ∈ rule, 0 ≤ p.2 ∧ 0 ≤ p.1 0 ∧ p.1 0 ≤ 1) {f : Val (.vec 1) → ℝ}
    (hf : ∀ y, 0 ≤ f y) {x : Fin 2 → Val (.vec 1)} (hx : 0 < length x) (a : Fin 2) : 0 ≤ sourceTerm f rule (segP1 x) a := by
  rw [sourceTerm_sum]
  refine list_sum_nonneg _ _ fun p hp => ?_
  obtain ⟨h1, h2, h3⟩ := hw p hp
  refine mul_nonneg (mul_nonneg (factor_nonneg h1 fun ξ => by rw [seg1_detJ]; exact hx.le) (hf _)) ?_
  obtain ⟨k0, k1⟩ := seg1_eval p.1
  fin_cases a
  · exact k0 ▸ (by linarith)
  · exact k1 ▸ h2

/-- **C81.**  The computed solution of the Poisson problem is not negative at any node, if the loads and the entries off the diagonal
have the right signs. -/
theorem poisson_nonneg {solver : Nat → (Nat → Nat → ℝ) → (Nat → ℝ) → Nat → ℝ} (hx : Exact solver) {rule : Rule d}
    {f : Val (.vec d) → ℝ} {space : Space Nat d n} {constrained : List Nat} (hs : ∀ ec ∈ space, Stiff rule ec.1)
    (hA : Anchored (functionSpace space constrained)) (hO : ∀ ec ∈ space, ∀ a b, a ≠ b → gradGrad rule ec.1 a b ≤ 0)
    (hf : ∀ ec ∈ space, ∀ a, 0 ≤ sourceTerm f rule ec.1 a) (k : Nat) :
    ∃ S, solveTimes solver (poisson rule f space) (k + 1) (create (functionSpace space constrained)) = some S ∧
      ∀ ec ∈ space, ∀ a, ∃ v, get S.field (ec.2 a) = some v ∧ 0 ≤ v := by
  obtain ⟨S, u, h1, h2, h3, -⟩ := poisson_solved (f := f) hx hs hA k
  refine ⟨S, h1, fun ec hec a => ⟨_, h2 ec hec a, ?_⟩⟩
  have hlen : (functionSpace space constrained).elements.length = space.length := by simp [functionSpace]
  have hl : ∀ (e : Fin (functionSpace space constrained).elements.length),
      (functionSpace space constrained).elements[e].length = n := by
    intro e
    have : (functionSpace space constrained).elements[e] = List.ofFn (space[e.val]'(hlen ▸ e.isLt)).2 := List.getElem_map ..
    rw [this, List.length_ofFn]
  refine nonneg_solution (elliptic_poisson hs) hA ?_ ?_ ?_ h3 _
    (List.mem_flatten.mpr ⟨List.ofFn ec.2, List.mem_map.mpr ⟨ec, hec, rfl⟩, List.mem_ofFn.mpr ⟨a, rfl⟩⟩)
  · intro e a b
    have he := List.getElem?_eq_getElem (l := space) (i := e.val) (hlen ▸ e.isLt)
    have h1 := poisson_matrix rule f space e _ he ⟨a, a.isLt.trans_eq (hl e)⟩
      ⟨b, b.isLt.trans_eq (hl e)⟩
    have h2 := poisson_matrix rule f space e _ he ⟨b, b.isLt.trans_eq (hl e)⟩
      ⟨a, a.isLt.trans_eq (hl e)⟩
    exact h1.trans ((gradGrad_symmetric ..).trans h2.symm)
  · intro e a b hab
    have he := List.getElem?_eq_getElem (l := space) (i := e.val) (hlen ▸ e.isLt)
    have h1 := poisson_matrix rule f space e _ he ⟨a, a.isLt.trans_eq (hl e)⟩
      ⟨b, b.isLt.trans_eq (hl e)⟩
    refine h1.trans_le (hO _ (List.getElem_mem _) _ _ fun h => hab (Fin.ext ?_))
    simpa using h
  · intro e a
    have he := List.getElem?_eq_getElem (l := space) (i := e.val) (hlen ▸ e.isLt)
    have h1 := poisson_vector rule f space e _ he ⟨a, a.isLt.trans_eq (hl e)⟩
    exact (hf _ (List.getElem_mem _) _).trans_eq h1.symm

/-- a right triangle is not obtuse -/
example : NonObtuse ![![0, 0], ![1, 0], ![0, 1]] := by
  intro a
  fin_cases a <;> simp [Fin.sum_univ_two]

/-- an obtuse one has a positive entry off the diagonal -/
example : ¬ NonObtuse ![![0, 0], ![1, 0], ![-1, 1]] := by
  intro h
  have := h 0
  simp [Fin.sum_univ_two] at this
  norm_num at this

/-- the theorem applies: one right triangle, constrained at one node, and the unit load -/
example {solver : Nat → (Nat → Nat → ℝ) → (Nat → ℝ) → Nat → ℝ} (hx : Exact solver) (k : Nat) :
    ∃ S, solveTimes solver (poisson [(![1 / 3, 1 / 3], 1)] (fun _ => 1) [(triP1 ![![0, 0], ![1, 0], ![0, 1]], ![5, 7, 9])]) (k + 1)
        (create (functionSpace [(triP1 ![![0, 0], ![1, 0], ![0, 1]], ![5, 7, 9])] [7])) = some S ∧
      ∀ a : Fin 3, ∃ v, get S.field ((![5, 7, 9] : Fin 3 → Nat) a) = some v ∧ 0 ≤ v := by
  have hA : 0 < triangleArea ![![0, 0], ![1, 0], ![0, 1]] := by simp [triangleArea]
  obtain ⟨S, h1, h2⟩ := poisson_nonneg (constrained := [7]) (f := fun _ => 1) (rule := [(![1 / 3, 1 / 3], 1)])
    (space := [(triP1 ![![0, 0], ![1, 0], ![0, 1]], ![5, 7, 9])]) hx
    (by
      intro ec hec
      obtain rfl := List.mem_singleton.mp hec
      exact stiff_tri1 (by simp) ⟨_, List.mem_singleton.mpr rfl, one_pos⟩ hA)
    (by
      intro x hx
      refine ⟨7, List.mem_singleton.mpr rfl, .single ⟨[5, 7, 9], ?_, ?_, by decide⟩⟩
      · simp [functionSpace]
      · simpa [functionSpace] using hx)
    (by
      intro ec hec
      obtain rfl := List.mem_singleton.mp hec
      refine (offDiagonal_tri1 (by simp) hA).mpr ?_
      intro a
      fin_cases a <;> simp [Fin.sum_univ_two])
    (by
      intro ec hec
      obtain rfl := List.mem_singleton.mp hec
      exact load_tri1 (by simp; norm_num) (fun _ => zero_le_one) hA) k
  exact ⟨S, h1, fun a => h2 _ (List.mem_singleton.mpr rfl) a⟩

end Mito.Fem
