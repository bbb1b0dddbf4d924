import Verif.Props.DiscreteSystem
import Verif.Spec.Poisson
import Mathlib.LinearAlgebra.Matrix.ToLinearEquiv

/-!
# C78: elliptic discrete systems are solvable exactly when they are anchored

Vocabulary in `Verif/Spec/Poisson.lean`.
-/

namespace Mito.DiscreteSystem

open Mito.Assoc

/-- coefficients of the equations as values at the nodes, zero at the constrained ones -/
noncomputable def extend (V : FunctionSpace ℝ) (u : Nat → ℝ) (x : Nat) : ℝ := ((equationOf (buildEquationMap V).1 x).map u).getD 0

theorem extend_admissible (V : FunctionSpace ℝ) (u : Nat → ℝ) : Admissible V (extend V u) := by
  intro x hx
  unfold extend
  rcases he : equationOf (buildEquationMap V).1 x with _ | i
  · rfl
  · exact absurd hx (((equations_number V).1.isSome x).mp (by rw [he]; rfl)).2

/-- **C78.**  The assembled matrix is the matrix of the form. -/
theorem matrix_form (V : FunctionSpace ℝ) (blocks : Nat → Blocks ℝ) (v w : Nat → ℝ) :
    (∑ i : Fin (buildEquationMap V).2, ∑ j : Fin (buildEquationMap V).2, v i * K V blocks i j * w j) =
      form V blocks (extend V v) (extend V w) := assemble_bilinear V blocks v w

/-- **C78.**  The assembled right-hand side is the vector of the load. -/
theorem rhs_load (V : FunctionSpace ℝ) (blocks : Nat → Blocks ℝ) (v : Nat → ℝ) :
    (∑ i : Fin (buildEquationMap V).2, v i * F V blocks i) = load V blocks (extend V v) := by
  have hlt := (equations_number V).1.lt
  have hext : ∀ x : Nat, (∑ i : Fin (buildEquationMap V).2, if equationOf (buildEquationMap V).1 x = some i.val then v i else 0) =
      extend V v x := fun x => sum_equation _ (fun i hi => hlt x i hi) v
  simp only [F, rhsContribution, Finset.mul_sum, load, elementLoad]
  rw [Finset.sum_comm]
  refine Finset.sum_congr rfl fun e _ => ?_
  rw [Finset.sum_comm]
  refine Finset.sum_congr rfl fun a _ => ?_
  rw [← hext, Finset.sum_mul]
  refine Finset.sum_congr rfl fun i _ => ?_
  split <;> simp

open Classical in
/-- values at the nodes that vanish at the constrained nodes, as coefficients of the equations -/
noncomputable def restrict (V : FunctionSpace ℝ) (u : Nat → ℝ) (i : Nat) : ℝ :=
  if h : ∃ x, equationOf (buildEquationMap V).1 x = some i then u h.choose else 0

theorem extend_restrict {V : FunctionSpace ℝ} {u : Nat → ℝ} (hu : Admissible V u) (x : Nat) (hx : x ∈ V.elements.flatten) :
    extend V (restrict V u) x = u x := by
  unfold extend
  rcases he : equationOf (buildEquationMap V).1 x with _ | i
  · by_cases hc : x ∈ V.constrained
    · simp [hu x hc]
    · have := ((equations_number V).1.isSome x).mpr ⟨hx, hc⟩
      rw [he] at this
      simp at this
  · have h : ∃ x, equationOf (buildEquationMap V).1 x = some i := ⟨x, he⟩
    simp only [Option.map_some, Option.getD_some, restrict, dif_pos h]
    rw [(equations_number V).1.inj _ _ i h.choose_spec he]

theorem mem_flatten (V : FunctionSpace ℝ) (e : Fin V.elements.length) (a : Fin V.elements[e].length) :
    V.elements[e][a] ∈ V.elements.flatten :=
  List.mem_flatten.mpr ⟨V.elements[e], List.getElem_mem _, List.getElem_mem _⟩

theorem form_congr {V : FunctionSpace ℝ} {blocks : Nat → Blocks ℝ} {w w' u u' : Nat → ℝ}
    (hw : ∀ x ∈ V.elements.flatten, w x = w' x) (hu : ∀ x ∈ V.elements.flatten, u x = u' x) : form V blocks w u = form V blocks w' u' := by
  unfold form elementForm
  refine Finset.sum_congr rfl fun e _ => Finset.sum_congr rfl fun a _ => Finset.sum_congr rfl fun b _ => ?_
  rw [hw _ (mem_flatten V e a), hu _ (mem_flatten V e b)]

theorem load_congr {V : FunctionSpace ℝ} {blocks : Nat → Blocks ℝ} {w w' : Nat → ℝ}
    (hw : ∀ x ∈ V.elements.flatten, w x = w' x) : load V blocks w = load V blocks w' := by
  unfold load elementLoad
  refine Finset.sum_congr rfl fun e _ => Finset.sum_congr rfl fun a _ => ?_
  rw [hw _ (mem_flatten V e a)]

/-- values without energy that vanish at the constrained nodes are zero, if the space is anchored -/
theorem zero_of_energy {V : FunctionSpace ℝ} {blocks : Nat → Blocks ℝ} (hE : Elliptic V blocks) (hA : Anchored V) {u : Nat → ℝ}
    (hu : Admissible V u) (h0 : form V blocks u u = 0) (x : Nat) (hx : x ∈ V.elements.flatten) : u x = 0 := by
  have h1 := (Finset.sum_eq_zero_iff_of_nonneg fun e _ => hE.nonneg e u).mp h0
  have hadj : ∀ y z, Adjacent V y z → u y = u z := by
    rintro y z ⟨c, hc, hy, hz⟩
    obtain ⟨e, he, rfl⟩ := List.getElem_of_mem hc
    exact hE.definite ⟨e, he⟩ u (h1 ⟨e, he⟩ (Finset.mem_univ _)) y hy z hz
  obtain ⟨y, hy, hxy⟩ := hA x hx
  have : u x = u y := by
    clear hx hy
    induction hxy with
    | refl => rfl
    | tail _ h ih => exact ih.trans (hadj _ _ h)
  rw [this, hu y hy]

/-- **C78.**  The matrix of an anchored elliptic system is positive definite. -/
theorem matrix_definite {V : FunctionSpace ℝ} {blocks : Nat → Blocks ℝ} (hE : Elliptic V blocks) (hA : Anchored V)
    (v : Nat → ℝ) (hv : ∃ i < (buildEquationMap V).2, v i ≠ 0) :
    0 < ∑ i : Fin (buildEquationMap V).2, ∑ j : Fin (buildEquationMap V).2, v i * K V blocks i j * v j := by
  rw [matrix_form]
  refine lt_of_le_of_ne (Finset.sum_nonneg fun e _ => hE.nonneg e _) fun h0 => ?_
  obtain ⟨i, hi, hne⟩ := hv
  obtain ⟨x, hx⟩ := (equations_number V).1.surj i hi
  have := zero_of_energy hE hA (extend_admissible V v) h0.symm x (((equations_number V).1.isSome x).mp (by rw [hx]; rfl)).1
  simp [extend, hx] at this
  exact hne this

theorem matrix_isUnit {V : FunctionSpace ℝ} {blocks : Nat → Blocks ℝ} (hE : Elliptic V blocks) (hA : Anchored V) :
    IsUnit (asMatrix (buildEquationMap V).2 (K V blocks)).det := by
  rw [isUnit_iff_ne_zero]
  intro hdet
  obtain ⟨v, hv0, hv⟩ := Matrix.exists_mulVec_eq_zero_iff.mpr hdet
  obtain ⟨i, hi⟩ := Function.ne_iff.mp hv0
  let v' : Nat → ℝ := fun j => if h : j < (buildEquationMap V).2 then v ⟨j, h⟩ else 0
  have hv' : ∀ j : Fin (buildEquationMap V).2, v' j = v j := fun j => by simp [v']
  have hpos := matrix_definite hE hA v' ⟨i, i.isLt, by rw [hv']; simpa using hi⟩
  have hzero : (∑ i : Fin (buildEquationMap V).2, ∑ j : Fin (buildEquationMap V).2, v' i * K V blocks i j * v' j) = 0 := by
    refine Finset.sum_eq_zero fun i _ => ?_
    have := congrFun hv i
    simp only [Matrix.mulVec, dotProduct, asMatrix, Pi.zero_apply] at this
    simp only [hv', mul_assoc, ← Finset.mul_sum, this, mul_zero]
  exact hpos.ne' hzero

/-- **C78.**  Without a chain of elements from some node to a constrained one, the matrix is singular. -/
theorem matrix_singular {V : FunctionSpace ℝ} {blocks : Nat → Blocks ℝ} (hE : Elliptic V blocks) (hA : ¬ Anchored V) :
    (asMatrix (buildEquationMap V).2 (K V blocks)).det = 0 := by
  classical
  simp only [Anchored, not_forall, not_exists, not_and] at hA
  obtain ⟨x, hx, hno⟩ := hA
  let u : Nat → ℝ := fun y => if Relation.ReflTransGen (Adjacent V) x y then 1 else 0
  have hu : Admissible V u := fun y hy => if_neg (hno y hy)
  have hadj : ∀ y z, Adjacent V y z → u y = u z := by
    rintro y z h
    have hs : Adjacent V z y := by
      obtain ⟨c, hc, h1, h2⟩ := h
      exact ⟨c, hc, h2, h1⟩
    simp only [u]
    exact if_congr ⟨fun k => k.tail h, fun k => k.tail hs⟩ rfl rfl
  have hform : ∀ w, form V blocks w u = 0 := by
    intro w
    refine Finset.sum_eq_zero fun e _ => ?_
    refine Finset.sum_eq_zero fun a _ => ?_
    have hc : ∀ b : Fin V.elements[e].length, u V.elements[e][b] = u V.elements[e][a] := fun b =>
      hadj _ _ ⟨V.elements[e], List.getElem_mem _, List.getElem_mem _, List.getElem_mem _⟩
    simp only [hc, mul_assoc, ← Finset.mul_sum, ← Finset.sum_mul, hE.constants, zero_mul, mul_zero]
  obtain ⟨i, hi⟩ : ∃ i, equationOf (buildEquationMap V).1 x = some i :=
    Option.isSome_iff_exists.mp (((equations_number V).1.isSome x).mpr ⟨hx, fun h => hno x h .refl⟩)
  have hilt := (equations_number V).1.lt x i hi
  have hr : extend V (restrict V u) x = 1 := by
    rw [extend_restrict hu x hx]
    exact if_pos .refl
  refine Matrix.exists_mulVec_eq_zero_iff.mp ⟨fun j => restrict V u j, ?_, ?_⟩
  · intro h0
    have := congrFun h0 ⟨i, hilt⟩
    simp [extend, hi] at hr
    simp [hr] at this
  · funext k
    have h1 := matrix_form V blocks (fun i => if i = k.val then 1 else 0) (restrict V u)
    rw [form_congr (fun _ _ => rfl) (extend_restrict hu), hform] at h1
    rw [Finset.sum_eq_single k] at h1
    · simpa [Matrix.mulVec, dotProduct, asMatrix] using h1
    · intro b _ hb
      have : b.val ≠ k.val := fun h => hb (Fin.ext h)
      simp [this]
    · simp

/-- **C78.**  The system of an elliptic problem is solvable exactly when it is anchored. -/
theorem wellposed_iff {V : FunctionSpace ℝ} {blocks : Nat → Blocks ℝ} (hE : Elliptic V blocks) :
    IsUnit (asMatrix (buildEquationMap V).2 (K V blocks)).det ↔ Anchored V := by
  refine ⟨fun h => ?_, matrix_isUnit hE⟩
  by_contra hA
  rw [matrix_singular hE hA] at h
  exact not_isUnit_zero h

theorem form_add_smul (V : FunctionSpace ℝ) (blocks : Nat → Blocks ℝ) (w u v : Nat → ℝ) (c : ℝ) :
    form V blocks w (fun x => u x + c * v x) = form V blocks w u + c * form V blocks w v := by
  simp only [form, elementForm, Finset.mul_sum, ← Finset.sum_add_distrib]
  refine Finset.sum_congr rfl fun e _ => Finset.sum_congr rfl fun a _ => Finset.sum_congr rfl fun b _ => ?_
  ring

/-- **C78.**  After one or more calls of `solve` of an anchored elliptic problem, with an exact solver, the field is the only solution of
the discrete weak form. -/
theorem solve_galerkin {solver : Nat → (Nat → Nat → ℝ) → (Nat → ℝ) → Nat → ℝ} (hx : Exact solver) {V : FunctionSpace ℝ}
    {blocks : Nat → Blocks ℝ} (hE : Elliptic V blocks) (hA : Anchored V) (k : Nat) :
    ∃ S u, solveTimes solver blocks (k + 1) (create V) = some S ∧ (∀ x ∈ V.elements.flatten, get S.field x = some (u x)) ∧
      Galerkin V blocks u ∧ ∀ u', Galerkin V blocks u' → ∀ x ∈ V.elements.flatten, u' x = u x := by
  have hK := matrix_isUnit hE hA
  obtain ⟨S, h1, _, _, h2, h3⟩ := solveTimes_eq solver V blocks (k + 1)
  let c : Nat → ℝ := solver (buildEquationMap V).2 (K V blocks) (F V blocks)
  have hg : Galerkin V blocks (extend V c) := by
    refine ⟨extend_admissible V c, fun w hw => ?_⟩
    rw [form_congr (fun x h => (extend_restrict hw x h).symm) (fun _ _ => rfl), ← matrix_form,
      load_congr fun x h => (extend_restrict hw x h).symm, ← rhs_load]
    refine Finset.sum_congr rfl fun i _ => ?_
    have := congrFun (hx _ _ (F V blocks) hK) i
    simp only [Matrix.mulVec, dotProduct, asMatrix] at this
    simp only [mul_assoc, ← Finset.mul_sum]
    rw [← this]
  refine ⟨S, extend V c, h1, fun x hx' => ?_, hg, fun u' hu' x hx' => ?_⟩
  · unfold extend
    rcases he : equationOf (buildEquationMap V).1 x with _ | i
    · rw [h2 x he, create_field, if_pos hx']; rfl
    · rw [h3 (by omega) x i he, exact_unique hx _ _ _ hK _ (Nat.cast_ne_zero.mpr (by omega)) i ((equations_number V).1.lt x i he)]
      rfl
  · have hd : Admissible V fun x => u' x + (-1) * extend V c x := fun y hy => by
      simp only [hu'.1 y hy, hg.1 y hy]; ring
    have h0 : form V blocks (fun x => u' x + (-1) * extend V c x) (fun x => u' x + (-1) * extend V c x) = 0 := by
      rw [form_add_smul, hu'.2 _ hd, hg.2 _ hd]; ring
    have := zero_of_energy hE hA hd h0 x hx'
    linarith

/-- **C78.**  The solution minimises the energy among the values that vanish at the constrained nodes, and is the only one to do so. -/
theorem galerkin_minimises {V : FunctionSpace ℝ} {blocks : Nat → Blocks ℝ} (hE : Elliptic V blocks) (hA : Anchored V)
    (hs : ∀ e < V.elements.length, ∀ a b, (blocks e).matrix a b = (blocks e).matrix b a) {u : Nat → ℝ} (hu : Galerkin V blocks u)
    (v : Nat → ℝ) (hv : Admissible V v) (hne : ∃ x ∈ V.elements.flatten, v x ≠ u x) :
    form V blocks u u / 2 - load V blocks u < form V blocks v v / 2 - load V blocks v := by
  have hsym : ∀ w z, form V blocks w z = form V blocks z w := by
    intro w z
    refine Finset.sum_congr rfl fun e _ => ?_
    unfold elementForm
    rw [Finset.sum_comm]
    refine Finset.sum_congr rfl fun a _ => Finset.sum_congr rfl fun b _ => ?_
    rw [hs e e.isLt]; ring
  have hd : Admissible V fun x => v x + (-1) * u x := fun y hy => by simp only [hv y hy, hu.1 y hy]; ring
  have hpos : 0 < form V blocks (fun x => v x + (-1) * u x) (fun x => v x + (-1) * u x) := by
    refine lt_of_le_of_ne (Finset.sum_nonneg fun e _ => hE.nonneg e _) fun h0 => ?_
    obtain ⟨x, hx, hxne⟩ := hne
    have := zero_of_energy hE hA hd h0.symm x hx
    exact hxne (by linarith)
  have e1 := form_add_smul V blocks (fun x => v x + (-1) * u x) v u (-1)
  rw [hu.2 _ hd] at e1
  have e2 := hsym (fun x => v x + (-1) * u x) v
  rw [form_add_smul, hu.2 v hv] at e2
  have e3 : load V blocks (fun x => v x + (-1) * u x) = load V blocks v + (-1) * load V blocks u := by
    simp only [load, elementLoad, Finset.mul_sum, ← Finset.sum_add_distrib]
    refine Finset.sum_congr rfl fun e _ => Finset.sum_congr rfl fun a _ => ?_
    ring
  have e4 := hu.2 u hu.1
  rw [e1, e2, e3] at hpos
  linarith

end Mito.DiscreteSystem
