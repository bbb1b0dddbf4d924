import Verif.Fem.PoissonLemmas
import Verif.Props.Blocks
import Verif.Props.Poisson
import Verif.Spec.Weakforms
import Mathlib.LinearAlgebra.FiniteDimensional.Lemmas

/-! # Lemmas on weak forms -/

namespace Mito.DiscreteSystem

open Mito.Assoc

/-- the matrix is singular exactly if the form vanishes for some nonzero function and all test functions -/
theorem det_eq_zero_iff (V : FunctionSpace ℝ) (blocks : Nat → Blocks ℝ) :
    (asMatrix (buildEquationMap V).2 (K V blocks)).det = 0 ↔
      ∃ u, Admissible V u ∧ (∃ x ∈ V.elements.flatten, u x ≠ 0) ∧ ∀ w, Admissible V w → form V blocks w u = 0 := by
  rw [← Matrix.exists_mulVec_eq_zero_iff]
  constructor
  · rintro ⟨v, hv0, hv⟩
    let v' : Nat → ℝ := fun j => if h : j < (buildEquationMap V).2 then v ⟨j, h⟩ else 0
    have hv' : ∀ j : Fin (buildEquationMap V).2, v' j = v j := fun j => by simp [v']
    refine ⟨extend V v', extend_admissible V v', ?_, fun w hw => ?_⟩
    · obtain ⟨i, hi⟩ := Function.ne_iff.mp hv0
      obtain ⟨x, hx⟩ := (equations_number V).1.surj i i.isLt
      refine ⟨x, (((equations_number V).1.isSome x).mp (by rw [hx]; rfl)).1, ?_⟩
      simpa [extend, hx, hv'] using hi
    · rw [form_congr (fun x h => (extend_restrict hw x h).symm) (fun _ _ => rfl), ← matrix_form]
      refine Finset.sum_eq_zero fun i _ => ?_
      have := congrFun hv i
      simp only [Matrix.mulVec, dotProduct, asMatrix, Pi.zero_apply] at this
      simp only [hv', mul_assoc, ← Finset.mul_sum, this, mul_zero]
  · rintro ⟨u, hu, ⟨x, hx, hne⟩, hform⟩
    refine ⟨fun j => restrict V u j, fun h0 => ?_, ?_⟩
    · have h1 := extend_restrict hu x hx
      rcases he : equationOf (buildEquationMap V).1 x with _ | i
      · simp [extend, he] at h1
        exact hne h1.symm
      · simp [extend, he] at h1
        have := congrFun h0 ⟨i, (equations_number V).1.lt x i he⟩
        exact hne (h1.symm.trans this)
    · funext k
      have h1 := matrix_form V blocks (fun i => if i = k.val then 1 else 0) (restrict V u)
      rw [form_congr (fun _ _ => rfl) (extend_restrict hu), hform _ (extend_admissible V _)] at h1
      rw [Finset.sum_eq_single k] at h1
      · simpa [Matrix.mulVec, dotProduct, asMatrix] using h1
      · intro b _ hb
        have : b.val ≠ k.val := fun h => hb (Fin.ext h)
        simp [this]
      · simp

/-- solving a regular system yields the only solution of the discrete weak form -/
theorem galerkin_of_isUnit {solver : Nat → (Nat → Nat → ℝ) → (Nat → ℝ) → Nat → ℝ} (hx : Exact solver) {V : FunctionSpace ℝ}
    {blocks : Nat → Blocks ℝ} (hK : IsUnit (asMatrix (buildEquationMap V).2 (K V blocks)).det) (k : Nat) :
    ∃ S u, solveTimes solver blocks (k + 1) (create V) = some S ∧ (∀ x ∈ V.elements.flatten, get S.field x = some (u x)) ∧
      Galerkin V blocks u ∧ ∀ u', Galerkin V blocks u' → ∀ x ∈ V.elements.flatten, u' x = u x := by
  obtain ⟨S, h1, _, _, h2, h3⟩ := solveTimes_eq solver V blocks (k + 1)
  let c : Nat → ℝ := solver (buildEquationMap V).2 (K V blocks) (F V blocks)
  have hg : Galerkin V blocks (extend V c) := by
    refine ⟨extend_admissible V c, fun w hw => ?_⟩
    rw [form_congr (fun x h => (extend_restrict hw x h).symm) (fun _ _ => rfl), ← matrix_form,
      load_congr fun x h => (extend_restrict hw x h).symm, ← rhs_load]
    refine Finset.sum_congr rfl fun i _ => ?_
    have := congrFun (hx _ _ (F V blocks) hK) i
    simp only [Matrix.mulVec, dotProduct, asMatrix] at this
    simp only [mul_assoc, ← Finset.mul_sum]
    rw [← this]
  refine ⟨S, extend V c, h1, fun x hx' => ?_, hg, fun u' hu' x hx' => ?_⟩
  · unfold extend
    rcases he : equationOf (buildEquationMap V).1 x with _ | i
    · rw [h2 x he, create_field, if_pos hx']; rfl
    · rw [h3 (by omega) x i he, exact_unique hx _ _ _ hK _ (Nat.cast_ne_zero.mpr (by omega)) i ((equations_number V).1.lt x i he)]
      rfl
  · by_contra hne
    refine (isUnit_iff_ne_zero.mp hK) ((det_eq_zero_iff V blocks).mpr
      ⟨fun y => u' y + (-1) * extend V c y, fun y hy => ?_, ⟨x, hx', fun h => hne (by linarith)⟩, fun w hw => ?_⟩)
    · simp only [hu'.1 y hy, hg.1 y hy]; ring
    · rw [form_add_smul, hu'.2 _ hw, hg.2 _ hw]; ring

end Mito.DiscreteSystem

namespace Mito.Fem

open Mito.Functions Mito.DiscreteSystem Mito.Geometry

variable {d n : Nat}

theorem foldl_matrix (lhs : List (Nat → Nat → Nat → ℝ)) (e i j : Nat) :
    lhs.foldl (fun m b => fun i j => m i j + b e i j) (fun _ _ => 0) i j = (lhs.map fun b => b e i j).sum := by
  have key : ∀ (l : List (Nat → Nat → Nat → ℝ)) (m : Nat → Nat → ℝ),
      l.foldl (fun m b => fun i j => m i j + b e i j) m i j = m i j + (l.map fun b => b e i j).sum := by
    intro l
    induction l with
    | nil => simp
    | cons b l ih => intro m; rw [List.foldl_cons, ih]; simp [add_assoc]
  rw [key, zero_add]

theorem foldl_vector (rhs : List (Nat → Nat → ℝ)) (e i : Nat) :
    rhs.foldl (fun v b => fun i => v i + b e i) (fun _ => 0) i = (rhs.map fun b => b e i).sum := by
  have key : ∀ (l : List (Nat → Nat → ℝ)) (m : Nat → ℝ),
      l.foldl (fun v b => fun i => v i + b e i) m i = m i + (l.map fun b => b e i).sum := by
    intro l
    induction l with
    | nil => simp
    | cons b l ih => intro m; rw [List.foldl_cons, ih]; simp [add_assoc]
  rw [key, zero_add]

variable (lhs : List (LhsBlock d)) (rhs : List (RhsBlock d)) (space : Space Nat d n) (constrained : List Nat)

theorem weakform_matrix (e : Nat) (ec : Element d n × (Fin n → Nat)) (he : space[e]? = some ec) (a b : Fin n) :
    (weakform lhs rhs space e).matrix a b = (lhs.map fun t => t.compute ec.1 a b).sum := by
  simp only [weakform, computeBlocks, foldl_matrix, List.map_map]
  congr 2
  funext t
  simp [matrixBlock, he]

theorem weakform_vector (e : Nat) (ec : Element d n × (Fin n → Nat)) (he : space[e]? = some ec) (a : Fin n) :
    (weakform lhs rhs space e).vector a = (rhs.map fun t => t.compute ec.1 a).sum := by
  simp only [weakform, computeBlocks, foldl_vector, List.map_map]
  congr 2
  funext t
  simp [vectorBlock, he]

/-- the product of what a block sees of two functions at a point -/
noncomputable def LhsBlock.density (e : Element d n) (w u : Fin n → ℝ) (ξ : Val (.vec d)) : LhsBlock d → ℝ
  | .gradGrad _ => ∑ k : Fin d, (∑ a, w a * e.gradient a ξ k) * ∑ b, u b * e.gradient b ξ k
  | .mass _ => (∑ a, w a * (e.shape a).eval ξ ()) * ∑ b, u b * (e.shape b).eval ξ ()

theorem LhsBlock.form (b : LhsBlock d) (e : Element d n) (w u : Fin n → ℝ) :
    ∑ i, ∑ j, w i * b.compute e i j * u j = (b.rule.map fun p => factor e p * b.density e w u p.1).sum := by
  cases b with
  | gradGrad rule => exact gradGrad_form rule e w u
  | mass rule => exact mass_form rule e w u

theorem RhsBlock.load (b : RhsBlock d) (e : Element d n) (w : Fin n → ℝ) :
    ∑ i, w i * b.compute e i = (b.rule.map fun p => factor e p * (b.f.eval (e.parametrization.eval p.1) () *
      ∑ a, w a * (e.shape a).eval p.1 ())).sum := by
  simp only [RhsBlock.compute, sourceTerm_sum, ← List.sum_map_mul_left, sum_list_comm]
  congr 2
  funext p
  simp only [Finset.mul_sum]
  exact Finset.sum_congr rfl fun a _ => by ring

theorem LhsBlock.density_nonneg (b : LhsBlock d) (e : Element d n) (u : Fin n → ℝ) (ξ : Val (.vec d)) : 0 ≤ b.density e u u ξ := by
  cases b with
  | gradGrad rule => exact Finset.sum_nonneg fun k _ => mul_self_nonneg _
  | mass rule => exact mul_self_nonneg _

theorem LhsBlock.blind_iff (b : LhsBlock d) (e : Element d n) (u : Fin n → ℝ) (ξ : Val (.vec d)) :
    b.Blind e u ξ ↔ b.density e u u ξ = 0 := by
  cases b with
  | gradGrad rule =>
    simp only [LhsBlock.Blind, LhsBlock.density]
    rw [Finset.sum_eq_zero_iff_of_nonneg fun k _ => mul_self_nonneg _]
    simp
  | mass rule => simp [LhsBlock.Blind, LhsBlock.density]

theorem LhsBlock.blind_density {b : LhsBlock d} {e : Element d n} {u : Fin n → ℝ} {ξ : Val (.vec d)} (h : b.Blind e u ξ)
    (w : Fin n → ℝ) : b.density e w u ξ = 0 := by
  cases b with
  | gradGrad rule =>
    simp only [LhsBlock.Blind] at h
    simp [LhsBlock.density, h]
  | mass rule =>
    simp only [LhsBlock.Blind] at h
    simp [LhsBlock.density, h]

theorem sum_fin_list {α : Type} {m : Nat} (l : List α) (hl : m = l.length) (g : α → ℝ) (f : Fin m → ℝ)
    (h : ∀ (e : Fin m) (he : e.val < l.length), f e = g l[e.val]) : ∑ e, f e = (l.map g).sum := by
  subst hl
  rw [← List.sum_ofFn]
  congr 1
  refine List.ext_getElem (by simp) fun i h1 h2 => ?_
  simp only [List.getElem_ofFn, List.getElem_map]
  exact h _ _

/-- the form of a weak form, as a sum over elements, blocks and quadrature points -/
theorem form_weakform (w u : Nat → ℝ) : form (functionSpace space constrained) (weakform lhs rhs space) w u =
    (space.map fun ec => (lhs.map fun b => (b.rule.map fun p =>
      factor ec.1 p * b.density ec.1 (fun a => w (ec.2 a)) (fun a => u (ec.2 a)) p.1).sum).sum).sum := by
  refine sum_fin_list (m := (functionSpace space constrained).elements.length) space (by simp [functionSpace]) (fun ec => (lhs.map fun b => (b.rule.map fun p =>
      factor ec.1 p * b.density ec.1 (fun a => w (ec.2 a)) (fun a => u (ec.2 a)) p.1).sum).sum) _ fun e he => ?_
  have hl : (functionSpace space constrained).elements[e] = List.ofFn space[e.val].2 := List.getElem_map ..
  have h1 : elementForm (functionSpace space constrained) (weakform lhs rhs space) e w u =
      formOf (functionSpace space constrained).elements[e] (weakform lhs rhs space e).matrix w u := rfl
  rw [h1, hl, formOf_ofFn]
  have h2 : ∀ a b : Fin n, w (space[e.val].2 a) * (weakform lhs rhs space e).matrix a b * u (space[e.val].2 b) =
      (lhs.map fun t => w (space[e.val].2 a) * t.compute space[e.val].1 a b * u (space[e.val].2 b)).sum := by
    intro a b
    rw [weakform_matrix lhs rhs space e _ (List.getElem?_eq_getElem he), ← List.sum_map_mul_left, ← List.sum_map_mul_right]
  simp only [h2, sum_list_comm]
  congr 2
  funext t
  exact t.form _ _ _

/-- the load of a weak form -/
theorem load_weakform (w : Nat → ℝ) : load (functionSpace space constrained) (weakform lhs rhs space) w =
    (space.map fun ec => (rhs.map fun b => (b.rule.map fun p => factor ec.1 p * (b.f.eval (ec.1.parametrization.eval p.1) () *
      ∑ a, w (ec.2 a) * (ec.1.shape a).eval p.1 ())).sum).sum).sum := by
  refine sum_fin_list (m := (functionSpace space constrained).elements.length) space (by simp [functionSpace]) (fun ec => (rhs.map fun b => (b.rule.map fun p =>
    factor ec.1 p * (b.f.eval (ec.1.parametrization.eval p.1) () *
      ∑ a, w (ec.2 a) * (ec.1.shape a).eval p.1 ())).sum).sum) _ fun e he => ?_
  have hl : (functionSpace space constrained).elements[e] = List.ofFn space[e.val].2 := List.getElem_map ..
  have h1 : elementLoad (functionSpace space constrained) (weakform lhs rhs space) e w =
      loadOf (functionSpace space constrained).elements[e] (weakform lhs rhs space e).vector w := rfl
  rw [h1, hl, loadOf_ofFn]
  have h2 : ∀ a : Fin n, w (space[e.val].2 a) * (weakform lhs rhs space e).vector a =
      (rhs.map fun t => w (space[e.val].2 a) * t.compute space[e.val].1 a).sum := by
    intro a
    rw [weakform_vector lhs rhs space e _ (List.getElem?_eq_getElem he), ← List.sum_map_mul_left]
  simp only [h2, sum_list_comm]
  congr 2
  funext t
  exact t.load _ _

theorem list_sum_zero {α : Type} {l : List α} {f : α → ℝ} (hf : ∀ a ∈ l, 0 ≤ f a) (h0 : (l.map f).sum = 0) : ∀ a ∈ l, f a = 0 := by
  have hn : ∀ y ∈ l.map f, 0 ≤ y := by simpa using hf
  intro a ha
  refine le_antisymm ?_ (hf a ha)
  rw [← h0]
  exact List.single_le_sum hn _ (List.mem_map_of_mem ha)

variable {lhs rhs space constrained}

theorem Sound.nonneg (h : Sound lhs space) {ec : Element d n × (Fin n → Nat)} (hec : ec ∈ space) {b : LhsBlock d} (hb : b ∈ lhs)
    (u : Fin n → ℝ) {p : Val (.vec d) × ℝ} (hp : p ∈ b.rule) : 0 ≤ factor ec.1 p * b.density ec.1 u u p.1 :=
  mul_nonneg (factor_nonneg (h.1 b hb p hp) fun ξ => (h.2 ec hec ξ).le) (b.density_nonneg _ _ _)

/-- the energy is zero exactly if no block sees the function -/
theorem energy_zero_iff (h : Sound lhs space) (u : Nat → ℝ) :
    form (functionSpace space constrained) (weakform lhs rhs space) u u = 0 ↔
      ∀ ec ∈ space, Unseen lhs ec.1 fun a => u (ec.2 a) := by
  rw [form_weakform]
  constructor
  · intro h0 ec hec b hb p hp hpos
    have h1 := list_sum_zero (fun ec hec => list_sum_nonneg _ _ fun b hb => list_sum_nonneg _ _ fun p hp => h.nonneg hec hb _ hp)
      h0 ec hec
    have h2 := list_sum_zero (fun b hb => list_sum_nonneg _ _ fun p hp => h.nonneg hec hb _ hp) h1 b hb
    have h3 := list_sum_zero (fun p hp => h.nonneg hec hb _ hp) h2 p hp
    rw [b.blind_iff]
    exact (mul_eq_zero.mp h3).resolve_left (mul_pos (mul_pos (area_pos d) hpos) (h.2 ec hec _)).ne'
  · intro hu
    refine List.sum_eq_zero fun y hy => ?_
    obtain ⟨ec, hec, rfl⟩ := List.mem_map.mp hy
    refine List.sum_eq_zero fun y hy => ?_
    obtain ⟨b, hb, rfl⟩ := List.mem_map.mp hy
    refine List.sum_eq_zero fun y hy => ?_
    obtain ⟨p, hp, rfl⟩ := List.mem_map.mp hy
    rcases (h.1 b hb p hp).eq_or_lt with h0 | hpos
    · simp [factor, ← h0]
    · rw [LhsBlock.blind_density (hu ec hec b hb p hp hpos), mul_zero]

theorem unseen_form (h : Sound lhs space) {u : Nat → ℝ} (hu : ∀ ec ∈ space, Unseen lhs ec.1 fun a => u (ec.2 a)) (w : Nat → ℝ) :
    form (functionSpace space constrained) (weakform lhs rhs space) w u = 0 := by
  rw [form_weakform]
  refine List.sum_eq_zero fun y hy => ?_
  obtain ⟨ec, hec, rfl⟩ := List.mem_map.mp hy
  refine List.sum_eq_zero fun y hy => ?_
  obtain ⟨b, hb, rfl⟩ := List.mem_map.mp hy
  refine List.sum_eq_zero fun y hy => ?_
  obtain ⟨p, hp, rfl⟩ := List.mem_map.mp hy
  rcases (h.1 b hb p hp).eq_or_lt with h0 | hpos
  · simp [factor, ← h0]
  · rw [LhsBlock.blind_density (hu ec hec b hb p hp hpos), mul_zero]

theorem mem_nodes {x : Nat} : x ∈ (functionSpace space constrained).elements.flatten ↔ ∃ ec ∈ space, ∃ a, ec.2 a = x := by
  simp only [functionSpace, List.mem_flatten, List.mem_map]
  constructor
  · rintro ⟨_, ⟨ec, hec, rfl⟩, hx⟩
    obtain ⟨a, ha⟩ := List.mem_ofFn.mp hx
    exact ⟨ec, hec, a, ha⟩
  · rintro ⟨ec, hec, a, rfl⟩
    exact ⟨_, ⟨ec, hec, rfl⟩, List.mem_ofFn.mpr ⟨a, rfl⟩⟩

theorem l2Norm_square {κ : Type} {rule : Rule d} {space : Space κ d n} (h : Positive rule space) (u v : Localizable κ d) :
    l2Norm rule space u v ^ 2 = (space.map fun ec => (rule.map fun p => factor ec.1 p *
      ((localize ec.1 ec.2 u).eval p.1 () - (localize ec.1 ec.2 v).eval p.1 ()) ^ 2).sum).sum := by
  rw [l2Norm_eq, Real.sq_sqrt]
  exact list_sum_nonneg _ _ fun ec hec => list_sum_nonneg _ _ fun p hp =>
    mul_nonneg (factor_nonneg (h.1 p hp) (h.2 ec hec)) (sq_nonneg _)

theorem sum_map_sub {α : Type} (l : List α) (f g : α → ℝ) : (l.map fun a => f a - g a).sum = (l.map f).sum - (l.map g).sum := by
  induction l with
  | nil => simp
  | cons a l ih => simp only [List.map_cons, List.sum_cons, ih]; ring

theorem le_of_sq_le_sq {a b : ℝ} (h : a ^ 2 ≤ b ^ 2) (hb : 0 ≤ b) : a ≤ b := (le_abs_self a).trans (abs_le_of_sq_le_sq h hb)

end Mito.Fem
