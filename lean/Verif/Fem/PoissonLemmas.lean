import Verif.Fem.Poisson
import Verif.Fem.BlocksLemmas
import Verif.Spec.Poisson

/-! # Lemmas on the Poisson problem -/

namespace Mito.Fem

open Mito.Functions Mito.DiscreteSystem Mito.Geometry

variable {d n : Nat}

theorem poisson_matrix (rule : Rule d) (f : Val (.vec d) → ℝ) (space : Space Nat d n) (e : Nat) (ec : Element d n × (Fin n → Nat))
    (he : space[e]? = some ec) (a b : Fin n) : (poisson rule f space e).matrix a b = gradGrad rule ec.1 a b := by
  simp [poisson, computeBlocks, matrixBlock, he]

theorem poisson_vector (rule : Rule d) (f : Val (.vec d) → ℝ) (space : Space Nat d n) (e : Nat) (ec : Element d n × (Fin n → Nat))
    (he : space[e]? = some ec) (a : Fin n) : (poisson rule f space e).vector a = sourceTerm f rule ec.1 a := by
  simp [poisson, computeBlocks, vectorBlock, he]

/-- the form on a list of nodes -/
def formOf (l : List Nat) (B : Nat → Nat → ℝ) (w u : Nat → ℝ) : ℝ :=
  ∑ a : Fin l.length, ∑ b : Fin l.length, w l[a] * B a b * u l[b]

theorem formOf_ofFn (c : Fin n → Nat) (B : Nat → Nat → ℝ) (w u : Nat → ℝ) :
    formOf (List.ofFn c) B w u = ∑ a : Fin n, ∑ b : Fin n, w (c a) * B a b * u (c b) := by
  unfold formOf
  refine Fintype.sum_equiv (finCongr (List.length_ofFn)) _ _ fun a => ?_
  refine Fintype.sum_equiv (finCongr (List.length_ofFn)) _ _ fun b => ?_
  simp [List.getElem_ofFn]
  rfl

def loadOf (l : List Nat) (F : Nat → ℝ) (w : Nat → ℝ) : ℝ := ∑ a : Fin l.length, w l[a] * F a

theorem loadOf_ofFn (c : Fin n → Nat) (F : Nat → ℝ) (w : Nat → ℝ) : loadOf (List.ofFn c) F w = ∑ a : Fin n, w (c a) * F a := by
  unfold loadOf
  refine Fintype.sum_equiv (finCongr (List.length_ofFn)) _ _ fun a => ?_
  simp [List.getElem_ofFn]
  exact Or.inl rfl

def rowOf (l : List Nat) (B : Nat → ℝ) : ℝ := ∑ b : Fin l.length, B b

theorem rowOf_ofFn (c : Fin n → Nat) (B : Nat → ℝ) : rowOf (List.ofFn c) B = ∑ b : Fin n, B b := by
  unfold rowOf
  exact Fintype.sum_equiv (finCongr (List.length_ofFn)) _ _ fun a => rfl

theorem elementForm_poisson (rule : Rule d) (f : Val (.vec d) → ℝ) (space : Space Nat d n) (constrained : List Nat)
    (e : Fin (functionSpace space constrained).elements.length) (he : e.val < space.length) (w u : Nat → ℝ) :
    elementForm (functionSpace space constrained) (poisson rule f space) e w u =
      ∑ a, ∑ b, w (space[e.val].2 a) * gradGrad rule space[e.val].1 a b * u (space[e.val].2 b) := by
  have hl : (functionSpace space constrained).elements[e] = List.ofFn space[e.val].2 := List.getElem_map ..
  have h1 : elementForm (functionSpace space constrained) (poisson rule f space) e w u =
      formOf (functionSpace space constrained).elements[e] (poisson rule f space e).matrix w u := rfl
  rw [h1, hl, formOf_ofFn]
  refine Finset.sum_congr rfl fun a _ => Finset.sum_congr rfl fun b _ => ?_
  rw [poisson_matrix rule f space e _ (List.getElem?_eq_getElem he)]

theorem elementLoad_poisson (rule : Rule d) (f : Val (.vec d) → ℝ) (space : Space Nat d n) (constrained : List Nat)
    (e : Fin (functionSpace space constrained).elements.length) (he : e.val < space.length) (w : Nat → ℝ) :
    elementLoad (functionSpace space constrained) (poisson rule f space) e w =
      ∑ a, w (space[e.val].2 a) * sourceTerm f rule space[e.val].1 a := by
  have hl : (functionSpace space constrained).elements[e] = List.ofFn space[e.val].2 := List.getElem_map ..
  have h1 : elementLoad (functionSpace space constrained) (poisson rule f space) e w =
      loadOf (functionSpace space constrained).elements[e] (poisson rule f space e).vector w := rfl
  rw [h1, hl, loadOf_ofFn]
  refine Finset.sum_congr rfl fun a _ => ?_
  rw [poisson_vector rule f space e _ (List.getElem?_eq_getElem he)]

/-- the energy of the gradients at the quadrature points -/
theorem tri2_gradient_zero {u : Fin 6 → ℝ} {x : Fin 3 → Val (.vec 2)} (ξ : Val (.vec 2)) :
    (∑ a, u a * ((triP2 x).dshape a).eval ξ 0 = (-u 0 - 3 * u 2 + 4 * u 5) + (4 * u 0 + 4 * u 2 - 8 * u 5) * ξ 0 +
      (4 * u 2 + 4 * u 3 - 4 * u 4 - 4 * u 5) * ξ 1) ∧
    (∑ a, u a * ((triP2 x).dshape a).eval ξ 1 = (-u 1 - 3 * u 2 + 4 * u 4) + (4 * u 2 + 4 * u 3 - 4 * u 4 - 4 * u 5) * ξ 0 +
      (4 * u 1 + 4 * u 2 - 8 * u 4) * ξ 1) := by
  obtain ⟨h0, h1, h2, h3, h4, h5⟩ := tri2_dshape ξ 0
  obtain ⟨k0, k1, k2, k3, k4, k5⟩ := tri2_dshape ξ 1
  simp only [Element.dshape, triP2, Fin.sum_univ_six, h0, h1, h2, h3, h4, h5, k0, k1, k2, k3, k4, k5]
  simp
  constructor <;> ring

end Mito.Fem
