import Verif.Spec.Forms
import Mathlib.LinearAlgebra.Matrix.Determinant.Basic
import Mathlib.Tactic.Ring
import Mathlib.Tactic.NormNum
import Mathlib.Tactic.Linarith
import Mathlib.Tactic.FinCases

/-! # C44, C45: wedge products -/

namespace Mito.Tensor

variable {d : Nat}

/-! ## C44: wedge products of one-forms -/

theorem oneForm_linear (v : Vec d) (m : Mat d) : Linear (oneForm v m) := by
  intro s t x y
  simp [oneForm, dotProduct_add, dotProduct_smul]

theorem wedge2_eq (a b : Form1 d) (x y : Vec d) : wedge2 a b x y = a x * b y - b x * a y := by
  have h : (-1.0 : ℝ) = -1 := by norm_num
  rw [wedge2, sub2, add2, scale2, h, tensor2, tensor2]
  ring

/-- the wedge of two one-forms is the determinant -/
theorem wedge2_det (f : Fin 2 → Form1 d) (v : Fin 2 → Vec d) :
    wedge2 (f 0) (f 1) (v 0) (v 1) = Matrix.det (Matrix.of fun i j => f i (v j)) := by
  rw [wedge2_eq, Matrix.det_fin_two]
  simp only [Matrix.of_apply]
  ring

/-- the wedge of three one-forms is the determinant -/
theorem wedge3_det (f : Fin 3 → Form1 d) (v : Fin 3 → Vec d) :
    wedge3 (f 0) (f 1) (f 2) (v 0) (v 1) (v 2) = Matrix.det (Matrix.of fun i j => f i (v j)) := by
  simp only [wedge3, wedge2_eq, Matrix.det_fin_three, Matrix.of_apply]
  ring

theorem wedge2_bilinear {a b : Form1 d} (ha : Linear a) (hb : Linear b) : Bilinear (wedge2 a b) := by
  refine ⟨fun y s t x x' => ?_, fun x s t y y' => ?_⟩ <;> simp only [wedge2_eq, ha s t, hb s t] <;> ring

theorem wedge2_alternating (a b : Form1 d) : Alternating2 (wedge2 a b) := by
  intro x y
  simp only [wedge2_eq]
  ring

theorem wedge3_trilinear {a b c : Form1 d} (ha : Linear a) (hb : Linear b) (hc : Linear c) : Trilinear (wedge3 a b c) := by
  refine ⟨fun y z s t x x' => ?_, fun x z s t y y' => ?_, fun x y s t z z' => ?_⟩ <;>
    simp only [wedge3, wedge2_eq, ha s t, hb s t, hc s t] <;> ring

theorem wedge3_alternating (a b c : Form1 d) : Alternating3 (wedge3 a b c) := by
  refine ⟨fun x y z => ?_, fun x y z => ?_, fun x y z => ?_⟩ <;> simp only [wedge3, wedge2_eq] <;> ring

/-- the wedge products are alternating in the forms, too -/
theorem wedge_swap (a b c : Form1 d) :
    wedge2 b a = scale2 (-1) (wedge2 a b) ∧ wedge3 b a c = scale3 (-1) (wedge3 a b c) ∧
      wedge3 a c b = scale3 (-1) (wedge3 a b c) := by
  refine ⟨?_, ?_, ?_⟩ <;> funext <;> simp only [wedge3, wedge2_eq, scale2, scale3] <;> ring

/-- the wedge of one-forms is the antisymmetric sum of tensor products -/
theorem wedge3_tensor (a b c : Form1 d) (x y z : Vec d) :
    wedge3 a b c x y z = tensor3 a b c x y z + tensor3 b c a x y z + tensor3 c a b x y z
      - tensor3 b a c x y z - tensor3 a c b x y z - tensor3 c b a x y z := by
  simp only [wedge3, wedge2_eq, tensor3]
  ring

example : wedge2 (oneForm (![1, 0] : Vec 2) 1) (oneForm ![0, 1] 1) ![1, 2] ![3, 4] = -2 := by
  rw [wedge2_eq]
  simp [oneForm]
  norm_num

/-! ## C45: the wedge product of a one-form with a two-form -/

theorem wedge12_eq (b : Form1 d) (a : Form2 d) (x y z : Vec d) : wedge12 b a x y z = b x * a y z + a x y * b z := by
  simp [wedge12, add3, scale2, scale3, scale1, sign]

/-- it is not alternating: `dx ∧ (dy ∧ dz)` -/
theorem wedge12_fails :
    ∃ (b : Form1 3) (a : Form2 3), Linear b ∧ Bilinear a ∧ Alternating2 a ∧ ¬ Alternating3 (wedge12 b a) := by
  refine ⟨oneForm ![1, 0, 0] 1, wedge2 (oneForm ![0, 1, 0] 1) (oneForm ![0, 0, 1] 1), oneForm_linear _ _,
    wedge2_bilinear (oneForm_linear _ _) (oneForm_linear _ _), wedge2_alternating _ _, fun h => ?_⟩
  have := h.1 ![1, 0, 0] ![0, 1, 0] ![0, 0, 1]
  simp [wedge12_eq, wedge2_eq, oneForm, dotProduct, Fin.sum_univ_three] at this

/-- it is alternating only if one of the forms is zero -/
theorem wedge12_alternating_iff {b : Form1 d} {a : Form2 d} (ha : Alternating2 a) :
    Alternating3 (wedge12 b a) ↔ b = 0 ∨ a = 0 := by
  constructor
  · intro h
    have key : ∀ x y z, b y * a x z + b x * a y z = 0 := by
      intro x y z
      have h1 := h.1 x y z
      rw [wedge12_eq, wedge12_eq, ha x y] at h1
      linarith
    by_cases hb : b = 0
    · exact .inl hb
    · obtain ⟨x0, h0⟩ : ∃ x0, b x0 ≠ 0 := by
        by_contra hn
        exact hb (funext fun x => by_contra fun hx => hn ⟨x, hx⟩)
      have h1 : ∀ z, a x0 z = 0 := by
        intro z
        have h2 := key x0 x0 z
        have h3 : b x0 * a x0 z = 0 := by linarith
        exact (mul_eq_zero.mp h3).resolve_left h0
      refine .inr (funext fun x => funext fun z => ?_)
      have h2 := key x x0 z
      rw [h1, mul_zero, add_zero] at h2
      exact (mul_eq_zero.mp h2).resolve_left h0
  · rintro (rfl | rfl) <;> refine ⟨fun x y z => ?_, fun x y z => ?_, fun x y z => ?_⟩ <;> simp [wedge12_eq]

/-- it differs from the wedge of three one-forms by the missing term -/
theorem wedge12_difference (b c e : Form1 d) (x y z : Vec d) :
    wedge12 b (wedge2 c e) x y z = wedge3 b c e x y z + b y * wedge2 c e x z := by
  simp only [wedge12_eq, wedge3, wedge2_eq]
  ring

/-- It is right for vectors of which the second is in the kernel of the one-form. -/
theorem wedge12_partial (b c e : Form1 d) (x y z : Vec d) (h : b y = 0) :
    wedge12 b (wedge2 c e) x y z = wedge3 b c e x y z := by
  rw [wedge12_difference, h, zero_mul, add_zero]

/-- Swapping the first and the third vector of an alternating two-form does change the sign. -/
theorem wedge12_partial_swap {b : Form1 d} {a : Form2 d} (ha : Alternating2 a) (x y z : Vec d) :
    wedge12 b a z y x = -wedge12 b a x y z := by
  rw [wedge12_eq, wedge12_eq, ha x y, ha y z]
  ring

example : ∃ (b : Form1 3) (y : Vec 3), b y = 0 ∧ b ≠ 0 := by
  refine ⟨oneForm ![1, 0, 0] 1, ![0, 1, 0], by simp [oneForm, dotProduct, Fin.sum_univ_three], fun h => ?_⟩
  have := congrFun h ![1, 0, 0]
  simp [oneForm, dotProduct, Fin.sum_univ_three] at this

end Mito.Tensor
