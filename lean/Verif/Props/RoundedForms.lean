import Verif.Tensor.RoundedForms
import Verif.Props.RoundedVolumes
import Mathlib.Tactic.FinCases
import Mathlib.Tactic.Ring

/-! # C158: products of forms in double arithmetic -/

namespace Mito.RoundedForms

open Mito.Quadrature (rnd)
open Mito.RoundedVolumes (rnd_odd)
open Mito.Printing Mito.Midpoints

section Field

variable {α V : Type} [Field α] {fl : α → α}

private theorem wedge2_eq (hodd : ∀ x, fl (-x) = -fl x) (hfl : ∀ x, fl (fl x) = fl x) (a b : V → α) (x y : V) :
    wedge2 fl a b x y = fl (fl (a x * b y) - fl (b x * a y)) := by
  simp only [wedge2, tensor2, neg_one_mul, hodd, hfl, sub_eq_add_neg]

/-- Exchanging the vectors changes the sign of the computed wedge product of two one-forms and nothing else. -/
theorem wedge2_swap (hodd : ∀ x, fl (-x) = -fl x) (hfl : ∀ x, fl (fl x) = fl x) (a b : V → α) (x y : V) :
    wedge2 fl a b y x = -wedge2 fl a b x y := by
  rw [wedge2_eq hodd hfl, wedge2_eq hodd hfl, ← hodd (_ - _), neg_sub, mul_comm (a y), mul_comm (b y)]

/-- So does exchanging the forms. -/
theorem wedge2_forms (hodd : ∀ x, fl (-x) = -fl x) (hfl : ∀ x, fl (fl x) = fl x) (a b : V → α) (x y : V) :
    wedge2 fl b a x y = -wedge2 fl a b x y := by
  rw [wedge2_eq hodd hfl, wedge2_eq hodd hfl, ← hodd (_ - _), neg_sub]

/-- The computed wedge product of three one-forms changes its sign and nothing else when the last two vectors are exchanged: the antisymmetry in
tests/mito.lib/tensor/wedge_product_forms.cc:54-57. -/
theorem wedge3_swap (hodd : ∀ x, fl (-x) = -fl x) (hfl : ∀ x, fl (fl x) = fl x) (a b c : V → α) (x y z : V) :
    wedge3 fl a b c x z y = -wedge3 fl a b c x y z := by
  simp only [wedge3, wedge2_swap hodd hfl _ _ y z, mul_neg, hodd, ← neg_add]

/-- With two equal vectors in these places the products are zero. -/
theorem wedge_equal (hodd : ∀ x, fl (-x) = -fl x) (hfl : ∀ x, fl (fl x) = fl x) (h0 : fl 0 = 0) (a b c : V → α) (x y : V) :
    wedge2 fl a b y y = 0 ∧ wedge3 fl a b c x y y = 0 := by
  have h : ∀ a b : V → α, wedge2 fl a b y y = 0 := fun a b => by
    simp only [wedge2, tensor2, neg_one_mul, hodd, hfl, mul_comm (b y), add_neg_cancel, h0]
  exact ⟨h a b, by simp [wedge3, h, h0]⟩

/-- For the basis vectors and their forms all products are exact: those of the tests tests/mito.lib/tensor/tensor_product_forms.cc:10-59,
tests/mito.lib/tensor/wedge_product_forms.cc:10-57 and tests/mito.lib/tensor/one_forms.cc:9-25, and all others. -/
theorem basis_exact (hodd : ∀ x, fl (-x) = -fl x) (h0 : fl 0 = 0) (h1 : fl 1 = 1) :
    (∀ i k, oneForm fl (basis i) (basis k) = if i = k then 1 else 0) ∧
    (∀ i j k l, tensor2 fl (oneForm fl (basis i)) (oneForm fl (basis j)) (basis k) (basis l) = if i = k ∧ j = l then 1 else 0) ∧
    (∀ k l m, tensor3 fl (oneForm fl (basis 0)) (oneForm fl (basis 1)) (oneForm fl (basis 2)) (basis k) (basis l) (basis m) =
      if k = 0 ∧ l = 1 ∧ m = 2 then 1 else 0) ∧
    (∀ k l, wedge2 fl (oneForm fl (basis 0)) (oneForm fl (basis 1)) (basis k) (basis l) = levi k l 2) ∧
    ∀ k l m, wedge3 fl (oneForm fl (basis 0)) (oneForm fl (basis 1)) (oneForm fl (basis 2)) (basis k) (basis l) (basis m) = levi k l m := by
  have hm : fl (-1) = -1 := by rw [hodd, h1]
  have hb : ∀ i k, oneForm fl (basis i) (basis k) = if i = k then 1 else 0 := by
    intro i k
    fin_cases i <;> fin_cases k <;> simp [oneForm, basis, h0, h1]
  refine ⟨hb, ?_, ?_, ?_, ?_⟩
  · intro i j k l
    simp only [tensor2, hb]
    by_cases h : i = k <;> by_cases h' : j = l <;> simp [h, h', h0, h1]
  · intro k l m
    fin_cases k <;> fin_cases l <;> fin_cases m <;> simp [tensor3, hb, h0, h1]
  · intro k l
    fin_cases k <;> fin_cases l <;> simp [wedge2, tensor2, hb, h0, h1, hm, levi]
  · intro k l m
    fin_cases k <;> fin_cases l <;> fin_cases m <;> simp [wedge3, wedge2, tensor2, hb, h0, h1, hm, levi]

end Field

/-- What is asked of the rounding holds for that of doubles. -/
theorem doubles_meet : (∀ x, rnd (-x) = -rnd x) ∧ (∀ x, rnd (rnd x) = rnd x) ∧ rnd 0 = 0 ∧ rnd 1 = 1 :=
  ⟨rnd_odd, fun x => fl_fixed rnd_nearest (rnd_nearest x).1, by decide +kernel, by decide +kernel⟩

/-- vectors with decimal components -/
def xs : Fin 3 → Fin 3 → ℚ :=
  ![![rnd 0.3, rnd 0.2, 0], ![rnd 0.2, rnd 0.5, rnd 0.7], ![rnd 0.3, rnd 0.1, rnd 0.7]]

/-- the wedge product of the three forms of the basis -/
def volumeForm : (Fin 3 → ℚ) → (Fin 3 → ℚ) → (Fin 3 → ℚ) → ℚ :=
  wedge3 rnd (oneForm rnd (basis 0)) (oneForm rnd (basis 1)) (oneForm rnd (basis 2))

/-- Exchanging the first two vectors changes more than the sign, and with two equal vectors there the product is not zero. -/
theorem first_two_fail : volumeForm (xs 1) (xs 0) (xs 2) ≠ -volumeForm (xs 0) (xs 1) (xs 2) ∧ volumeForm (xs 0) (xs 0) (xs 2) ≠ 0 := by
  decide +kernel

/-- Computed values that show the order of the operations. -/
theorem computed_values :
    oneForm rnd ![rnd 0.7, rnd 0.5, rnd 0.5] ![rnd 0.7, rnd 0.7, rnd 0.9] = 5809643519307939 / 4503599627370496 ∧
    tensor3 rnd id id id (rnd 0.1) (rnd 0.2) (rnd 0.3) = 6917529027641083 / 1152921504606846976 ∧
    volumeForm ![rnd 0.1, rnd 0.3, rnd 0.7] ![rnd 0.3, rnd 0.7, rnd 0.7] ![rnd 0.5, rnd 0.2, rnd 0.5] = -1098878309078401 / 9007199254740992 := by
  decide +kernel

/-- the same, in the places where the theorems apply -/
example : volumeForm (xs 0) (xs 2) (xs 1) = -volumeForm (xs 0) (xs 1) (xs 2) ∧ volumeForm (xs 0) (xs 1) (xs 1) = 0 ∧
    volumeForm (xs 0) (xs 1) (xs 2) ≠ 0 := by decide +kernel

end Mito.RoundedForms
