import Verif.Fem.Barycentric
import Verif.Fem.ElementsLemmas
import Verif.Props.Functions
import Mathlib.Tactic.Linarith
import Mathlib.Tactic.NormNum

/-! # C144: shape functions and gradients constructed from barycentric coordinates -/

namespace Mito.Barycentric

open Mito.Functions Mito.Fem

/-! ## The two conversions -/

/-- the three numbers of a point are barycentric coordinates -/
def OnPlane (η : Val (.vec 3)) : Prop := η 0 + η 1 + η 2 = 1

theorem toBarycentric_eval (ξ : Val (.vec 2)) : toBarycentric.eval ξ = ![ξ 0, ξ 1, 1 - ξ 0 - ξ 1] := by
  funext i
  fin_cases i <;> simp [toBarycentric, Expr.eval, mul, unitVec]

theorem toParametric_eval (η : Val (.vec 3)) : toParametric.eval η = ![η 0, η 1] := by
  funext i
  fin_cases i <;> simp [toParametric, Expr.eval, mul, unitVec]

/-- parametric coordinates survive the conversion and back -/
theorem parametric_round_trip (ξ : Val (.vec 2)) : toParametric.eval (toBarycentric.eval ξ) = ξ := by
  rw [toParametric_eval, toBarycentric_eval]
  funext i
  fin_cases i <;> simp

/-- the conversion gives barycentric coordinates -/
theorem toBarycentric_onPlane (ξ : Val (.vec 2)) : OnPlane (toBarycentric.eval ξ) := by
  simp [OnPlane, toBarycentric_eval]

/-- three numbers survive the conversion and back iff they are barycentric coordinates -/
theorem barycentric_round_trip (η : Val (.vec 3)) : toBarycentric.eval (toParametric.eval η) = η ↔ OnPlane η := by
  rw [toBarycentric_eval, toParametric_eval]
  constructor
  · intro h
    have := congrFun h 2
    simp at this
    simp [OnPlane]
    linarith
  · intro h
    simp [OnPlane] at h
    funext i
    fin_cases i <;> simp
    linarith

/-! ## Every shape function -/

/-- the derivatives of a shape function with respect to the parametric coordinates are differences of its derivatives with respect
to the barycentric coordinates, at the point with the same first two coordinates -/
theorem dN_eval (φ : Expr (.vec 3) .scalar) (η : Val (.vec 3)) (k : Fin 2) :
    row0 ((dN φ).eval η) k = (φ.derivative (k.castSucc : Fin 3)).eval (toBarycentric.eval (toParametric.eval η)) () -
      (φ.derivative (2 : Fin 3)).eval (toBarycentric.eval (toParametric.eval η)) () := by
  have h : row0 ((dN φ).eval η) k = ((parametric φ).derivative k).eval (toParametric.eval η) () := by
    show (jacobianVS (parametric φ)).eval (toParametric.eval η) (0, k) = _
    rw [jacobianVS_eval]
  rw [h, parametric, Expr.derivative, eval_sumList]
  fin_cases k <;>
    simp [enum, List.finRange, Expr.eval, mul, toBarycentric, Expr.derivative, Expr.add, Expr.sub, Expr.constSub, Expr.addConst,
      Expr.neg, Expr.smul, unitVec, sub_eq_add_neg]

/-- for barycentric coordinates the derivatives are those at the point itself -/
theorem dN_onPlane (φ : Expr (.vec 3) .scalar) (η : Val (.vec 3)) (h : OnPlane η) (k : Fin 2) :
    row0 ((dN φ).eval η) k = (φ.derivative (k.castSucc : Fin 3)).eval η () - (φ.derivative (2 : Fin 3)).eval η () := by
  rw [dN_eval, (barycentric_round_trip η).mpr h]

/-- the derivatives are the partial derivatives of the shape function as a function of the parametric coordinates -/
theorem dN_correct (φ : Expr (.vec 3) .scalar) (hr : φ.HasRule) (η : Val (.vec 3)) (h : OnPlane η) (hs : φ.Smooth η) (k : Fin 2) :
    HasDerivAt (fun t => (parametric φ).eval (Function.update (toParametric.eval η) k t) ()) (row0 ((dN φ).eval η) k)
      (toParametric.eval η k) := by
  refine jacobianVS_correct (parametric φ) ⟨by simp, hr, ?_⟩ (toParametric.eval η) ⟨?_, ?_⟩ k
  · simp [toBarycentric, Expr.HasRule, Expr.add, Expr.sub, Expr.constSub, Expr.addConst, Expr.neg, Expr.smul]
  · rw [(barycentric_round_trip η).mpr h]
    exact hs
  · simp [toBarycentric, Expr.All, Expr.add, Expr.sub, Expr.constSub, Expr.addConst, Expr.neg, Expr.smul]

example : (phiP2 0).HasRule ∧ (phiP2 0).Smooth pointP2 ∧ OnPlane pointP2 := by
  simp [phiP2, phi3, phi5, Expr.HasRule, Expr.Smooth, Expr.All, Expr.sub, Expr.add, Expr.neg, Expr.smul, Expr.mul, OnPlane, pointP2]

/-! ## The shape functions of the test and of the library -/

/-- the shape functions of the test are those of the library -/
theorem same_shape (ξ : Val (.vec 2)) :
    (∀ a, (parametric (phiP1 a)).eval ξ () = (shapeTri1 a).eval ξ ()) ∧
      ∀ a, (parametric (phiP2 a)).eval ξ () = (shapeTri2 a).eval ξ () := by
  obtain ⟨h0, h1, h2⟩ := tri1_eval ξ
  obtain ⟨k0, k1, k2, k3, k4, k5⟩ := tri2_eval ξ
  constructor
  · intro a
    show (phiP1 a).eval (toBarycentric.eval ξ) () = _
    rw [toBarycentric_eval]
    fin_cases a
    · exact h0.symm
    · exact h1.symm
    · exact h2.symm
  · intro a
    show (phiP2 a).eval (toBarycentric.eval ξ) () = _
    rw [toBarycentric_eval]
    fin_cases a
    · refine Eq.trans ?_ k0.symm
      simp [phiP2, phi3, phi5, Expr.eval]; ring
    · refine Eq.trans ?_ k1.symm
      simp [phiP2, phi3, phi4, Expr.eval]; ring
    · refine Eq.trans ?_ k2.symm
      simp [phiP2, phi5, phi4, Expr.eval]; ring
    · refine Eq.trans ?_ k3.symm
      simp [phiP2, phi3, Expr.eval]
    · refine Eq.trans ?_ k4.symm
      simp [phiP2, phi4, Expr.eval]
    · refine Eq.trans ?_ k5.symm
      simp [phiP2, phi5, Expr.eval]

/-- the values of the derivatives -/
theorem dN_P1 (η : Val (.vec 3)) (k : Fin 2) :
    row0 ((dN (phiP1 0)).eval η) k = (![1, 0] : Fin 2 → ℝ) k ∧ row0 ((dN (phiP1 1)).eval η) k = (![0, 1] : Fin 2 → ℝ) k ∧
      row0 ((dN (phiP1 2)).eval η) k = (![-1, -1] : Fin 2 → ℝ) k := by
  refine ⟨?_, ?_, ?_⟩ <;> rw [dN_eval] <;> fin_cases k <;> simp [phiP1, Expr.derivative, Expr.eval]

@[inherit_doc dN_P1]
theorem dN_P2 (η : Val (.vec 3)) (k : Fin 2) :
    row0 ((dN (phiP2 0)).eval η) k = (![4 * η 0 - 1, 0] : Fin 2 → ℝ) k ∧
    row0 ((dN (phiP2 1)).eval η) k = (![0, 4 * η 1 - 1] : Fin 2 → ℝ) k ∧
    row0 ((dN (phiP2 2)).eval η) k = (![4 * (η 0 + η 1) - 3, 4 * (η 0 + η 1) - 3] : Fin 2 → ℝ) k ∧
    row0 ((dN (phiP2 3)).eval η) k = (![4 * η 1, 4 * η 0] : Fin 2 → ℝ) k ∧
    row0 ((dN (phiP2 4)).eval η) k = (![-4 * η 1, 4 * (1 - η 0 - 2 * η 1)] : Fin 2 → ℝ) k ∧
    row0 ((dN (phiP2 5)).eval η) k = (![4 * (1 - 2 * η 0 - η 1), -4 * η 0] : Fin 2 → ℝ) k := by
  refine ⟨?_, ?_, ?_, ?_, ?_, ?_⟩ <;> rw [dN_eval, toBarycentric_eval, toParametric_eval] <;> fin_cases k <;>
    simp [phiP2, phi3, phi4, phi5, Expr.derivative, Expr.eval, Expr.neg, Expr.smul, mul, Expr.sub, Expr.add, Expr.mul] <;> ring

/-- the derivatives of the test are the gradients `dshape` of the library -/
theorem same_gradient (ξ : Val (.vec 2)) :
    (∀ a, row0 ((dN (phiP1 a)).eval (toBarycentric.eval ξ)) = (gradient (shapeTri1 a)).eval ξ) ∧
      ∀ a, row0 ((dN (phiP2 a)).eval (toBarycentric.eval ξ)) = (gradient (shapeTri2 a)).eval ξ := by
  constructor <;> intro a <;> funext k
  · obtain ⟨h0, h1, h2⟩ := dN_P1 (toBarycentric.eval ξ) k
    obtain ⟨k0, k1, k2⟩ := tri1_dshape ξ k
    fin_cases a
    · exact h0.trans k0.symm
    · exact h1.trans k1.symm
    · exact h2.trans k2.symm
  · obtain ⟨h0, h1, h2, h3, h4, h5⟩ := dN_P2 (toBarycentric.eval ξ) k
    obtain ⟨k0, k1, k2, k3, k4, k5⟩ := tri2_dshape ξ k
    rw [toBarycentric_eval] at h0 h1 h2 h3 h4 h5 ⊢
    fin_cases a
    · exact h0.trans k0.symm
    · exact h1.trans k1.symm
    · exact h2.trans k2.symm
    · exact h3.trans k3.symm
    · exact h4.trans k4.symm
    · exact h5.trans k5.symm

/-! ## The hard-coded derivatives -/

/-- the hard-coded derivatives of the linear shape functions are right at every point -/
theorem hard_coded_P1 (η : Val (.vec 3)) (a : Fin 3) : row0 ((dN (phiP1 a)).eval η) = (dphiP1 a).eval η := by
  funext k
  obtain ⟨h0, h1, h2⟩ := dN_P1 η k
  fin_cases a
  · refine h0.trans ?_
    fin_cases k <;> simp [dphiP1, Expr.eval, unitVec]
  · refine h1.trans ?_
    fin_cases k <;> simp [dphiP1, Expr.eval, unitVec]
  · refine h2.trans ?_
    fin_cases k <;> simp [dphiP1, Expr.eval, unitVec]

/-- the hard-coded derivatives of the quadratic shape functions -/
theorem dphiP2_eval (η : Val (.vec 3)) :
    (dphiP2 0).eval η = ![1 - 2 * η 1 - 2 * η 2 + 2 * η 0, 0] ∧
    (dphiP2 1).eval η = ![0, 1 - 2 * η 0 - 2 * η 2 + 2 * η 1] ∧
    (dphiP2 2).eval η = ![-1 - 2 * η 2 + 2 * η 0 + 2 * η 1, -1 - 2 * η 2 + 2 * η 0 + 2 * η 1] ∧
    (dphiP2 3).eval η = ![4 * η 1, 4 * η 0] ∧
    (dphiP2 4).eval η = ![-4 * η 1, 4 * η 2 - 4 * η 1] ∧
    (dphiP2 5).eval η = ![4 * η 2 - 4 * η 0, -4 * η 0] := by
  refine ⟨?_, ?_, ?_, ?_, ?_, ?_⟩ <;> funext k <;> fin_cases k <;> simp [dphiP2, vmul, Expr.eval, mul, unitVec]

/-- the hard-coded derivatives of the quadratic shape functions, but for the one between the first two nodes, are right exactly
where the three numbers are barycentric coordinates -/
theorem hard_coded_iff (η : Val (.vec 3)) (a : Fin 6) :
    row0 ((dN (phiP2 a)).eval η) = (dphiP2 a).eval η ↔ a = 3 ∨ OnPlane η := by
  have key : ∀ u v : Val (.vec 2), u = v ↔ u 0 = v 0 ∧ u 1 = v 1 := fun u v =>
    ⟨fun h => h ▸ ⟨rfl, rfl⟩, fun h => funext fun k => by fin_cases k; exacts [h.1, h.2]⟩
  obtain ⟨h0, h1, h2, h3, h4, h5⟩ := dN_P2 η 0
  obtain ⟨k0, k1, k2, k3, k4, k5⟩ := dN_P2 η 1
  obtain ⟨d0, d1, d2, d3, d4, d5⟩ := dphiP2_eval η
  rw [key, OnPlane]
  fin_cases a
  · show _ = (dphiP2 0).eval η 0 ∧ _ = (dphiP2 0).eval η 1 ↔ _
    erw [h0, k0, d0]
    simp
    constructor <;> intro h <;> linarith
  · show _ = (dphiP2 1).eval η 0 ∧ _ = (dphiP2 1).eval η 1 ↔ _
    erw [h1, k1, d1]
    simp
    constructor <;> intro h <;> linarith
  · show _ = (dphiP2 2).eval η 0 ∧ _ = (dphiP2 2).eval η 1 ↔ _
    erw [h2, k2, d2]
    simp
    constructor <;> intro h <;> linarith
  · show _ = (dphiP2 3).eval η 0 ∧ _ = (dphiP2 3).eval η 1 ↔ _
    erw [h3, k3, d3]
    simp
  · show _ = (dphiP2 4).eval η 0 ∧ _ = (dphiP2 4).eval η 1 ↔ _
    erw [h4, k4, d4]
    simp
    constructor <;> intro h <;> linarith
  · show _ = (dphiP2 5).eval η 0 ∧ _ = (dphiP2 5).eval η 1 ↔ _
    erw [h5, k5, d5]
    simp
    constructor <;> intro h <;> linarith

/-- the assertions of the tests hold -/
theorem tests_pass : (∀ a, row0 ((dN (phiP1 a)).eval pointP1) = (dphiP1 a).eval pointP1) ∧
    ∀ a, row0 ((dN (phiP2 a)).eval pointP2) = (dphiP2 a).eval pointP2 :=
  ⟨fun a => hard_coded_P1 _ a, fun a => (hard_coded_iff _ a).mpr (Or.inr (by simp [OnPlane, pointP2]))⟩

/-- the assertion of the test at one node does not see a wrong derivative: the one of node 4 may have any multiple of `η 1` in its
first component -/
theorem test_misses (c : ℝ) :
    ((vmul (unitVec 0) (Expr.smul c (coord 3 1))).add
      (vmul (unitVec 1) ((Expr.smul 4 (coord 3 2)).sub (Expr.smul 4 (coord 3 1))))).eval pointP2 =
      row0 ((dN (phiP2 4)).eval pointP2) := by
  rw [tests_pass.2 4, (dphiP2_eval pointP2).2.2.2.2.1]
  funext k
  fin_cases k <;> simp [vmul, Expr.eval, mul, unitVec, pointP2]

end Mito.Barycentric
