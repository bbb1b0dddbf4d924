import Verif.Fem.PoissonBenchmark
import Verif.Spec.PoissonConvergence
import Verif.Fem.EnergyLemmas
import Mathlib.Analysis.SpecialFunctions.Trigonometric.Deriv
import Mathlib.Analysis.Calculus.ContDiff.Operations

/-! # Lemmas on the functions of the benchmark -/

namespace Mito.Fem

open Mito.Functions

theorem exactSolution_eval (y : Fin 2 → ℝ) : exactSolution.eval y () = Real.sin (Real.pi * y 0) * Real.sin (Real.pi * y 1) := by
  simp [exactSolution, sinPi, Expr.mul, Expr.eval, Expr.smul, mul, sc, Prim.eval]

theorem forcing_eval (y : Fin 2 → ℝ) :
    forcing.eval y () = 2 * Real.pi ^ 2 * (Real.sin (Real.pi * y 0) * Real.sin (Real.pi * y 1)) := by
  simp only [forcing, sinPi, Expr.mul, Expr.eval, Expr.smul, mul, sc, Prim.eval]
  norm_num
  ring

theorem partial_prod {a b a' b' : ℝ → ℝ} (ha : ∀ s, HasDerivAt a (a' s) s) (hb : ∀ s, HasDerivAt b (b' s) s) (y : Fin 2 → ℝ) :
    partial2 (fun y => a (y 0) * b (y 1)) 0 y = a' (y 0) * b (y 1) ∧ partial2 (fun y => a (y 0) * b (y 1)) 1 y = a (y 0) * b' (y 1) := by
  have h0 : HasFDerivAt (fun y : Fin 2 → ℝ => a (y 0)) (a' (y 0) • ContinuousLinearMap.proj (R := ℝ) (φ := fun _ : Fin 2 => ℝ) 0) y :=
    (ha (y 0)).comp_hasFDerivAt y (ContinuousLinearMap.proj (R := ℝ) (φ := fun _ : Fin 2 => ℝ) 0).hasFDerivAt
  have h1 : HasFDerivAt (fun y : Fin 2 → ℝ => b (y 1)) (b' (y 1) • ContinuousLinearMap.proj (R := ℝ) (φ := fun _ : Fin 2 => ℝ) 1) y :=
    (hb (y 1)).comp_hasFDerivAt y (ContinuousLinearMap.proj (R := ℝ) (φ := fun _ : Fin 2 => ℝ) 1).hasFDerivAt
  have h := h0.mul h1
  constructor
  · refine (congrArg (fun L => L (Pi.single 0 1)) (HasFDerivAt.fderiv h)).trans ?_
    simp [mul_comm]
  · refine (congrArg (fun L => L (Pi.single 1 1)) (HasFDerivAt.fderiv h)).trans ?_
    simp

theorem sin_deriv (s : ℝ) : HasDerivAt (fun s => Real.sin (Real.pi * s)) (Real.pi * Real.cos (Real.pi * s)) s := by
  have := (Real.hasDerivAt_sin (Real.pi * s)).comp s ((hasDerivAt_id s).const_mul Real.pi)
  simpa [Function.comp_def, mul_comm] using this

theorem cos_deriv (s : ℝ) : HasDerivAt (fun s => Real.pi * Real.cos (Real.pi * s)) (-Real.pi ^ 2 * Real.sin (Real.pi * s)) s := by
  have := ((Real.hasDerivAt_cos (Real.pi * s)).comp s ((hasDerivAt_id s).const_mul Real.pi)).const_mul Real.pi
  refine (this.congr_deriv ?_)
  simp
  ring

theorem exactSolution_smooth {n : WithTop ℕ∞} : ContDiff ℝ n fun y : Fin 2 → ℝ => exactSolution.eval y () := by
  simp only [exactSolution_eval]
  fun_prop

/-- the right hand side of the benchmark is that of its exact solution -/
theorem source_benchmark : (sourceOf fun y => exactSolution.eval y ()) = fun y => forcing.eval y () := by
  funext y
  have h0 : partial2 (fun y => exactSolution.eval y ()) 0 = fun y => (fun s => Real.pi * Real.cos (Real.pi * s)) (y 0) *
      (fun s => Real.sin (Real.pi * s)) (y 1) := by
    funext y
    simp only [exactSolution_eval]
    exact (partial_prod sin_deriv sin_deriv y).1
  have h1 : partial2 (fun y => exactSolution.eval y ()) 1 = fun y => (fun s => Real.sin (Real.pi * s)) (y 0) *
      (fun s => Real.pi * Real.cos (Real.pi * s)) (y 1) := by
    funext y
    simp only [exactSolution_eval]
    exact (partial_prod sin_deriv sin_deriv y).2
  rw [sourceOf, Fin.sum_univ_two, h0, h1, (partial_prod cos_deriv sin_deriv y).1, (partial_prod sin_deriv cos_deriv y).2, forcing_eval]
  ring

theorem exactSolution_vanishes (y : Fin 2 → ℝ) (k : Fin 2) (h : y k = 0 ∨ y k = 1) : exactSolution.eval y () = 0 := by
  rw [exactSolution_eval]
  have : Real.sin (Real.pi * y k) = 0 := by rcases h with h | h <;> simp [h]
  fin_cases k
  · simp at this; simp [this]
  · simp at this; simp [this]

end Mito.Fem
