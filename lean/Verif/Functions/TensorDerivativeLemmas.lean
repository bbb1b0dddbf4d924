import Verif.Functions.TensorDerivative
import Verif.Functions.DerivativeLemmas

/-! # Helper lemmas on derivatives of tensor-valued functions -/

namespace Mito.Functions

variable {a b : Ty}

theorem part_derivative_eval (f : Expr a b) (i : Fin b.size) (k : Idx a) (x : Val a) :
    ((part f i).derivative k).eval x () = (f.derivative k).eval x (b.at i) := by
  cases b <;> rfl

theorem tensorDerivative_eval (f : Expr a b) (x : Val a) (i : Fin b.size) (k : Fin a.size) :
    (tensorDerivative f).eval x (i, k) = (f.derivative (a.at k)).eval x (b.at i) := by
  rw [tensorDerivative, eval_sumList, List.map_map, ← List.ofFn_eq_map, List.sum_ofFn, Finset.sum_apply, Finset.sum_eq_single k]
  · rw [Function.comp_apply, eval_sumList, List.map_map, ← List.ofFn_eq_map, List.sum_ofFn, Finset.sum_apply, Finset.sum_eq_single i]
    · simp [Expr.eval, mul, unitMat, part_derivative_eval]
    · intro l _ hl
      simp [Expr.eval, mul, unitMat, hl.symm]
    · simp
  · intro l _ hl
    rw [Function.comp_apply, eval_sumList, List.map_map, ← List.ofFn_eq_map, List.sum_ofFn, Finset.sum_apply]
    refine Finset.sum_eq_zero fun m _ => ?_
    simp [Expr.eval, mul, unitMat, hl.symm]
  · simp

theorem part_hasRule (f : Expr a b) (h : f.HasRule) (i : Fin b.size) : (part f i).HasRule := by
  cases b <;> exact h

theorem tensorDerivative_hasRule (f : Expr a b) (h : f.HasRule) : (tensorDerivative f).HasRule := by
  refine hasRule_sumList _ fun e he => ?_
  obtain ⟨k, _, rfl⟩ := List.mem_map.mp he
  refine hasRule_sumList _ fun e he => ?_
  obtain ⟨i, _, rfl⟩ := List.mem_map.mp he
  exact derivative_hasRule _ (part_hasRule f h i) _

end Mito.Functions
