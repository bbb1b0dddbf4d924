import Verif.Math.CombinatoricsLemmas

/-!
# C12, C13: the sign of a permutation

The specification is Mathlib's `Equiv.Perm.sign`.
-/

namespace Mito.Combinatorics

open Equiv Equiv.Perm

variable {α : Type*} [DecidableEq α]

/-- **C12.**  For every length, every arrangement `f` of distinct elements and all permutations
`σ`, `τ` of the positions, `permutation_sign` of the two rearranged arrays is the product of the
signs of `σ` and `τ`; in particular it never fails. -/
theorem permutationSign_eq_sign {n : Nat} (hn : 0 < n) (f : Fin n → α) (hf : Function.Injective f)
    (σ τ : Perm (Fin n)) :
    permutationSign (List.ofFn (f ∘ σ)) (List.ofFn (f ∘ τ)) =
      some ((sign σ : ℤˣ) * (sign τ : ℤˣ) : ℤ) := by
  have hs : sameElements (List.ofFn (f ∘ σ)) (List.ofFn (f ∘ τ)) = true := by
    rw [sameElements, List.isPerm_iff, List.perm_ext_iff_of_nodup
      (List.nodup_ofFn.mpr (hf.comp σ.injective)) (List.nodup_ofFn.mpr (hf.comp τ.injective))]
    intro z
    simp only [List.mem_ofFn, Function.comp_apply]
    exact ⟨fun ⟨i, hi⟩ => ⟨τ.symm (σ i), by simpa using hi⟩,
      fun ⟨i, hi⟩ => ⟨σ.symm (τ i), by simpa using hi⟩⟩
  have e1 : List.ofFn (f ∘ σ) = (List.ofFn (τ⁻¹ * σ)).map (f ∘ τ) := by
    rw [List.map_ofFn]; congr 1; funext i; simp
  have e2 : List.ofFn (f ∘ τ) = (List.ofFn (id : Fin n → Fin n)).map (f ∘ τ) := by
    rw [List.map_ofFn]; congr 1
  obtain ⟨k, h1, h2⟩ := swapSort_ofFn hn (τ⁻¹ * σ)
  rw [permutationSign, hs, e1, e2, swapSort_map _ (hf.comp τ.injective) n _ _ (by simp), h1]
  simp only [Bool.not_true, Bool.false_eq_true, if_false, Option.map_some, ← h2]
  rw [sign_mul, sign_inv, mul_comm]
  simp

/-- **C12.**  Equal arrangements have sign `+1`. -/
theorem permutationSign_self {n : Nat} (hn : 0 < n) (f : Fin n → α) (hf : Function.Injective f) :
    permutationSign (List.ofFn f) (List.ofFn f) = some 1 := by
  have := permutationSign_eq_sign hn f hf 1 1
  simpa using this

/-- **C12.**  Exchanging two entries of the data negates the sign. -/
theorem permutationSign_swap {n : Nat} (hn : 0 < n) (f : Fin n → α) (hf : Function.Injective f)
    (σ τ : Perm (Fin n)) (i j : Fin n) (hij : i ≠ j) :
    permutationSign (List.ofFn (f ∘ σ ∘ swap i j)) (List.ofFn (f ∘ τ)) =
      (permutationSign (List.ofFn (f ∘ σ)) (List.ofFn (f ∘ τ))).map (- ·) := by
  have := permutationSign_eq_sign hn f hf (σ * swap i j) τ
  rw [permutationSign_eq_sign hn f hf σ τ]
  simp only [Perm.coe_mul] at this
  rw [this, sign_mul, sign_swap hij]
  simp

/-- **C12.**  The sign is symmetric in data and reference. -/
theorem permutationSign_symm {n : Nat} (hn : 0 < n) (f : Fin n → α) (hf : Function.Injective f)
    (σ τ : Perm (Fin n)) :
    permutationSign (List.ofFn (f ∘ σ)) (List.ofFn (f ∘ τ)) =
      permutationSign (List.ofFn (f ∘ τ)) (List.ofFn (f ∘ σ)) := by
  rw [permutationSign_eq_sign hn f hf, permutationSign_eq_sign hn f hf, mul_comm]

/-- the hypotheses are met, and the answers are not constant: a 3-cycle and a transposition -/
example : permutationSign [20, 30, 10] [10, 20, 30] = some 1 ∧
    permutationSign [20, 10, 30] [10, 20, 30] = some (-1) := by
  constructor
  · have := permutationSign_eq_sign (n := 3) (by decide) (fun i => 10 * (i.val + 1)) (by decide)
      (swap 0 1 * swap 1 2) 1
    simpa [List.ofFn_succ, sign_swap, swap_apply_def] using this
  · have := permutationSign_eq_sign (n := 3) (by decide) (fun i => 10 * (i.val + 1)) (by decide)
      (swap 0 1) 1
    simpa [List.ofFn_succ, sign_swap, swap_apply_def] using this

/-- **C12.**  Arrays with different elements are rejected by the assertion. -/
theorem permutationSign_none (a b : List α) (h : ¬ a.Perm b) : permutationSign a b = none := by
  simp [permutationSign, sameElements, List.isPerm_iff, h]

/-- **C13.**  On arrays with a repeated element no sign can be antisymmetric: exchanging the two
equal entries does not change the array, so it does not change the answer of `permutation_sign`
either, and the answer is never its own negative. -/
theorem permutationSign_repeated {n : Nat} (f : Fin n → α) (i j : Fin n)
    (h : f i = f j) (r : List α) :
    permutationSign (List.ofFn (f ∘ swap i j)) r = permutationSign (List.ofFn f) r ∧
    ∀ s, permutationSign (List.ofFn f) r = some s → s ≠ -s := by
  constructor
  · congr 2
    funext k
    simp only [Function.comp_apply, swap_apply_def]
    split
    · rename_i e; rw [e, h]
    · split
      · rename_i e; rw [e, h]
      · rfl
  · intro s hs
    unfold permutationSign at hs
    split at hs
    · simp at hs
    · cases hk : swapSort (List.ofFn f) r with
      | none => simp [hk] at hs
      | some k => simp [hk] at hs; split at hs <;> omega

/-- **C13.**  The answers on a concrete array with a repeated element, none of which raises an
error. -/
theorem permutationSign_repeated_witness :
    permutationSign [5, 5, 7] [5, 5, 7] = some 1 ∧
    permutationSign [7, 5, 5] [5, 5, 7] = some 1 ∧
    permutationSign [5, 7, 5] [5, 5, 7] = some (-1) := by
  have h : ∀ l : List Nat, l.isPerm [5, 5, 7] = true →
      permutationSign l [5, 5, 7] = (swapSort l [5, 5, 7]).map fun k => if k % 2 = 0 then 1 else -1 :=
    fun l hl => by simp [permutationSign, sameElements, hl]
  refine ⟨?_, ?_, ?_⟩ <;> rw [h _ (by decide)] <;> simp [swapSort, putBack]

end Mito.Combinatorics
