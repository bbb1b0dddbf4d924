import Verif.Props.Combinatorics

/-! # Helper lemmas: computing with `permutationSign` -/

set_option linter.unusedSimpArgs false
set_option linter.unusedVariables false

namespace Mito.Combinatorics

open Equiv Equiv.Perm

variable {α β : Type*} [DecidableEq α] [DecidableEq β]

theorem perm_of_permutationSign {a b : List α} {s : Int} (h : permutationSign a b = some s) :
    a.Perm b := by
  by_contra hn
  rw [permutationSign_none a b hn] at h
  simp at h

theorem permutationSign_values {a b : List α} {s : Int} (h : permutationSign a b = some s) :
    s = 1 ∨ s = -1 := by
  unfold permutationSign at h
  split at h
  · simp at h
  · cases hk : swapSort a b with
    | none => simp [hk] at h
    | some k => simp [hk] at h; split at h <;> simp [← h]

theorem exists_perm_of_perm {l l' : List α} (hnd : l.Nodup) (hp : l'.Perm l) :
    ∃ σ : Perm (Fin l.length), l' = List.ofFn (l.get ∘ σ) := by
  have hlen := hp.length_eq
  have hnd' : l'.Nodup := hp.nodup_iff.mpr hnd
  have h1 : ∀ i : Fin l.length, ∃ j : Fin l.length, l.get j = l'.get (i.cast hlen.symm) := by
    intro i
    have : l'.get (i.cast hlen.symm) ∈ l := hp.mem_iff.mp (List.get_mem _ _)
    obtain ⟨j, hj⟩ := List.get_of_mem this
    exact ⟨j, hj⟩
  choose g hg using h1
  have hinj : Function.Injective g := by
    intro i j hij
    have h2 : l'.get (i.cast hlen.symm) = l'.get (j.cast hlen.symm) := by rw [← hg, ← hg, hij]
    have h3 := List.nodup_iff_injective_get.mp hnd' h2
    simpa [Fin.ext_iff] using h3
  refine ⟨Equiv.ofBijective g (Finite.injective_iff_bijective.mp hinj), ?_⟩
  apply List.ext_get
  · simp [hlen]
  · intro n h1 h2
    simp only [List.get_ofFn]
    have := hg ⟨n, by omega⟩
    simp only [Function.comp, Equiv.ofBijective_apply]
    exact this.symm

theorem ofFn_get' (l : List α) : l = List.ofFn (l.get ∘ (1 : Perm (Fin l.length))) := by
  simp

/-- the sign of every rearrangement of a list without repetition -/
theorem permutationSign_some {a b : List α} (hne : a ≠ []) (hnd : b.Nodup) (hp : a.Perm b) :
    ∃ s, permutationSign a b = some s := by
  obtain ⟨σ, hσ⟩ := exists_perm_of_perm hnd hp
  have hpos : 0 < b.length := by
    rw [← hp.length_eq]; exact List.length_pos_iff.mpr hne
  have h := permutationSign_eq_sign hpos b.get (List.nodup_iff_injective_get.mp hnd) σ 1
  rw [← hσ, ← ofFn_get'] at h
  exact ⟨_, h⟩

theorem permutationSign_trans {a b c : List α} {s s' : Int} (hnd : b.Nodup)
    (h : permutationSign a b = some s) (h' : permutationSign b c = some s') :
    permutationSign a c = some (s * s') := by
  have hp := perm_of_permutationSign h
  have hp' := perm_of_permutationSign h'
  by_cases hne : b = []
  · subst hne
    simp [permutationSign, swapSort] at h'
  have hpos : 0 < b.length := List.length_pos_iff.mpr hne
  obtain ⟨σ, hσ⟩ := exists_perm_of_perm hnd hp
  obtain ⟨τ, hτ⟩ := exists_perm_of_perm hnd hp'.symm
  have hi := List.nodup_iff_injective_get.mp hnd
  have h1 := permutationSign_eq_sign hpos b.get hi σ 1
  have h2 := permutationSign_eq_sign hpos b.get hi 1 τ
  have h3 := permutationSign_eq_sign hpos b.get hi σ τ
  rw [← hσ, ← ofFn_get', h] at h1
  rw [← hτ, ← ofFn_get', h'] at h2
  rw [← hσ, ← hτ] at h3
  rw [h3]
  simp only [sign_one, Units.val_one, mul_one, one_mul, Option.some.injEq] at h1 h2
  rw [h1, h2]

theorem permutationSign_comm {a b : List α} {s : Int} (hnd : b.Nodup)
    (h : permutationSign a b = some s) : permutationSign b a = some s := by
  have hp := perm_of_permutationSign h
  by_cases hne : b = []
  · subst hne
    have : a = [] := hp.eq_nil
    subst this; exact h
  have hpos : 0 < b.length := List.length_pos_iff.mpr hne
  obtain ⟨σ, hσ⟩ := exists_perm_of_perm hnd hp
  have hi := List.nodup_iff_injective_get.mp hnd
  have h1 := permutationSign_symm hpos b.get hi σ 1
  rw [← hσ, ← ofFn_get', h] at h1
  exact h1.symm

theorem permutationSign_refl {a : List α} (hne : a ≠ []) (hnd : a.Nodup) :
    permutationSign a a = some 1 := by
  have h := permutationSign_self (List.length_pos_iff.mpr hne) a.get
    (List.nodup_iff_injective_get.mp hnd)
  simpa using h

/-- relabelling the elements does not change the sign -/
theorem permutationSign_map {a b : List α} {s : Int} (f : α → β) (hnd : b.Nodup)
    (hf : ∀ x ∈ b, ∀ y ∈ b, f x = f y → x = y) (h : permutationSign a b = some s) :
    permutationSign (a.map f) (b.map f) = some s := by
  have hp := perm_of_permutationSign h
  by_cases hne : b = []
  · subst hne
    have : a = [] := hp.eq_nil
    subst this; simp [permutationSign, swapSort] at h
  have hpos : 0 < b.length := List.length_pos_iff.mpr hne
  obtain ⟨σ, hσ⟩ := exists_perm_of_perm hnd hp
  have hi := List.nodup_iff_injective_get.mp hnd
  have hi' : Function.Injective (f ∘ b.get) := by
    intro i j hij
    exact hi (hf _ (List.get_mem _ _) _ (List.get_mem _ _) hij)
  have h1 := permutationSign_eq_sign hpos b.get hi σ 1
  have h2 := permutationSign_eq_sign hpos (f ∘ b.get) hi' σ 1
  rw [← hσ, ← ofFn_get', h] at h1
  rw [h1, ← h2]
  congr 1
  · conv_lhs => rw [hσ]
    rw [List.map_ofFn]; rfl
  · conv_lhs => rw [ofFn_get' b]
    rw [List.map_ofFn]; rfl

theorem permutationSign_of_swapSort {a b : List α} {k : Nat} (hp : a.Perm b)
    (hk : swapSort a b = some k) :
    permutationSign a b = some (if k % 2 = 0 then 1 else -1) := by
  simp [permutationSign, sameElements, List.isPerm_iff.mpr hp, hk]

theorem swapSort_cons (x y r : α) (t rs : List α) :
    swapSort (x :: y :: t) (r :: rs) = if r = x then swapSort (y :: t) rs
      else (putBack x r (y :: t)).bind fun t' => (swapSort t' rs).map (· + 1) := by
  rw [swapSort]
  split
  · rfl
  · split
    · rename_i h; rw [h]; rfl
    · rename_i t' h; rw [h]; rfl

theorem swapSort_refl (x : α) (l : List α) : swapSort (x :: l) (x :: l) = some 0 := by
  induction l generalizing x with
  | nil => simp [swapSort]
  | cons y l ih => rw [swapSort_cons, if_pos rfl, ih]

/-- exchanging the first two elements -/
theorem permutationSign_swap01 (a b : α) (l : List α) (h : (a :: b :: l).Nodup) :
    permutationSign (b :: a :: l) (a :: b :: l) = some (-1) := by
  have hab : a ≠ b := by simp at h; tauto
  have := permutationSign_of_swapSort (a := b :: a :: l) (b := a :: b :: l) (k := 1)
    (List.Perm.swap _ _ _) (by
      rw [swapSort_cons, if_neg hab]
      simp [putBack, swapSort_refl])
  simpa using this

/-- cyclic permutations of three elements are even -/
theorem permutationSign_cycle {a b c : α} (h : [a, b, c].Nodup) :
    permutationSign [c, a, b] [a, b, c] = some 1 := by
  have h1 := permutationSign_swap01 c a [b] (by simp at h ⊢; tauto)
  have h2 : permutationSign [c, b, a] [b, c, a] = some (-1) :=
    permutationSign_swap01 b c [a] (by simp at h ⊢; tauto)
  simp only [List.nodup_cons, List.mem_cons, List.not_mem_nil, or_false, not_or, not_false_eq_true,
    List.nodup_nil, and_true] at h
  have := permutationSign_of_swapSort (a := [c, a, b]) (b := [a, b, c]) (k := 2)
    (by rw [List.perm_ext_iff_of_nodup] <;> simp <;> tauto)
    (by simp [swapSort_cons, swapSort_refl, putBack, h.1.1, h.1.2, h.2, Ne.symm h.1.1,
          Ne.symm h.1.2, Ne.symm h.2])
  simpa using this

/-- the even permutations of three elements -/
theorem permutationSign_three {a b c : α} {l : List α} (h : [a, b, c].Nodup)
    (hs : permutationSign l [a, b, c] = some 1) :
    l = [a, b, c] ∨ l = [b, c, a] ∨ l = [c, a, b] := by
  have hp := perm_of_permutationSign hs
  have h1 : permutationSign [b, a, c] [a, b, c] = some (-1) := permutationSign_swap01 a b [c] h
  have hcyc := permutationSign_cycle h
  have hcyc' : permutationSign [b, c, a] [c, a, b] = some 1 :=
    permutationSign_cycle (by simp at h ⊢; tauto)
  have h2 : permutationSign [a, c, b] [c, a, b] = some (-1) :=
    permutationSign_swap01 c a [b] (by simp at h ⊢; tauto)
  have h3 : permutationSign [c, b, a] [b, c, a] = some (-1) :=
    permutationSign_swap01 b c [a] (by simp at h ⊢; tauto)
  have n1 : [c, a, b].Nodup := by simp at h ⊢; tauto
  have n2 : [b, c, a].Nodup := by simp at h ⊢; tauto
  have h2' := permutationSign_trans n1 h2 hcyc
  have h3' := permutationSign_trans n2 h3 (permutationSign_trans n1 hcyc' hcyc)
  have hlen := hp.length_eq
  match l, hlen with
  | [x, y, z], _ =>
    have hnd : [x, y, z].Nodup := hp.nodup_iff.mpr h
    have hx : x = a ∨ x = b ∨ x = c := by simpa using hp.mem_iff.mp (show x ∈ [x, y, z] by simp)
    have hy : y = a ∨ y = b ∨ y = c := by simpa using hp.mem_iff.mp (show y ∈ [x, y, z] by simp)
    have hz : z = a ∨ z = b ∨ z = c := by simpa using hp.mem_iff.mp (show z ∈ [x, y, z] by simp)
    rcases hx with rfl | rfl | rfl <;> rcases hy with rfl | rfl | rfl <;>
      rcases hz with rfl | rfl | rfl <;> simp_all

/-- two rearrangements by the same permutation of positions: general form.  If `p` is a fixed
rearrangement of positions, the sign of the rearranged lists is the sign of the lists -/
theorem permutationSign_comp {n : Nat} (hn : 0 < n) (f : Fin n → α) (hf : Function.Injective f)
    (σ τ π : Perm (Fin n)) :
    permutationSign (List.ofFn (f ∘ σ ∘ π)) (List.ofFn (f ∘ τ ∘ π)) =
      permutationSign (List.ofFn (f ∘ σ)) (List.ofFn (f ∘ τ)) := by
  have h1 := permutationSign_eq_sign hn f hf (σ * π) (τ * π)
  simp only [Perm.coe_mul] at h1
  rw [h1, permutationSign_eq_sign hn f hf, sign_mul, sign_mul]
  rcases Int.units_eq_one_or (sign π) with h | h <;> simp [h]

end Mito.Combinatorics
