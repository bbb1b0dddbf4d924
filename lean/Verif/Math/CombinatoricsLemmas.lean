import Verif.Math.Combinatorics
import Mathlib.GroupTheory.Perm.Sign
import Mathlib.Data.List.OfFn

/-! # Helper lemmas for `permutation_sign` -/

set_option linter.unusedSimpArgs false
set_option linter.unusedVariables false

namespace Mito.Combinatorics

open Equiv Equiv.Perm

variable {α β : Type*} [DecidableEq α] [DecidableEq β]

theorem putBack_eq_map (x r : α) (l : List α) (hnd : l.Nodup) (hx : x ∉ l) (hr : r ∈ l) :
    putBack x r l = some (l.map (swap x r)) := by
  induction l with
  | nil => simp at hr
  | cons y ys ih =>
    simp only [List.nodup_cons, List.mem_cons, not_or] at hnd hx hr
    simp only [putBack]
    split
    · rename_i e
      subst e
      have : ys.map (swap x r) = ys := by
        conv_rhs => rw [← List.map_id ys]
        apply List.map_congr_left
        intro z hz
        exact swap_apply_of_ne_of_ne (fun e => hx.2 (e ▸ hz)) (fun e => hnd.1 (e ▸ hz))
      simp [this]
    · rename_i e
      have hr' : r ∈ ys := by tauto
      rw [ih hnd.2 hx.2 hr']
      simp [swap_apply_of_ne_of_ne (Ne.symm hx.1) (Ne.symm e)]

theorem putBack_map (f : α → β) (hf : Function.Injective f) (x r : α) (l : List α) :
    putBack (f x) (f r) (l.map f) = (putBack x r l).map (List.map f) := by
  induction l with
  | nil => rfl
  | cons y ys ih =>
    simp only [putBack, List.map_cons, hf.eq_iff]
    split
    · rfl
    · rw [ih]; cases putBack x r ys <;> simp

theorem swapSort_map (f : α → β) (hf : Function.Injective f) (n : Nat) :
    ∀ (a r : List α), a.length = n → swapSort (a.map f) (r.map f) = swapSort a r := by
  induction n with
  | zero => intro a r h; simp at h; subst h; simp [swapSort]
  | succ n ih =>
    intro a r h
    match a, r, h with
    | [x], r, _ => simp [swapSort]
    | x :: y :: t, [], _ => simp [swapSort]
    | x :: y :: t, r :: rs, h =>
      simp only [List.map_cons]
      rw [swapSort, swapSort]
      simp only [hf.eq_iff]
      split
      · have := ih (y :: t) rs (by simpa using h)
        simpa using this
      · have hp := putBack_map f hf x r (y :: t)
        simp only [List.map_cons] at hp
        cases hc : putBack x r (y :: t) with
        | none =>
          rw [hc] at hp
          simp at hp
          split
          · rfl
          · simp_all
        | some t' =>
          rw [hc] at hp
          simp at hp
          have hlen : t'.length = n := by
            have : ∀ (l l' : List α), putBack x r l = some l' → l'.length = l.length := by
              intro l
              induction l with
              | nil => intro l' h; simp [putBack] at h
              | cons z zs ih =>
                intro l' h
                simp only [putBack] at h
                split at h
                · simp at h; rw [← h]; rfl
                · cases hz : putBack x r zs with
                  | none => simp [hz] at h
                  | some u => simp [hz] at h; rw [← h]; simp [ih u hz]
            rw [this _ _ hc]; simpa using h
          split
          · simp_all
          · rename_i u hu
            rw [hp] at hu
            simp at hu
            rw [← hu, ih _ rs hlen]

/-- the swaps performed by the loop compose to a permutation of the elements whose sign is the
parity of their number -/
theorem swapSort_spec [Fintype α] (n : Nat) : ∀ (a r : List α), a.length = n + 1 → a.Nodup →
    a.Perm r → ∃ (k : Nat) (π : Perm α), swapSort a r = some k ∧ a.map π = r ∧
      (∀ z, z ∉ a → π z = z) ∧ ((sign π : ℤˣ) : ℤ) = if k % 2 = 0 then 1 else -1 := by
  induction n with
  | zero =>
    intro a r h hnd hp
    match a, h with
    | [x], _ =>
      refine ⟨0, 1, by simp [swapSort], ?_, by simp, by simp⟩
      simpa using (List.perm_singleton.mp hp.symm).symm
  | succ n ih =>
    intro a r h hnd hp
    match a, r, h with
    | x :: y :: t, [], _ => simp at hp
    | x :: y :: t, r :: rs, h =>
      rw [swapSort]
      split
      · rename_i e
        subst e
        have hp' := List.Perm.cons_inv hp
        rw [List.nodup_cons] at hnd
        obtain ⟨k, π, h1, h2, h3, h4⟩ := ih (y :: t) rs (by simpa using h) hnd.2 hp'
        refine ⟨k, π, h1, ?_, ?_, h4⟩
        · rw [List.map_cons, h2, h3 r hnd.1]
        · intro z hz; exact h3 z (fun hm => hz (List.mem_cons_of_mem _ hm))
      · rename_i e
        rw [List.nodup_cons] at hnd
        have hr : r ∈ y :: t := by
          have : r ∈ x :: y :: t := hp.symm.subset (List.mem_cons_self)
          rw [List.mem_cons] at this
          rcases this with h | h
          · exact absurd h e
          · exact h
        have hpb := putBack_eq_map x r (y :: t) hnd.2 hnd.1 hr
        have hndm : ((y :: t).map (swap x r)).Nodup := hnd.2.map (swap x r).injective
        have hperm : ((y :: t).map (swap x r)).Perm rs := by
          have h1 : ((x :: y :: t).map (swap x r)).Perm (x :: y :: t) := by
            rw [List.perm_ext_iff_of_nodup ((List.nodup_cons.mpr hnd).map (swap x r).injective)
              (List.nodup_cons.mpr hnd)]
            intro z
            simp only [List.mem_map]
            have key : ∀ u, u ∈ x :: y :: t → swap x r u ∈ x :: y :: t := by
              intro u hu
              by_cases h1 : u = x
              · rw [h1, swap_apply_left]; exact List.mem_cons_of_mem _ hr
              · by_cases h2 : u = r
                · rw [h2, swap_apply_right]; exact List.mem_cons_self
                · rw [swap_apply_of_ne_of_ne h1 h2]; exact hu
            constructor
            · rintro ⟨u, hu, rfl⟩; exact key u hu
            · intro hz; exact ⟨swap x r z, key z hz, by simp⟩
          have h2 := h1.trans hp
          rw [List.map_cons, swap_apply_left] at h2
          exact List.Perm.cons_inv h2
        obtain ⟨k, π, h1, h2, h3, h4⟩ :=
          ih ((y :: t).map (swap x r)) rs (by simpa using h) hndm hperm
        have hrm : r ∉ (y :: t).map (swap x r) := by
          intro hm
          rw [List.mem_map] at hm
          obtain ⟨u, hu, he⟩ := hm
          have : u = x := by
            have := congrArg (swap x r) he
            simpa using this
          exact hnd.1 (this ▸ hu)
        refine ⟨k + 1, π * swap x r, ?_, ?_, ?_, ?_⟩
        · split
          · rename_i hc; rw [hpb] at hc; simp at hc
          · rename_i u hc
            rw [hpb] at hc
            simp only [Option.some.injEq] at hc
            rw [← hc, h1]; rfl
        · have : (y :: t).map (π * swap x r) = rs := by
            rw [← h2, List.map_map]; rfl
          rw [List.map_cons, this]
          simp [h3 r hrm]
        · intro z hz
          rw [List.mem_cons, not_or] at hz
          have h1 : z ≠ r := fun e => hz.2 (e ▸ hr)
          have h2 : swap x r z = z := swap_apply_of_ne_of_ne hz.1 h1
          simp only [Perm.coe_mul, Function.comp_apply, h2]
          apply h3
          intro hm
          rw [List.mem_map] at hm
          obtain ⟨u, hu, he⟩ := hm
          have : u = z := by
            have := congrArg (swap x r) he
            rw [h2] at this
            simpa using this
          exact hz.2 (this ▸ hu)
        · rw [sign_mul, sign_swap (Ne.symm e)]
          push_cast
          rw [h4]
          rcases Nat.mod_two_eq_zero_or_one k with hk | hk <;> simp [hk, Nat.add_mod]

theorem swapSort_ofFn {n : Nat} (hn : 0 < n) (σ : Perm (Fin n)) :
    ∃ k, swapSort (List.ofFn σ) (List.ofFn id) = some k ∧
      ((sign σ : ℤˣ) : ℤ) = if k % 2 = 0 then 1 else -1 := by
  obtain ⟨m, rfl⟩ : ∃ m, n = m + 1 := ⟨n - 1, by omega⟩
  have hnd : (List.ofFn σ).Nodup := List.nodup_ofFn.mpr σ.injective
  have hp : (List.ofFn σ).Perm (List.ofFn id) := by
    rw [List.perm_ext_iff_of_nodup hnd (List.nodup_ofFn.mpr Function.injective_id)]
    intro z
    simp only [List.mem_ofFn]
    exact ⟨fun _ => ⟨z, rfl⟩, fun _ => ⟨σ.symm z, by simp⟩⟩
  obtain ⟨k, π, h1, h2, -, h4⟩ := swapSort_spec m _ _ (by simp) hnd hp
  refine ⟨k, h1, ?_⟩
  have : π * σ = 1 := by
    rw [List.map_ofFn] at h2
    have := List.ofFn_injective h2
    ext i
    have := congrFun this i
    simp at this
    simp [this]
  have hs : σ = π⁻¹ := by rw [eq_inv_iff_mul_eq_one]; exact mul_eq_one_comm.mp this
  rw [hs, sign_inv, h4]

end Mito.Combinatorics
