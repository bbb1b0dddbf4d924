import Verif.Fem.FieldProgram
import Verif.Fem.BlocksLemmas
import Verif.Props.DiscreteField

/-! # Lemmas for fields that are set at the nodes -/

namespace Mito.Fem

open Mito.Functions Mito.Numbering Mito.Discretizer Mito.Assoc

variable {d n : Nat}

theorem assignNodes_spec {map : Map Nat} {g : Nat → ℝ} {φ : Nat → Nat} (ks : List Nat) (F : DiscreteField.Field Nat ℝ)
    (h : ∀ k ∈ ks, lookup map k = some (φ k) ∧ (get F (φ k)).isSome) (hi : ∀ k ∈ ks, ∀ k' ∈ ks, φ k = φ k' → k = k') :
    ∃ F', assignNodes map g F ks = some F' ∧ (∀ k ∈ ks, get F' (φ k) = some (g k)) ∧ ∀ v, (∀ k ∈ ks, φ k ≠ v) → get F' v = get F v := by
  induction ks generalizing F with
  | nil => exact ⟨F, rfl, by simp, by simp⟩
  | cons k ks ih =>
    obtain ⟨h1, h2⟩ := h k List.mem_cons_self
    obtain ⟨w, hw⟩ := Option.isSome_iff_exists.mp h2
    have hset : ∀ v, get (Assoc.set F (φ k) (g k)) v = if φ k = v then some (g k) else get F v := by
      intro v
      rw [get_set]
      by_cases e : φ k = v
      · subst e
        simp [hw]
      · simp [e, Ne.symm e]
    obtain ⟨F', a1, a2, a3⟩ := ih (Assoc.set F (φ k) (g k)) (fun k' hk' => ⟨(h k' (List.mem_cons_of_mem _ hk')).1, by
        rw [hset]
        split
        · rfl
        · exact (h k' (List.mem_cons_of_mem _ hk')).2⟩)
      (fun a ha b hb => hi a (List.mem_cons_of_mem _ ha) b (List.mem_cons_of_mem _ hb))
    refine ⟨F', by simp only [assignNodes, h1, DiscreteField.step, hw]; exact a1, ?_, ?_⟩
    · intro k' hk'
      by_cases hm : k' ∈ ks
      · exact a2 k' hm
      · obtain rfl : k' = k := by simpa [hm] using hk'
        rw [a3 (φ k') fun x hx e => hm (by
          rw [← hi x (List.mem_cons_of_mem _ hx) k' List.mem_cons_self e]; exact hx), hset, if_pos rfl]
    · intro v hv
      rw [a3 v fun x hx => hv x (List.mem_cons_of_mem _ hx), hset, if_neg (hv k List.mem_cons_self)]

theorem mapM_localize {F : DiscreteField.Field Nat ℝ} (l : List (Element d n × List Nat))
    (h : ∀ ec ∈ l, ∀ v ∈ ec.2, (get F v).isSome) : (l.mapM fun ec => localizeNodes F ec.1 ec.2) =
      some (l.map fun ec => localize ec.1 (fun a => ec.2.getD a 0) (.fem fun v => (get F v).getD 0)) := by
  induction l with
  | nil => rfl
  | cons ec l ih =>
    have h1 : localizeNodes F ec.1 ec.2 = some (localize ec.1 (fun a => ec.2.getD a 0) (.fem fun v => (get F v).getD 0)) := by
      rw [localizeNodes, if_pos (by
        rw [List.all_eq_true]
        exact h ec List.mem_cons_self)]
      rfl
    rw [List.mapM_cons, h1, ih fun e he => h e (List.mem_cons_of_mem _ he)]
    rfl

theorem ofKeys_isSome (debug : Bool) {order : List Nat} (ho : order.Nodup) : ∃ F : DiscreteField.Field Nat ℝ,
    DiscreteField.ofKeys debug 0 order = some F ∧ ∀ k, get F k = if k ∈ order then some 0 else none := by
  have key : ∀ (order : List Nat) (F : DiscreteField.Field Nat ℝ), order.Nodup → (∀ k ∈ order, get F k = none) →
      ∃ F', DiscreteField.run debug F (order.map fun k => .insert k 0) = some F' := by
    intro order
    induction order with
    | nil => exact fun F _ _ => ⟨F, rfl⟩
    | cons k ks ih =>
      intro F hn hk
      rw [List.nodup_cons] at hn
      obtain ⟨F', hF⟩ := ih (Assoc.insert F k 0) hn.2 fun x hx => by
        rw [get_insert, hk x (List.mem_cons_of_mem _ hx)]
        have : ¬ k = x := fun e => hn.1 (e ▸ hx)
        simp [this]
      refine ⟨F', ?_⟩
      simp only [List.map_cons, DiscreteField.run, DiscreteField.step, hk k List.mem_cons_self]
      simpa using hF
  obtain ⟨F, hF⟩ := key order [] ho (by simp)
  exact ⟨F, hF, DiscreteField.field_ofKeys debug 0 order F hF⟩

/-- the values of the field after the program, and its result -/
theorem fieldProgram_spec (debug : Bool) {order : List Nat} (ho : order.Nodup) {map : Map Nat} {conn : List (List Nat)} {g : Nat → ℝ}
    {elements : List (Element d n)} {cells : List (List Nat)} {φ : Nat → Nat} (hconn : ∀ e ∈ conn, ∀ v ∈ e, v ∈ order)
    (hk : ∀ k ∈ cells.flatten, lookup map k = some (φ k) ∧ φ k ∈ order)
    (hi : ∀ k ∈ cells.flatten, ∀ k' ∈ cells.flatten, φ k = φ k' → k = k') :
    ∃ u : Nat → ℝ, fieldProgram debug order map conn g elements cells =
        some ((elements.zip conn).map fun ec => localize ec.1 (fun a => ec.2.getD a 0) (.fem u)) ∧
      (∀ k ∈ cells.flatten, u (φ k) = g k) ∧ ∀ v, (∀ k ∈ cells.flatten, φ k ≠ v) → u v = 0 := by
  obtain ⟨F, h1, h2⟩ := ofKeys_isSome debug ho
  obtain ⟨F', a1, a2, a3⟩ := assignNodes_spec (g := g) cells.flatten F (fun k hm => ⟨(hk k hm).1, by rw [h2, if_pos (hk k hm).2]; rfl⟩) hi
  refine ⟨fun v => (get F' v).getD 0, ?_, fun k hm => by beta_reduce; rw [a2 k hm]; rfl, fun v hv => ?_⟩
  · simp only [fieldProgram, h1, a1]
    refine mapM_localize _ fun ec hec v hv => ?_
    by_cases e : ∃ k ∈ cells.flatten, φ k = v
    · obtain ⟨k, hm, rfl⟩ := e
      rw [a2 k hm]; rfl
    · push Not at e
      rw [a3 v e, h2, if_pos (hconn ec.2 (List.of_mem_zip hec).2 v hv)]
      rfl
  · beta_reduce
    rw [a3 v hv, h2]
    split <;> rfl

/-- the derivative of the parametrization in the symbolic calculus is the jacobian -/
theorem parametrization_derivative {e : Element d n} (h : IsElement e) (ξ : Val (.vec d)) (j k : Fin d) :
    (e.parametrization.derivative k).eval ξ j = e.jacobian ξ (j, k) := by
  have tri : ∀ x : Fin 3 → Val (.vec 2), ∀ (ξ : Val (.vec 2)) (j k : Fin 2),
      ((Geometry.parametrization (n := 1) x).derivative k).eval ξ j = if k = 0 then x 0 j - x 2 j else x 1 j - x 2 j := by
    intro x ξ j k
    rw [Geometry.parametrization, derivative_sumList, List.map_map, ← List.ofFn_eq_map, List.sum_ofFn, Finset.sum_apply, Fin.sum_univ_three]
    fin_cases k <;>
    simp [Geometry.xi, Geometry.lastXi, Expr.derivative, Expr.eval, Expr.constSub, Expr.addConst, Expr.neg, Expr.smul, mul, Expr.sub,
      Expr.add, List.finRange] <;> ring
  cases h with
  | seg1 x =>
    obtain ⟨h0, h1⟩ := seg1_dshape ξ k
    obtain ⟨h0', h1'⟩ := seg1_dshape ξ 0
    fin_cases j
    rw [gradient_eval] at h0 h1
    simp [segP1, Expr.derivative, Expr.eval, mul, h0, h1, h0', h1', Fin.sum_univ_two]
  | tri1 x =>
    obtain ⟨h0, h1, h2⟩ := tri1_dshape ξ k
    simp only [triP1]
    rw [tri]
    simp only [dyadic, Pi.add_apply, h0, h1, h2]
    fin_cases k <;> simp <;> ring
  | tri2 x =>
    obtain ⟨h0, h1, h2, h3, h4, h5⟩ := tri2_dshape ξ k
    simp only [triP2]
    rw [tri]
    simp only [dyadic, Pi.add_apply, h0, h1, h2, h3, h4, h5, nodesTri2]
    fin_cases k <;> simp <;> ring

end Mito.Fem
