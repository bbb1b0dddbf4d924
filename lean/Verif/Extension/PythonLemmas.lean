import Verif.Extension.Python
import Mathlib.Tactic.Common

/-! # Lemmas on Python programs -/

namespace Mito.Python

/-- references go to objects of the right kind, made before -/
def State.Typed (s : State) : Prop :=
  (∀ o m c : Nat, s.objs[o]? = some (Obj.manifold m c) → s.objs[m]? = some Obj.mesh ∧ s.objs[c]? = some Obj.coords) ∧
  ∀ o m : Nat, s.objs[o]? = some (Obj.integrator m) → ∃ a b, s.objs[m]? = some (Obj.manifold a b)

theorem typed_init : init.Typed := by
  refine ⟨fun o m c h => ?_, fun o m h => ?_⟩ <;> simp [init] at h

theorem getElem?_append_some {l : List α} {i : Nat} {a b : α} (h : l[i]? = some a) : (l ++ [b])[i]? = some a := by
  rw [List.getElem?_append_left (List.getElem?_eq_some_iff.mp h).1, h]

theorem getElem?_append_cases {l : List α} {i : Nat} {a b : α} (h : (l ++ [b])[i]? = some a) : l[i]? = some a ∨ (i = l.length ∧ b = a) := by
  rcases Nat.lt_or_ge i l.length with hi | hi
  · rw [List.getElem?_append_left hi] at h
    exact Or.inl h
  · rw [List.getElem?_append_right hi] at h
    have : i - l.length = 0 := by
      by_contra hne
      rw [List.getElem?_eq_none (by simp; omega)] at h
      cases h
    rw [this] at h
    exact Or.inr ⟨by omega, by simpa using h⟩

theorem typed_new {s : State} (h : s.Typed) (x : Nat) (o : Obj) (hm : ∀ m c, o = .manifold m c → s.objs[m]? = some .mesh ∧ s.objs[c]? = some .coords)
    (hi : ∀ m, o = .integrator m → ∃ a b, s.objs[m]? = some (.manifold a b)) : (s.new x o).Typed := by
  refine ⟨fun p m c hp => ?_, fun p m hp => ?_⟩
  · have hp' : (s.objs ++ [o])[p]? = some (.manifold m c) := hp
    rcases getElem?_append_cases hp' with hp | ⟨-, rfl⟩
    · exact ⟨getElem?_append_some (h.1 p m c hp).1, getElem?_append_some (h.1 p m c hp).2⟩
    · exact ⟨getElem?_append_some (hm m c rfl).1, getElem?_append_some (hm m c rfl).2⟩
  · have hp' : (s.objs ++ [o])[p]? = some (.integrator m) := hp
    rcases getElem?_append_cases hp' with hp | ⟨-, rfl⟩
    · obtain ⟨a, b, hab⟩ := h.2 p m hp
      exact ⟨a, b, getElem?_append_some hab⟩
    · obtain ⟨a, b, hab⟩ := hi m rfl
      exact ⟨a, b, getElem?_append_some hab⟩

/-- a statement keeps the references in order, whatever lives -/
theorem typed_step (live : State → Nat → Bool) {s t : State} (h : s.Typed) (c : Stmt) (hc : step live s c = .ok t) : t.Typed := by
  cases c with
  | coords x => cases hc; exact typed_new h x _ (by simp) (by simp)
  | field x => cases hc; exact typed_new h x _ (by simp) (by simp)
  | mesh x c =>
    simp only [step] at hc
    split at hc
    · cases hc; exact typed_new h x _ (by simp) (by simp)
    · cases hc
  | manifold x m c =>
    simp only [step] at hc
    split at hc
    · split at hc
      · rename_i m' c' _ _ _ _ hm hc'
        cases hc
        refine typed_new h x _ (fun a b e => ?_) (by simp)
        cases e
        exact ⟨hm, hc'⟩
      · cases hc
    · cases hc
  | integrator x m =>
    simp only [step] at hc
    split at hc
    · split at hc
      · split at hc
        · rename_i a b hm _
          cases hc
          refine typed_new h x _ (by simp) fun a e => ?_
          cases e
          exact ⟨_, _, hm⟩
        · cases hc
      · cases hc
    · cases hc
  | integrate i f =>
    simp only [step] at hc
    split at hc
    · split at hc
      · split at hc
        · cases hc; exact h
        · cases hc
      · cases hc
    · cases hc
  | assign x y =>
    simp only [step] at hc
    split at hc
    · cases hc; exact h
    · cases hc
  | delete x =>
    simp only [step] at hc
    split at hc
    · cases hc; exact h
    · cases hc

theorem alive_of_lookup {s : State} {x o : Nat} (h : s.lookup x = some o) : s.alive o = true := by
  simp only [State.lookup, Option.map_eq_some_iff] at h
  obtain ⟨p, hp, rfl⟩ := h
  exact List.any_eq_true.mpr ⟨p, List.mem_of_find?_eq_some hp, by simp⟩

theorem kept_of_alive {s : State} {o : Nat} (h : s.alive o = true) : kept s o = true := by simp [kept, h]

theorem kept_one {s : State} {p q : Nat} {a : Obj} (h : s.alive p = true) (hp : s.objs[p]? = some a) (hq : q ∈ a.refs) : kept s q = true := by
  simp only [kept, Bool.or_eq_true, List.any_eq_true, Bool.and_eq_true]
  refine Or.inr ⟨p, List.mem_range.mpr (List.getElem?_eq_some_iff.mp hp).1, h, q, ?_, Or.inl (by simp)⟩
  simpa [hp] using hq

theorem kept_two {s : State} {p q r : Nat} {a b : Obj} (h : s.alive p = true) (hp : s.objs[p]? = some a) (hq : q ∈ a.refs) (hb : s.objs[q]? = some b) (hr : r ∈ b.refs) :
    kept s r = true := by
  simp only [kept, Bool.or_eq_true, List.any_eq_true, Bool.and_eq_true]
  refine Or.inr ⟨p, List.mem_range.mpr (List.getElem?_eq_some_iff.mp hp).1, h, q, by simpa [hp] using hq, Or.inr ?_⟩
  simpa [hb] using hr

/-- what a statement touches is what its arguments refer to; if those live, nothing is undefined -/
theorem step_defined (live : State → Nat → Bool) {s : State} (h : s.Typed)
    (h1 : ∀ x p m c, s.lookup x = some p → s.objs[p]? = some (.manifold m c) → live s m = true ∧ live s c = true)
    (h2 : ∀ x p m a b, s.lookup x = some p → s.objs[p]? = some (.integrator m) → s.objs[m]? = some (.manifold a b) → live s m = true ∧ live s a = true ∧ live s b = true)
    (c : Stmt) : step live s c ≠ .undefined := by
  cases c with
  | coords x => simp [step]
  | field x => simp [step]
  | mesh x c => simp only [step]; split <;> simp
  | manifold x m c =>
    simp only [step]
    split
    · split <;> simp
    · simp
  | integrator x m =>
    simp only [step]
    split
    · split
      · rename_i ho
        have := h1 _ _ _ _ (by assumption) ho
        rw [if_pos (by simp [touchManifold, ho, this.1, this.2])]
        simp
      · simp
    · simp
  | integrate i f =>
    simp only [step]
    split
    · split
      · rename_i ho _
        obtain ⟨a, b, hab⟩ := h.2 _ _ ho
        have := h2 _ _ _ _ _ (by assumption) ho hab
        rw [if_pos (by simp [touchManifold, hab, this.1, this.2.1, this.2.2])]
        simp
      · simp
    · simp
  | assign x y => simp only [step]; split <;> simp
  | delete x => simp only [step]; split <;> simp

end Mito.Python
