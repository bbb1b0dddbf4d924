import Verif.Spec.VTKFields
import Verif.IO.VTKLemmas
import Verif.Utilities.AssocLemmas

/-! # Helpers about VTK files with fields -/

namespace Mito.VTK

open Mito.Numbering Mito.Tensor Mito.Geometry

variable {κ C R : Type} [DecidableEq κ]

theorem fillTuples_some (values : DiscreteField.Field κ (List R)) (l : List (κ × Nat)) (v : List (Option (List R)))
    (h : ∀ e ∈ l, ∃ x, DiscreteField.read values e.1 = some x) :
    fillTuples values l v = some (l.foldl (fun v e => v.set e.2 (DiscreteField.read values e.1)) v) := by
  induction l generalizing v with
  | nil => rfl
  | cons e l ih =>
    obtain ⟨x, hx⟩ := h e (by simp)
    obtain ⟨k, i⟩ := e
    rw [fillTuples, hx, List.foldl_cons, hx]
    exact ih _ fun e he => h e (by simp [he])

theorem fillTuples_none (values : DiscreteField.Field κ (List R)) (l : List (κ × Nat)) (v : List (Option (List R)))
    (h : ∃ e ∈ l, DiscreteField.read values e.1 = none) : fillTuples values l v = none := by
  induction l generalizing v with
  | nil => simp at h
  | cons e l ih =>
    obtain ⟨k, i⟩ := e
    rw [fillTuples]
    rcases hx : DiscreteField.read values k with _ | x
    · rfl
    · obtain ⟨e, he, hn⟩ := h
      rcases List.mem_cons.mp he with rfl | he
      · rw [hx] at hn; simp at hn
      · exact ih _ ⟨e, he, hn⟩

theorem Sound.zipIdx {w : FieldWriter κ C R} (h : Sound w) : w.nodes = (w.nodes.map (·.1)).zipIdx 0 := by
  have hl : w.nodes.length = w.grid.points.length := by
    have := congrArg List.length h.nodes
    simpa using this
  apply List.ext_getElem?
  intro i
  rcases hi : w.nodes[i]? with _ | e
  · rw [List.getElem?_eq_none]
    simpa using hi
  · have h1 : (w.nodes.map (·.2))[i]? = some e.2 := by simp [hi]
    rw [h.nodes] at h1
    have h2 := List.getElem?_eq_some_iff.mp h1
    obtain ⟨_, h3⟩ := h2
    rw [List.getElem_range] at h3
    rw [List.getElem?_zipIdx, List.getElem?_map, hi, h3]
    simp

/-- the tuples of a recorded field -/
theorem fill_sound {w : FieldWriter κ C R} (h : Sound w) (field : NamedField κ R) (hc : Covers w field) {order : List (κ × Nat)}
    (ho : order.Perm w.nodes) :
    fillTuples field.values order (List.replicate w.grid.points.length none) =
      some (w.nodes.map fun e => DiscreteField.read field.values e.1) := by
  rw [fillTuples_some _ _ _ fun e he => hc e (ho.mem_iff.mp he)]
  have hz := h.zipIdx
  have hl : (w.nodes.map (·.1)).length = w.grid.points.length := by
    have := congrArg List.length h.nodes
    simpa using this
  rw [hz] at ho
  have := foldl_set_zipIdx (fun k => DiscreteField.read field.values k) (w.nodes.map (·.1)) none ho
  simp only [Nat.sub_zero, hl] at this
  rw [this, List.map_map]
  rfl

theorem shows_fill {w : FieldWriter κ C R} (h : Sound w) (field : NamedField κ R) (hc : Covers w field) (n : String) :
    Shows w field ⟨n, w.nodes.map fun e => DiscreteField.read field.values e.1⟩ := by
  have hl : w.nodes.length = w.grid.points.length := by
    have := congrArg List.length h.nodes
    simpa using this
  refine ⟨by simp [hl], ?_, ?_⟩
  · intro t ht
    obtain ⟨e, he, rfl⟩ := List.mem_map.mp ht
    obtain ⟨v, hv⟩ := hc e he
    simp [hv]
  · intro k i hi
    have : w.nodes[i]? = some (k, i) := by
      rw [h.zipIdx, List.mk_mem_zipIdx_iff_getElem?] at hi
      rw [h.zipIdx, List.getElem?_zipIdx, hi]
      simp
    simp [this]

theorem addColumn_mem (l : List (Column R)) (a b : Column R) :
    b ∈ addColumn l a ↔ b = a ∨ b ∈ l ∧ b.name ≠ a.name := by
  rw [addColumn]
  split
  · rename_i h
    simp only [List.any_eq_true, decide_eq_true_eq] at h
    obtain ⟨c, hc, hn⟩ := h
    simp only [List.mem_map]
    constructor
    · rintro ⟨d, hd, rfl⟩
      split
      · exact .inl rfl
      · exact .inr ⟨hd, by assumption⟩
    · rintro (rfl | ⟨hb, hn'⟩)
      · exact ⟨c, hc, by simp [hn]⟩
      · exact ⟨b, hb, by simp [hn']⟩
  · rename_i h
    simp only [List.any_eq_true, decide_eq_true_eq, not_exists, not_and] at h
    simp only [List.mem_append, List.mem_singleton]
    constructor
    · rintro (hb | rfl)
      · exact .inr ⟨hb, h b hb⟩
      · exact .inl rfl
    · rintro (rfl | ⟨hb, _⟩)
      · exact .inr rfl
      · exact .inl hb

theorem addColumn_names (l : List (Column R)) (a : Column R) :
    (addColumn l a).map (·.name) = if a.name ∈ l.map (·.name) then l.map (·.name) else l.map (·.name) ++ [a.name] := by
  rw [addColumn]
  have h : l.any (fun b => b.name = a.name) = true ↔ a.name ∈ l.map (·.name) := by
    simp only [List.any_eq_true, decide_eq_true_eq, List.mem_map]
  by_cases hm : a.name ∈ l.map (·.name)
  · rw [if_pos (h.mpr hm), if_pos hm, List.map_map]
    apply List.map_congr_left
    intro b _
    simp only [Function.comp_apply]
    split
    · rename_i e; exact e.symm
    · rfl
  · rw [if_neg (fun e => hm (h.mp e)), if_neg hm, List.map_append]
    rfl

theorem addColumn_nodup {l : List (Column R)} (a : Column R) (h : (l.map (·.name)).Nodup) :
    ((addColumn l a).map (·.name)).Nodup := by
  rw [addColumn_names]
  split
  · exact h
  · rename_i hm
    rw [List.nodup_append]
    refine ⟨h, by simp, ?_⟩
    intro x hx y hy
    simp only [List.mem_singleton] at hy
    subst hy
    exact fun e => hm (e ▸ hx)

/-! ### programs -/

theorem step_fixed (s : State κ C R) (e : Event κ R) :
    (s.step e).writer.nodes = s.writer.nodes ∧ (s.step e).writer.grid = s.writer.grid ∧
      (s.step e).fields.map (·.name) = s.fields.map (·.name) := by
  rcases e with ⟨f, k, v⟩ | ⟨f, name, order⟩
  · rw [State.step]
    rcases hf : s.fields[f]? with _ | x
    · simp
    · refine ⟨rfl, rfl, ?_⟩
      simp only
      apply List.ext_getElem?
      intro j
      simp only [List.getElem?_map, List.getElem?_set]
      split
      · rename_i e
        subst e
        split
        · simp [hf]
        · rename_i h
          rw [List.getElem?_eq_none (by omega)] at hf
          simp at hf
      · rfl
  · rw [State.step]
    rcases hf : s.fields[f]? with _ | x
    · simp
    · simp only
      rcases hr : s.writer.record order x name with _ | w
      · simp
      · rw [FieldWriter.record] at hr
        split at hr
        · simp at hr
        · obtain rfl := Option.some.inj hr
          simp

theorem run_fixed (s : State κ C R) (l : List (Event κ R)) :
    (s.run l).writer.nodes = s.writer.nodes ∧ (s.run l).writer.grid = s.writer.grid ∧
      (s.run l).fields.map (·.name) = s.fields.map (·.name) := by
  induction l generalizing s with
  | nil => simp [State.run]
  | cons e l ih =>
    obtain ⟨h1, h2, h3⟩ := ih (s.step e)
    obtain ⟨k1, k2, k3⟩ := step_fixed s e
    rw [State.run, List.foldl_cons]
    exact ⟨h1.trans k1, h2.trans k2, h3.trans k3⟩

theorem run_append (s : State κ C R) (l l' : List (Event κ R)) : s.run (l ++ l') = (s.run l).run l' := by
  simp [State.run, List.foldl_append]

theorem run_cons (s : State κ C R) (e : Event κ R) (l : List (Event κ R)) : s.run (e :: l) = (s.step e).run l := rfl

end Mito.VTK
