import Verif.Utilities.Assoc
import Mathlib.Data.List.Basic
import Mathlib.Data.List.Nodup

/-! # Helpers about association lists -/

namespace Mito.Assoc

variable {κ V : Type} [DecidableEq κ]

/-- the keys of a map -/
def keys (m : List (κ × V)) : List κ := m.map (·.1)

@[simp] theorem get_nil (k : κ) : get ([] : List (κ × V)) k = none := rfl

theorem get_cons (e : κ × V) (m : List (κ × V)) (k : κ) :
    get (e :: m) k = if e.1 = k then some e.2 else get m k := by
  unfold get
  by_cases h : e.1 = k <;> simp [h]

theorem get_append (m m' : List (κ × V)) (k : κ) : get (m ++ m') k = (get m k).or (get m' k) := by
  simp only [get, List.find?_append]
  exact Option.map_or

theorem get_none {m : List (κ × V)} {k : κ} : get m k = none ↔ k ∉ keys m := by
  simp only [get, Option.map_eq_none_iff, List.find?_eq_none, decide_eq_true_eq, keys, List.mem_map,
    not_exists, not_and]

theorem get_mem {m : List (κ × V)} {k : κ} {v : V} (h : get m k = some v) : (k, v) ∈ m := by
  simp only [get, Option.map_eq_some_iff] at h
  obtain ⟨⟨k', v'⟩, h1, rfl⟩ := h
  have := List.mem_of_find?_eq_some h1
  have h2 := List.find?_some h1
  simp only [decide_eq_true_eq] at h2
  rw [← h2]; exact this

theorem get_of_mem {m : List (κ × V)} (hm : (keys m).Nodup) {k : κ} {v : V} (h : (k, v) ∈ m) :
    get m k = some v := by
  induction m with
  | nil => simp at h
  | cons e m ih =>
    rw [keys, List.map_cons, List.nodup_cons] at hm
    rw [get_cons]
    rcases List.mem_cons.mp h with rfl | h
    · simp
    · have : e.1 ≠ k := fun he => hm.1 (he ▸ List.mem_map.mpr ⟨_, h, rfl⟩)
      rw [if_neg this, ih hm.2 h]

theorem insert_of_some {m : List (κ × V)} {k : κ} {v w : V} (h : get m k = some w) :
    insert m k v = m := by rw [insert, h]

theorem insert_of_none {m : List (κ × V)} {k : κ} {v : V} (h : get m k = none) :
    insert m k v = m ++ [(k, v)] := by rw [insert, h]

theorem get_insert (m : List (κ × V)) (k : κ) (v : V) (k' : κ) :
    get (insert m k v) k' = if k = k' then some ((get m k).getD v) else get m k' := by
  rcases h : get m k with _ | w
  · rw [insert_of_none h, get_append]
    by_cases e : k = k'
    · subst e; simp [h, get_cons]
    · simp [get_cons, e]
  · rw [insert_of_some h]
    by_cases e : k = k'
    · subst e; simp [h]
    · simp [e]

theorem keys_insert (m : List (κ × V)) (k : κ) (v : V) :
    keys (insert m k v) = if k ∈ keys m then keys m else keys m ++ [k] := by
  rcases h : get m k with _ | w
  · rw [insert_of_none h, if_neg (get_none.mp h)]
    simp [keys]
  · rw [insert_of_some h, if_pos]
    by_contra hc
    rw [get_none.mpr hc] at h
    simp at h

theorem keys_insert_nodup {m : List (κ × V)} (hm : (keys m).Nodup) (k : κ) (v : V) :
    (keys (insert m k v)).Nodup := by
  rw [keys_insert]
  split
  · exact hm
  · rename_i h
    rw [List.nodup_append]
    refine ⟨hm, by simp, ?_⟩
    rintro a ha b hb rfl
    simp only [List.mem_singleton] at hb
    exact h (hb ▸ ha)

theorem keys_set (m : List (κ × V)) (k : κ) (v : V) : keys (set m k v) = keys m := by
  simp only [keys, set, List.map_map]
  apply List.map_congr_left
  intro e _
  simp only [Function.comp_apply]
  split <;> rfl

theorem get_set (m : List (κ × V)) (k : κ) (v : V) (k' : κ) :
    get (set m k v) k' = if k = k' then (get m k).map fun _ => v else get m k' := by
  induction m with
  | nil => simp [set]
  | cons e m ih =>
    rw [set, List.map_cons, get_cons, get_cons, get_cons, ← set, ih]
    by_cases h : e.1 = k <;> by_cases h' : e.1 = k' <;> by_cases h'' : k = k' <;> simp_all

end Mito.Assoc
