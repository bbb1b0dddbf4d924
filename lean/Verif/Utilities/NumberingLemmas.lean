import Verif.Utilities.Numbering
import Verif.Spec.Numbering
import Mathlib.Data.List.Nodup
import Mathlib.Data.List.Induction
import Mathlib.Tactic.Tauto

/-! # Helper lemmas for numberings -/

namespace Mito.Numbering

variable {κ : Type} [DecidableEq κ]

theorem mem_firsts {l : List κ} {x : κ} : x ∈ firsts l ↔ x ∈ l := by
  induction l with
  | nil => simp [firsts]
  | cons y l ih =>
    simp only [firsts, List.mem_cons, List.mem_filter, ih, decide_eq_true_eq]
    tauto

theorem firsts_nodup (l : List κ) : (firsts l).Nodup := by
  induction l with
  | nil => simp [firsts]
  | cons y l ih =>
    rw [firsts, List.nodup_cons]
    exact ⟨by simp, ih.filter _⟩

theorem firsts_append_singleton (l : List κ) (x : κ) :
    firsts (l ++ [x]) = if x ∈ l then firsts l else firsts l ++ [x] := by
  induction l with
  | nil => simp [firsts]
  | cons y l ih =>
    rw [List.cons_append, firsts, ih, firsts]
    by_cases hxy : x = y
    · subst hxy
      split <;> simp
    · by_cases hx : x ∈ l
      · simp [hx]
      · simp [hx, hxy]

theorem firsts_of_nodup {l : List κ} (h : l.Nodup) : firsts l = l := by
  induction l with
  | nil => rfl
  | cons y l ih =>
    rw [List.nodup_cons] at h
    rw [firsts, ih h.2, List.filter_eq_self.mpr]
    intro a ha
    simp only [decide_eq_true_eq]
    rintro rfl
    exact h.1 ha

theorem lookup_none {m : List (κ × Nat)} {k : κ} : lookup m k = none ↔ k ∉ m.map (·.1) := by
  simp only [lookup, Option.map_eq_none_iff, List.find?_eq_none, decide_eq_true_eq, List.mem_map,
    not_exists, not_and]

theorem lookup_zipIdx (l : List κ) (n : Nat) (k : κ) :
    lookup (l.zipIdx n) k = if k ∈ l then some (n + l.idxOf k) else none := by
  induction l generalizing n with
  | nil => simp [lookup]
  | cons x l ih =>
    by_cases hx : x = k
    · subst hx; simp [lookup, List.zipIdx_cons]
    · have := ih (n + 1)
      unfold lookup at this ⊢
      rw [List.zipIdx_cons, List.find?_cons_of_neg (by simpa using hx), this]
      have hx' : ¬ k = x := fun e => hx e.symm
      by_cases hk : k ∈ l
      · simp [hk, List.idxOf_cons_ne l hx]
        omega
      · simp [hk, hx']

theorem number_eq (start : Nat) (l : List κ) : number start l = (firsts l).zipIdx start := by
  have key : l.foldl step (([] : List (κ × Nat)), start) =
      ((firsts l).zipIdx start, start + (firsts l).length) := by
    induction l using List.reverseRecOn with
    | nil => simp [firsts]
    | append_singleton l x ih =>
      rw [List.foldl_append, ih, List.foldl_cons, List.foldl_nil, firsts_append_singleton]
      unfold step
      simp only [lookup_zipIdx, mem_firsts]
      by_cases hx : x ∈ l
      · simp [hx]
      · simp [hx, List.zipIdx_append]
        omega
  rw [number, key]

theorem lookup_number {start : Nat} {l : List κ} {k : κ} (h : k ∈ l) :
    lookup (number start l) k = some (start + (firsts l).idxOf k) := by
  rw [number_eq, lookup_zipIdx, if_pos (mem_firsts.mpr h)]

theorem number_length (start : Nat) (l : List κ) : (number start l).length = (firsts l).length := by
  rw [number_eq, List.length_zipIdx]

theorem idxOf_firsts_lt {l : List κ} {k : κ} (h : k ∈ l) :
    (firsts l).idxOf k < (firsts l).length := List.idxOf_lt_length_iff.mpr (mem_firsts.mpr h)

theorem getElem?_idxOf_firsts {l : List κ} {k : κ} (h : k ∈ l) :
    (firsts l)[(firsts l).idxOf k]? = some k := by
  rw [List.getElem?_eq_getElem (idxOf_firsts_lt h), List.getElem_idxOf]

theorem idxOf_firsts_inj {l : List κ} {k k' : κ} (h : k ∈ l) (h' : k' ∈ l) :
    (firsts l).idxOf k = (firsts l).idxOf k' ↔ k = k' := by
  constructor
  · intro e
    have h1 := getElem?_idxOf_firsts h
    rw [e, getElem?_idxOf_firsts h'] at h1
    simpa using h1.symm
  · rintro rfl; rfl

/-- filling a vector from the entries of the map, visited in any order -/
theorem foldl_set_zipIdx {α : Type} (g : κ → α) (l : List κ) (z : α) {order : List (κ × Nat)}
    {start : Nat} (h : order.Perm (l.zipIdx start)) :
    order.foldl (fun v e => v.set (e.2 - start) (g e.1)) (List.replicate l.length z) = l.map g := by
  have hlen : ∀ (o : List (κ × Nat)) (v : List α),
      (o.foldl (fun v e => v.set (e.2 - start) (g e.1)) v).length = v.length := by
    intro o
    induction o with
    | nil => simp
    | cons e o ih => intro v; rw [List.foldl_cons, ih, List.length_set]
  have hnd : (order.map (·.2)).Nodup := by
    rw [(h.map _).nodup_iff, List.zipIdx_map_snd]
    exact List.nodup_range'
  have hge : ∀ e ∈ order, start ≤ e.2 := by
    intro e he
    have := (h.map (·.2)).mem_iff.mp (List.mem_map.mpr ⟨e, he, rfl⟩)
    rw [List.zipIdx_map_snd, List.mem_range'_1] at this
    exact this.1
  -- entry `i` after the loop
  have hget : ∀ (o : List (κ × Nat)) (v : List α) (i : Nat), i < v.length → (o.map (·.2)).Nodup →
      (∀ e ∈ o, start ≤ e.2) →
      (o.foldl (fun v e => v.set (e.2 - start) (g e.1)) v)[i]? =
        match o.find? fun e => e.2 = start + i with
        | some e => some (g e.1)
        | none => v[i]? := by
    intro o
    induction o with
    | nil => intro v i hi _ _; simp
    | cons e o ih =>
      intro v i hi hn hg
      rw [List.map_cons, List.nodup_cons] at hn
      rw [List.foldl_cons, ih _ i (by simpa using hi) hn.2 fun e he => hg e (by simp [he])]
      have hse := hg e (by simp)
      by_cases he : e.2 = start + i
      · have : o.find? (fun e => e.2 = start + i) = none := by
          rw [List.find?_eq_none]
          intro e' he'
          simp only [decide_eq_true_eq]
          intro h'
          exact hn.1 (List.mem_map.mpr ⟨e', he', by rw [h', he]⟩)
        rw [this, List.find?_cons_of_pos (by simpa using he)]
        have hi' : e.2 - start = i := by omega
        simp only [hi']
        rw [List.getElem?_set_self hi]
      · rw [List.find?_cons_of_neg (by simpa using he)]
        have hi' : e.2 - start ≠ i := by omega
        rw [List.getElem?_set_ne hi']
  apply List.ext_getElem?
  intro i
  by_cases hi : i < l.length
  · rw [hget order _ i (by simpa using hi) hnd hge]
    have hmem : (l[i], start + i) ∈ order :=
      h.mem_iff.mpr (List.mk_add_mem_zipIdx_iff_getElem?.mpr (by simp [hi]))
    rcases hf : order.find? (fun e => e.2 = start + i) with _ | ⟨k, j⟩
    · rw [List.find?_eq_none] at hf
      exact absurd (hf _ hmem) (by simp)
    · have h1 := List.mem_of_find?_eq_some hf
      have h2 : j = start + i := by simpa using List.find?_some hf
      subst h2
      have h3 := List.mk_add_mem_zipIdx_iff_getElem?.mp (h.mem_iff.mp h1)
      rw [hf, List.getElem?_map, h3]; rfl
  · rw [List.getElem?_eq_none (by rw [hlen]; simpa using hi),
      List.getElem?_eq_none (by simpa using hi)]

theorem allSome_map {α β : Type} {l : List α} {f : α → Option β} {g : α → β}
    (h : ∀ x ∈ l, f x = some (g x)) : allSome (l.map f) = some (l.map g) := by
  induction l with
  | nil => rfl
  | cons a l ih =>
    rw [List.map_cons, h a (by simp), allSome, ih fun x hx => h x (by simp [hx])]
    rfl

end Mito.Numbering
