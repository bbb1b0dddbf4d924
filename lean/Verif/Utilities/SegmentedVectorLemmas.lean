import Verif.Spec.SegmentedVector
import Verif.Utilities.SegmentedIteratorLemmas

/-! # Helper lemmas for the segmented vector -/

set_option linter.unusedSimpArgs false
set_option linter.unusedVariables false

namespace Mito.Alloc

/-- what an insertion returns -/
theorem Reachable.insert_cases {n : Nat} (hn : 0 < n) {w : World} (hw : Reachable n w) (b : Addr)
    (hb : FreshBlock w.alloc b) :
    w.loc b ∉ w.live ∧
    ((∃ a q, w.pending = a :: q ∧ w.loc b = a ∧ w.loc b ∈ w.slots ∧
        (locationForPlacement w.alloc b).2.2 = true ∧ (w.insert b).slots = w.slots) ∨
     (w.pending = [] ∧ w.loc b ∉ w.slots ∧ (locationForPlacement w.alloc b).2.2 = false ∧
        (w.insert b).slots = w.slots ++ [w.loc b])) := by
  obtain ⟨B, h⟩ := hw.inv hn
  cases hp : w.pending with
  | cons a q =>
    obtain ⟨h1, h2, h3, h4⟩ := h.insert_reuse hn b hp
    have hs : w.loc b ∈ w.slots := by rw [h1]; exact (h.mem a).2 (Or.inr (by simp [hp]))
    exact ⟨by rw [h1]; exact h.disj a (by simp [hp]), Or.inl ⟨a, q, rfl, h1, hs, h2, by
      simp [World.insert, hp]⟩⟩
  | nil =>
    have key : w.loc b ∉ w.live ∧ (locationForPlacement w.alloc b).2.2 = false := by
      rcases Nat.lt_or_eq_of_le h.len_le with hlt | heq
      · obtain ⟨h1, h2, h3, h4⟩ := h.insert_room hn b hp hlt
        exact ⟨h1, h3⟩
      · obtain ⟨h1, h2, h3, h4⟩ := h.insert_grow hn b hb hp heq
        exact ⟨h1, h3⟩
    refine ⟨key.1, Or.inr ⟨rfl, ?_, key.2, by simp [World.insert, hp]⟩⟩
    intro hm
    have := (h.mem _).1 hm
    rw [hp] at this
    simp at this
    exact key.1 this

theorem Reachable.slots_nodup {n : Nat} (hn : 0 < n) {w : World} (hw : Reachable n w) :
    w.slots.Nodup := by
  obtain ⟨B, h⟩ := hw.inv hn
  exact h.slots_nodup hn

theorem Reachable.mem_slots {n : Nat} (hn : 0 < n) {w : World} (hw : Reachable n w) (a : Addr) :
    a ∈ w.slots ↔ a ∈ w.live ∨ a ∈ w.pending := by
  obtain ⟨B, h⟩ := hw.inv hn
  exact h.mem a

end Mito.Alloc

namespace Mito.SegVec

open Mito.Alloc

variable {α : Type}

/-- coupling of a vector, its abstract map and a reachable allocator -/
structure Coupled (n : Nat) (v : SVec α) (m : Abs α) (known : Finset Addr) (w : World) : Prop where
  reach : Alloc.Reachable n w
  alloc : w.alloc = v.alloc
  live : ∀ a, a ∈ w.live ↔ m a ≠ none
  val : ∀ a x, m a = some x → v.mem a = some (x, true)
  dead : ∀ a o, m a = none → v.mem a = some o → o.2 = false
  mem : ∀ a, v.mem a ≠ none ↔ a ∈ w.slots
  known : ∀ a, a ∈ known ↔ a ∈ w.slots

theorem Coupled.init (n : Nat) : Coupled n (SVec.init n : SVec α) (fun _ => none) ∅
    ⟨.init n, ∅, [], []⟩ where
  reach := .init
  alloc := rfl
  live a := by simp
  val a x h := by simp at h
  dead a o _ h := by simp [SVec.init] at h
  mem a := by simp [SVec.init]
  known a := by simp

theorem Coupled.emplace {n : Nat} (hn : 0 < n) {v : SVec α} {m : Abs α} {known : Finset Addr}
    {w : World} (h : Coupled n v m known w) (x : α) (b : Addr) (hb : FreshBlock v.alloc b) :
    ∃ v', SegVec.emplace v (x, true) b = some (v', w.loc b) ∧
      (∀ a, a ≠ w.loc b → v'.mem a = v.mem a) ∧
      Coupled n v' (m.add (w.loc b) x) (insert (w.loc b) known) (w.insert b) := by
  have hb' : FreshBlock w.alloc b := by rw [h.alloc]; exact hb
  obtain ⟨hnl, hc⟩ := h.reach.insert_cases hn b hb'
  have hloc : (locationForPlacement v.alloc b).2.1 = w.loc b := by rw [← h.alloc]; rfl
  have main : SegVec.emplace v (x, true) b = some (⟨Alloc.insert (locationForPlacement v.alloc b).1,
      fun y => if y = w.loc b then some (x, true) else v.mem y⟩, w.loc b) := by
    rcases hc with ⟨a, q, hp, ha, hs, hr, _⟩ | ⟨hp, hs, hr, _⟩
    · rw [h.alloc] at hr
      have hm := (h.mem _).2 hs
      obtain ⟨o, ho⟩ := Option.ne_none_iff_exists'.mp hm
      simp only [SegVec.emplace, hloc, hr, if_true, destroyAt, ho, constructAt]
      congr 3
      funext y
      by_cases e : y = w.loc b <;> simp [e]
    · rw [h.alloc] at hr
      have hm : v.mem (w.loc b) = none := by
        by_contra hm
        exact hs ((h.mem _).1 hm)
      simp [SegVec.emplace, hloc, hr, constructAt, hm]
  refine ⟨_, main, fun a ha => by simp [ha], ?_⟩
  have hslots : ∀ a, a ∈ (w.insert b).slots ↔ a = w.loc b ∨ a ∈ w.slots := by
    intro a
    rcases hc with ⟨a', q, hp, ha, hs, hr, he⟩ | ⟨hp, hs, hr, he⟩
    · rw [he]
      constructor
      · exact Or.inr
      · rintro (rfl | h)
        · exact hs
        · exact h
    · rw [he]; simp; tauto
  exact {
    reach := .insert w b h.reach hb'
    alloc := by simp [World.insert, h.alloc]
    live := fun a => by
      simp only [World.insert, Finset.mem_insert, h.live, Abs.add]
      by_cases e : a = w.loc b <;> simp [e]
    val := fun a y hy => by
      simp only [Abs.add] at hy
      by_cases e : a = w.loc b
      · simp [e] at hy; simp [e, hy]
      · simp [e] at hy; simp [e, h.val a y hy]
    dead := fun a o hy ho => by
      simp only [Abs.add] at hy
      by_cases e : a = w.loc b
      · simp [e] at hy
      · simp [e] at hy ho; exact h.dead a o hy ho
    mem := fun a => by
      rw [hslots]
      by_cases e : a = w.loc b
      · simp [e]
      · simp [e, ← h.mem a]
    known := fun a => by rw [hslots]; simp [h.known] }

theorem Coupled.erase {n : Nat} {v : SVec α} {m : Abs α} {known : Finset Addr}
    {w : World} (h : Coupled n v m known w) (a : Addr) (ha : a ∈ known) :
    ∃ v' r, SegVec.erase v a = some (v', r) ∧ (r = true ↔ m a ≠ none) ∧
      (r = false → v' = v) ∧ (∀ x, x ≠ a → v'.mem x = v.mem x) ∧
      ∃ w', (w' = w ∨ a ∈ w.live ∧ w' = w.erase a) ∧ Coupled n v' (m.remove a) known w' := by
  have hs := (h.known a).1 ha
  obtain ⟨⟨x, b⟩, ho⟩ := Option.ne_none_iff_exists'.mp ((h.mem a).2 hs)
  cases b with
  | false =>
    have hm : m a = none := by
      by_contra hm
      obtain ⟨y, hy⟩ := Option.ne_none_iff_exists'.mp hm
      have := h.val a y hy
      rw [ho] at this; simp at this
    refine ⟨v, false, by simp [SegVec.erase, ho], by simp [hm], fun _ => rfl, fun _ _ => rfl, w,
      Or.inl rfl, ?_⟩
    have : m.remove a = m := by
      funext y
      simp only [Abs.remove]
      split
      · rename_i e; rw [e, hm]
      · rfl
    rw [this]; exact h
  | true =>
    have hm : m a ≠ none := by
      intro hm
      have := h.dead a _ hm ho
      simp at this
    have hl : a ∈ w.live := (h.live a).2 hm
    refine ⟨_, true, by simp only [SegVec.erase, ho]; rfl, by simp [hm], by simp,
      fun y hy => by simp [hy], w.erase a, Or.inr ⟨hl, rfl⟩, ?_⟩
    exact {
      reach := .erase w a h.reach hl
      alloc := by simp [World.erase, h.alloc]
      live := fun y => by
        simp only [World.erase, Finset.mem_erase, h.live, Abs.remove]
        by_cases e : y = a <;> simp [e]
      val := fun y z hy => by
        simp only [Abs.remove] at hy
        by_cases e : y = a
        · simp [e] at hy
        · simp [e] at hy; simp [e, h.val y z hy]
      dead := fun y o hy ho' => by
        simp only [Abs.remove] at hy
        by_cases e : y = a
        · simp [e] at ho'; rw [← ho']
        · simp [e] at hy ho'; exact h.dead y o hy ho'
      mem := fun y => by
        show _ ↔ y ∈ w.slots
        rw [← h.mem y]
        by_cases e : y = a
        · simp [e, ho]
        · simp [e]
      known := fun y => by show _ ↔ y ∈ w.slots; exact h.known y }

theorem Reachable.coupled {n : Nat} (hn : 0 < n) {v : SVec α} {m : Abs α} {known : Finset Addr}
    (h : Reachable n v m known) : ∃ w, Coupled n v m known w := by
  induction h with
  | init => exact ⟨_, Coupled.init n⟩
  | emplace x b _ hb he ih =>
    obtain ⟨w, hw⟩ := ih
    obtain ⟨v', h1, _, h2⟩ := hw.emplace hn x b hb
    rw [h1] at he
    obtain ⟨rfl, rfl⟩ := by simpa using he
    exact ⟨_, h2⟩
  | erase a _ ha he ih =>
    obtain ⟨w, hw⟩ := ih
    obtain ⟨v', r, h1, _, _, _, w', _, h2⟩ := hw.erase a ha
    rw [h1] at he
    obtain ⟨rfl, rfl⟩ := by simpa using he
    exact ⟨_, h2⟩

theorem destroyAll_spec (l : List Addr) : ∀ (mem : Addr → Option (α × Bool)), l.Nodup →
    (∀ a ∈ l, mem a ≠ none) →
    destroyAll mem l = some fun a => if a ∈ l then none else mem a := by
  induction l with
  | nil => intro mem _ _; simp [destroyAll]
  | cons x xs ih =>
    intro mem hnd hm
    rw [List.nodup_cons] at hnd
    obtain ⟨o, ho⟩ := Option.ne_none_iff_exists'.mp (hm x (by simp))
    simp only [destroyAll, destroyAt, ho]
    rw [ih _ hnd.2]
    · congr 1
      funext a
      by_cases h1 : a ∈ xs
      · simp [h1]
      · by_cases h2 : a = x <;> simp [h1, h2]
    · intro a ha
      have : a ≠ x := fun e => hnd.1 (e ▸ ha)
      simp [this]
      exact hm a (by simp [ha])

end Mito.SegVec
