import Verif.Spec.Snapshot
import Verif.Mesh.MeshLemmas
import Verif.Props.Containers

/-! # Lemmas about objects made before a mesh was changed -/

namespace Mito.Snapshot

open Mito.Alloc Mito.SegVec Mito.Meshes

variable {α : Type} {fac : α → List (Nat × Int)}

theorem Later.reachable {m m' : Mesh α} {s s' : Abs α} {known known' : Finset Nat} {log : List (Event α)}
    (h : Reachable fac m s known) (hl : Later fac m s known m' s' known' log) : Reachable fac m' s' known' := by
  induction hl with
  | refl => exact h
  | insert c b _ hb he ih => exact .insert c b ih hb he
  | erase a _ ha he ih => exact .erase a ih ha he

theorem insert_mem {m m' : Mesh α} {s : Abs α} {known : Finset Nat} (h : Reachable fac m s known) {c : α} {a b : Nat}
    (hb : FreshBlock m.cells.alloc b) (he : m.insert fac c true b = some (m', a)) :
    m'.cells.mem a = some (c, true) ∧ (∀ x, x ≠ a → m'.cells.mem x = m.cells.mem x) ∧ s a = none := by
  obtain ⟨w, hw⟩ := h.inv
  obtain ⟨v', h1, h2, h3⟩ := hw.coupled.emplace (by decide) c b hb
  obtain ⟨m'', h4, h5, -⟩ := hw.insert c b hb
  have he' := he
  rw [Mesh.insert, h1] at he
  obtain ⟨rfl, rfl⟩ := by simpa using he
  exact ⟨h3.val _ c (by simp [Abs.add]), h2, h5⟩

theorem erase_mem {m m' : Mesh α} {s : Abs α} {known : Finset Nat} (h : Reachable fac m s known) {a : Nat}
    (ha : a ∈ known) (he : m.erase fac a = some m') (x : Nat) :
    (m'.cells.mem x).map Prod.fst = (m.cells.mem x).map Prod.fst ∧ (x ≠ a → m'.cells.mem x = m.cells.mem x) := by
  unfold Mesh.erase at he
  cases ho : m.cells.mem a with
  | none => simp [ho] at he
  | some o =>
    obtain ⟨c, valid⟩ := o
    simp only [ho] at he
    cases valid with
    | false =>
      simp only [SegVec.erase, ho, Bool.not_false, if_true, Option.some.injEq] at he
      subst he
      exact ⟨rfl, fun _ => rfl⟩
    | true =>
      simp only [SegVec.erase, ho, Bool.not_true, Bool.false_eq_true, if_false, if_true, Option.some.injEq] at he
      subst he
      by_cases e : x = a
      · subst e; simp [ho]
      · simp [e]

theorem lastInserted_append (a : Nat) (log : List (Event α)) (e : Event α) : lastInserted a (log ++ [e]) =
    match e with
    | .inserted a' c => if a' = a then some c else lastInserted a log
    | .erased _ => lastInserted a log := by
  cases e <;> simp only [lastInserted, List.foldl_append, List.foldl_cons, List.foldl_nil]

theorem elements_eq {m : Mesh α} {s : Abs α} {known : Finset Nat} (h : Reachable fac m s known) :
    ∃ es, elements m = some es ∧ (∀ e ∈ es, s e.slot = some e.made) ∧ (∀ a c, s a = some c → ⟨a, c⟩ ∈ es) ∧
      m.cellList = some (es.map Element.made) ∧ (es.map Element.slot).Nodup := by
  obtain ⟨w, hw⟩ := h.inv
  have h1 := hw.elements _ hw.capacity
  have h2 := readAll_filter hw.coupled.val w.slots
  have hz : ∀ l : List Nat, List.zipWith Element.mk (l.filter fun a => (s a).isSome) (l.filterMap s) =
      l.filterMap fun a => (s a).map (Element.mk a) := by
    intro l
    induction l with
    | nil => rfl
    | cons a l ih => cases hs : s a <;> simp [hs, ih]
  refine ⟨w.slots.filterMap fun a => (s a).map (Element.mk a), ?_, ?_, ?_, ?_, ?_⟩
  · simp only [elements, h1, h2, hz]
  · intro e he
    obtain ⟨a, -, ha⟩ := List.mem_filterMap.1 he
    obtain ⟨c, hc, rfl⟩ := Option.map_eq_some_iff.1 ha
    exact hc
  · intro a c hc
    refine List.mem_filterMap.2 ⟨a, ?_, by simp [hc]⟩
    exact (hw.coupled.mem a).1 (by rw [hw.coupled.val a c hc]; simp)
  · rw [hw.cellList, List.map_filterMap]
    congr 1
    apply List.filterMap_congr
    intro a _
    cases s a <;> rfl
  · rw [List.map_filterMap]
    have : (w.slots.filterMap fun a => ((s a).map (Element.mk a)).map Element.slot) = w.slots.filter fun a => (s a).isSome := by
      induction w.slots with
      | nil => rfl
      | cons a l ih => cases hs : s a <;> simp only [List.filterMap_cons, List.filter_cons, hs, ih] <;> simp
    rw [this]
    exact (hw.coupled.reach.slots_nodup (by decide)).filter _

/-- nothing is waiting for reuse -/
theorem Compact.pending {m : Mesh α} {s : Abs α} {known : Finset Nat} {w : World} (hw : MInv fac m s known w)
    (hc : Compact s known) : w.pending = [] := by
  refine List.eq_nil_iff_forall_not_mem.2 fun a ha => ?_
  have h1 := (hw.coupled.reach.mem_slots (by decide) a).2 (.inr ha)
  have h2 := hc a ((hw.coupled.known a).2 h1)
  obtain ⟨B, hB⟩ := hw.coupled.reach.inv (by decide)
  exact hB.disj a ha ((hw.coupled.live a).2 h2)

theorem erasures {m : Mesh α} {s : Abs α} {known : Finset Nat} {w : World} (hw : MInv fac m s known w)
    (hp : w.pending = []) (as : List Nat) (hn : as.Nodup) (hs : ∀ a ∈ as, s a ≠ none) {m' : Mesh α} {s' : Abs α}
    {known' : Finset Nat} (hl : Later fac m s known m' s' known' (as.map .erased)) :
    ∃ w', MInv fac m' s' known' w' ∧ w'.pending = as ∧ ∀ a, a ∉ as → s' a = s a := by
  induction as using List.reverseRecOn generalizing m' s' known' with
  | nil =>
    generalize hlog : ([] : List Nat).map (Event.erased (α := α)) = log at hl
    cases hl with
    | refl => exact ⟨w, hw, hp, fun _ _ => rfl⟩
    | insert => simp at hlog
    | erase => simp at hlog
  | append_singleton as a ih =>
    generalize hlog : (as ++ [a]).map (Event.erased (α := α)) = log at hl
    cases hl with
    | refl => simp at hlog
    | insert c b _ _ _ => simp at hlog
    | @erase m₁ _ s₁ known₁ log₁ x hl hx he =>
      rw [List.map_append, List.map_singleton] at hlog
      obtain ⟨h1, h2⟩ := List.append_inj' hlog rfl
      obtain rfl : a = x := by simpa using h2
      subst h1
      rw [List.nodup_append] at hn
      obtain ⟨w₁, hw₁, hp₁, hs₁⟩ := ih hn.1 (fun y hy => hs y (by simp [hy])) hl
      have ha : a ∉ as := fun h => hn.2.2 a h a (by simp) rfl
      obtain ⟨m₂, w₂, h3, h4, h5⟩ := hw₁.erase a hx
      obtain rfl : m₂ = m' := by rw [he] at h3; exact (Option.some.inj h3).symm
      have hlive : a ∈ w₁.live := (hw₁.coupled.live a).2 (by rw [hs₁ a ha]; exact hs a (by simp))
      have hw₂ : w₂ = w₁.erase a := by
        rcases h4 with rfl | ⟨-, h⟩
        · exact absurd hlive (by rw [h5.coupled.live]; simp [Abs.remove])
        · exact h
      refine ⟨w₂, h5, by rw [hw₂]; simp [World.erase, hp₁], fun x hx => ?_⟩
      have hxa : x ≠ a := fun h => hx (by simp [h])
      simp only [Abs.remove, hxa, if_false]
      exact hs₁ x (fun h => hx (by simp [h]))

theorem insertions {m : Mesh α} {s : Abs α} {known : Finset Nat} (before : List (Event α)) (as : List Nat)
    (h0 : ∀ {m₁ : Mesh α} {s₁ : Abs α} {known₁ : Finset Nat}, Later fac m s known m₁ s₁ known₁ before →
      ∃ w, MInv fac m₁ s₁ known₁ w ∧ w.pending = as) (ins : List (Nat × α)) {m' : Mesh α} {s' : Abs α}
    {known' : Finset Nat} (hl : Later fac m s known m' s' known' (before ++ ins.map fun p => .inserted p.1 p.2)) :
    ∃ w, MInv fac m' s' known' w ∧ w.pending = as.drop ins.length ∧ (∀ p ∈ ins, s' p.1 = some p.2) ∧
      ∀ i (hi : i < ins.length) (hi' : i < as.length), ins[i].1 = as[i] := by
  induction ins using List.reverseRecOn generalizing m' s' known' with
  | nil =>
    obtain ⟨w, hw, hp⟩ := h0 (by simpa using hl)
    exact ⟨w, hw, by simpa using hp, by simp, by simp⟩
  | append_singleton ins p ih =>
    generalize hlog : before ++ (ins ++ [p]).map (fun p => Event.inserted p.1 p.2) = log at hl
    rw [List.map_append, List.map_singleton, ← List.append_assoc] at hlog
    cases hl with
    | refl => simp at hlog
    | erase x _ _ _ => exact absurd (List.append_inj' hlog rfl).2 (by simp)
    | @insert m₁ _ s₁ known₁ log₁ a c b hl hb he =>
      obtain ⟨h1, h2⟩ := List.append_inj' hlog rfl
      obtain ⟨rfl, rfl⟩ : p.1 = a ∧ p.2 = c := by simpa using h2
      subst h1
      obtain ⟨w, hw, hp, hs, hi⟩ := ih hl
      obtain ⟨m₂, h3, h4, h5⟩ := hw.insert p.2 b hb
      rw [he] at h3
      obtain ⟨rfl, h6⟩ := by simpa using h3
      rw [h6]
      refine ⟨w.insert b, h5, ?_, ?_, ?_⟩
      · simp [World.insert, hp]
      · intro q hq
        rcases List.mem_append.1 hq with hq | hq
        · have : q.1 ≠ w.loc b := fun h => by
            rw [← h, hs q hq] at h4
            cases h4
          simp only [Abs.add, this, if_false]
          exact hs q hq
        · obtain rfl : q = p := by simpa using hq
          simp [Abs.add, h6]
      · intro i hi₁ hi₂
        by_cases h : i < ins.length
        · rw [List.getElem_append_left h]
          exact hi i h hi₂
        · have e : i = ins.length := by simp at hi₁; omega
          subst e
          rw [List.getElem_append_right le_rfl]
          simp only [Nat.sub_self, List.getElem_cons_zero, h6]
          exact Alloc.reuse_fifo (by decide) hw.coupled.reach b _ _ (by
            rw [hp, List.drop_eq_getElem_cons hi₂])

end Mito.Snapshot
