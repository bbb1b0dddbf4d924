import Verif.Spec.Slots
import Verif.Utilities.SegmentedVectorLemmas

/-! # Helper lemmas: segmented vectors are lists of slots -/

namespace Mito.SegVec

open Mito.Alloc

/-- the machine with addresses and the slots without -/
structure Rel (n : Nat) (M : VMachine) (S : Slots) (w : World) : Prop where
  coupled : ∃ m known, Coupled n M.vec m known w
  cells : w.slots.map M.vec.mem = S.cells.map some
  free : w.pending.map some = S.free.map (w.slots[·]?)
  refs : M.refs.map some = S.refs.map (w.slots[·]?)

theorem Rel.init (n : Nat) : Rel n (.init n) ⟨[], [], []⟩ ⟨.init n, ∅, [], []⟩ :=
  ⟨⟨_, _, Coupled.init n⟩, rfl, rfl, rfl⟩

variable {n : Nat} {M : VMachine} {S : Slots} {w : World}

theorem Rel.length (h : Rel n M S w) : w.slots.length = S.cells.length := by
  have := congrArg List.length h.cells
  simpa using this

theorem Rel.cell (h : Rel n M S w) {i : Nat} {a : Nat} (ha : w.slots[i]? = some a) :
    S.cells[i]? = M.vec.mem a := by
  have := congrArg (·[i]?) h.cells
  simp only [List.getElem?_map, ha, Option.map_some] at this
  cases e : S.cells[i]? with
  | none => rw [e] at this; simp at this
  | some o => rw [e] at this; simp at this; rw [this]

theorem map_some_inj {α : Type*} {l m : List α} (h : l.map some = m.map some) : l = m :=
  List.map_injective_iff.mpr (Option.some_injective _) h

theorem map_get_append {l : List Nat} {m p : List Nat} {a : Nat} (h : l.map some = m.map (p[·]?)) :
    l.map some = m.map ((p ++ [a])[·]?) := by
  rw [h]
  refine List.map_congr_left fun i hi => ?_
  have : (p[i]?).isSome := by
    have hm : p[i]? ∈ m.map (p[·]?) := List.mem_map_of_mem hi
    rw [← h] at hm
    obtain ⟨x, _, e⟩ := List.mem_map.mp hm
    rw [← e]; rfl
  obtain ⟨x, hx⟩ := Option.isSome_iff_exists.mp this
  rw [List.getElem?_append_left (List.getElem?_eq_some_iff.mp hx).1]

theorem Rel.emplace (hn : 0 < n) (h : Rel n M S w) (x : Int) (b : Nat) (hb : FreshBlock M.vec.alloc b) :
    ∃ M', vexec M (.emplace x b) = some M' ∧ Rel n M' (S.emplace x) (w.insert b) := by
  obtain ⟨m, known, hc⟩ := h.coupled
  obtain ⟨v', he, hmem, hc'⟩ := hc.emplace hn x b hb
  refine ⟨⟨v', M.refs ++ [w.loc b]⟩, by simp [vexec, he], ?_⟩
  have hb' : FreshBlock w.alloc b := by rw [hc.alloc]; exact hb
  have hnew : v'.mem (w.loc b) = some (x, true) := hc'.val _ _ (by simp [Abs.add])
  have hnd := hc.reach.slots_nodup hn
  rcases (hc.reach.insert_cases hn b hb').2 with ⟨a, q, hp, ha, hs, _, hsl⟩ | ⟨hp, hs, _, hsl⟩
  · have hf := h.free
    rw [hp] at hf
    match e : S.free with
    | [] => rw [e] at hf; simp at hf
    | i :: f =>
      rw [e] at hf
      simp only [List.map_cons, List.cons.injEq] at hf
      obtain ⟨h1, h2⟩ := hf
      have hSe : S.emplace x = ⟨S.cells.set i (x, true), f, S.refs ++ [i]⟩ := by
        simp only [Slots.emplace, e]
      rw [hSe]
      refine ⟨⟨_, _, hc'⟩, ?_, ?_, ?_⟩
      · rw [hsl]
        refine List.ext_getElem? fun j => ?_
        rw [List.getElem?_map, List.getElem?_map, List.getElem?_set]
        have hi : i < S.cells.length := by
          rw [← h.length]
          exact (List.getElem?_eq_some_iff.mp h1.symm).1
        by_cases hj : i = j
        · subst hj
          rw [← h1, if_pos rfl, if_pos hi]
          simp only [Option.map_some]
          rw [← ha, hnew]
        · rw [if_neg hj]
          cases ej : w.slots[j]? with
          | none =>
            have : S.cells[j]? = none := by
              rw [List.getElem?_eq_none_iff] at ej ⊢
              rw [← h.length]; exact ej
            rw [this]; rfl
          | some c =>
            have hne : c ≠ w.loc b := by
              rw [ha]
              rintro rfl
              obtain ⟨h3, h4⟩ := List.getElem?_eq_some_iff.mp h1.symm
              obtain ⟨h5, h6⟩ := List.getElem?_eq_some_iff.mp ej
              exact hj (hnd.getElem_inj_iff.mp (h4.trans h6.symm))
            simp only [Option.map_some]
            rw [hmem c hne, h.cell ej]
            cases e3 : M.vec.mem c with
            | some o => rfl
            | none => exact absurd e3 ((hc.mem c).mpr (List.mem_of_getElem? ej))
      · rw [hsl]
        simp only [World.insert, hp, List.tail_cons]
        exact h2
      · rw [hsl]
        simp only [List.map_append, List.map_cons, List.map_nil]
        rw [h.refs, ← h1, ha]
  · have hf := h.free
    rw [hp] at hf
    have e : S.free = [] := by simpa using hf.symm
    have hSe : S.emplace x = ⟨S.cells ++ [(x, true)], [], S.refs ++ [S.cells.length]⟩ := by
      simp only [Slots.emplace, e]
    rw [hSe]
    refine ⟨⟨_, _, hc'⟩, ?_, ?_, ?_⟩
    · rw [hsl, List.map_append, List.map_append]
      congr 1
      · rw [← h.cells]
        refine List.map_congr_left fun c hcs => hmem c ?_
        rintro rfl
        exact hs hcs
      · simp [hnew]
    · simp [World.insert, hp]
    · rw [hsl]
      simp only [List.map_append, List.map_cons, List.map_nil]
      rw [map_get_append (a := w.loc b) h.refs, ← h.length]
      simp

theorem Rel.ref (h : Rel n M S w) (k : Nat) :
    (M.refs[k]? = none ∧ S.refs[k]? = none) ∨
      ∃ i a, M.refs[k]? = some a ∧ S.refs[k]? = some i ∧ w.slots[i]? = some a := by
  have := congrArg (·[k]?) h.refs
  simp only [List.getElem?_map] at this
  cases e : M.refs[k]? with
  | none =>
    rw [e] at this
    cases e2 : S.refs[k]? with
    | none => exact Or.inl ⟨rfl, rfl⟩
    | some i => rw [e2] at this; simp at this
  | some a =>
    rw [e] at this
    cases e2 : S.refs[k]? with
    | none => rw [e2] at this; simp at this
    | some i =>
      rw [e2] at this
      simp at this
      exact Or.inr ⟨i, a, rfl, rfl, this.symm⟩

theorem Rel.erase (hn : 0 < n) (h : Rel n M S w) (k : Nat) :
    (vexec M (.erase k) = none ∧ S.erase k = none) ∨
      ∃ M' S' w', vexec M (.erase k) = some M' ∧ S.erase k = some S' ∧ Rel n M' S' w' := by
  rcases h.ref k with ⟨h1, h2⟩ | ⟨i, a, h1, h2, h3⟩
  · exact Or.inl ⟨by simp [vexec, h1], by simp [Slots.erase, h2]⟩
  · right
    obtain ⟨m, known, hc⟩ := h.coupled
    have hs := List.mem_of_getElem? h3
    have hnd := hc.reach.slots_nodup hn
    obtain ⟨v', r, he, hr, _, hmem, w', hw', hc'⟩ := hc.erase a ((hc.known a).mpr hs)
    have hcell := h.cell h3
    cases e : M.vec.mem a with
    | none => exact absurd e ((hc.mem a).mpr hs)
    | some o =>
      obtain ⟨x, c⟩ := o
      rw [e] at hcell
      cases c with
      | false =>
        refine ⟨M, S, w, ?_, ?_, h⟩
        · simp [vexec, h1, SegVec.erase, e]
        · simp [Slots.erase, h2, hcell]
      | true =>
        have he' : SegVec.erase M.vec a = some (⟨Alloc.erase M.vec.alloc a, fun y => if y = a then some (x, false) else M.vec.mem y⟩, true) := by
          simp [SegVec.erase, e]
        rw [he'] at he
        simp only [Option.some.injEq, Prod.mk.injEq] at he
        obtain ⟨hv, hr'⟩ := he
        have hal : w' = w.erase a := by
          rcases hw' with rfl | ⟨_, e2⟩
          · exfalso
            have hm := hr.mp hr'.symm
            exact ((hc'.live a).mp ((hc.live a).mpr hm)) (by simp [Abs.remove])
          · exact e2
        subst hal
        have hil : i < S.cells.length := by
          rw [← h.length]; exact (List.getElem?_eq_some_iff.mp h3).1
        refine ⟨⟨v', M.refs⟩, ⟨S.cells.set i (x, false), S.free ++ [i], S.refs⟩, _, ?_, ?_, ⟨⟨_, _, hc'⟩, ?_, ?_, ?_⟩⟩
        · simp [vexec, h1, he', hv]
        · simp [Slots.erase, h2, hcell]
        · show w.slots.map v'.mem = _
          refine List.ext_getElem? fun j => ?_
          rw [List.getElem?_map, List.getElem?_map, List.getElem?_set]
          by_cases hj : i = j
          · subst hj
            rw [h3, if_pos rfl, if_pos hil, ← hv]
            simp
          · rw [if_neg hj]
            cases ej : w.slots[j]? with
            | none =>
              have : S.cells[j]? = none := by
                rw [List.getElem?_eq_none_iff] at ej ⊢
                rw [← h.length]; exact ej
              rw [this]; rfl
            | some c =>
              have hne : c ≠ a := by
                rintro rfl
                obtain ⟨h5, h6⟩ := List.getElem?_eq_some_iff.mp h3
                obtain ⟨h7, h8⟩ := List.getElem?_eq_some_iff.mp ej
                exact hj (hnd.getElem_inj_iff.mp (h6.trans h8.symm))
              simp only [Option.map_some]
              rw [hmem c hne, h.cell ej]
              cases e3 : M.vec.mem c with
              | some o => rfl
              | none => exact absurd e3 ((hc.mem c).mpr (List.mem_of_getElem? ej))
        · show (w.pending ++ [a]).map some = (S.free ++ [i]).map (w.slots[·]?)
          rw [List.map_append, List.map_append, h.free]
          simp [h3]
        · exact h.refs

theorem filter_values {v : SVec Int} {l : List Nat} {c : List (Int × Bool)} (h : l.map v.mem = c.map some) :
    (l.filter (isValidAt v)).filterMap (fun a => (v.mem a).map (·.1)) = (c.filter (·.2)).map (·.1) ∧
      (l.filter (isValidAt v)).length = (c.filter (·.2)).length := by
  induction l generalizing c with
  | nil =>
    have : c = [] := by simpa using h.symm
    subst this; exact ⟨rfl, rfl⟩
  | cons a l ih =>
    match c, h with
    | [], h => simp at h
    | (x, f) :: c, h =>
      simp only [List.map_cons, List.cons.injEq] at h
      obtain ⟨h1, h2⟩ := h
      obtain ⟨i1, i2⟩ := ih h2
      have hv : isValidAt v a = f := by simp [isValidAt, h1]
      cases f with
      | false => simp [hv, i1, i2]
      | true => simp [List.filter_cons, hv, i1, i2, h1]

theorem ceil_unique {n L b : Nat} (hn : 0 < n) (h1 : b * n < L) (h2 : L ≤ (b + 1) * n) : (L + n - 1) / n = b + 1 := by
  rw [Nat.div_eq_iff hn]
  rw [Nat.add_mul] at *
  omega

theorem Rel.segments (hn : 0 < n) (h : Rel n M S w) :
    ∃ B, Inv n w B ∧ B.length = (S.cells.length + n - 1) / n := by
  obtain ⟨m, known, hc⟩ := h.coupled
  obtain ⟨B, hB⟩ := hc.reach.inv hn
  refine ⟨B, hB, ?_⟩
  rw [← h.length]
  rcases eq_nil_or_snoc B with e | ⟨C, l, e⟩
  · rw [(hB.empty e).1, e]
    simp only [List.length_nil, Nat.zero_add]
    exact (Nat.div_eq_of_lt (by omega)).symm
  · obtain ⟨_, _, h3, h4⟩ := hB.last C l e
    rw [ceil_unique hn h3 h4, e]
    simp

theorem Rel.ask (hn : 0 < n) (h : Rel n M S w) (q : VQuery) : vask M.vec q = S.ask n q := by
  obtain ⟨B, hB, hlen⟩ := h.segments hn
  obtain ⟨m, known, hc⟩ := h.coupled
  have hcap : SegVec.capacity M.vec = (S.cells.length + n - 1) / n * n := by
    unfold SegVec.capacity Alloc.capacity
    rw [← hc.alloc, hB.nsegs, hB.segSize, hlen]
  have hle := hB.len_le
  have hel : elements M.vec (SegVec.capacity M.vec) = some (w.slots.filter (isValidAt M.vec)) := by
    unfold elements
    rw [← hc.alloc]
    exact hB.visitValid_spec hn _ _ (by rw [hcap, ← hlen]; exact hle)
  obtain ⟨f1, f2⟩ := filter_values h.cells
  have hidx : ∀ i, (match index M.vec.alloc i with | none => none | some a => M.vec.mem a) = S.cells[i]? := by
    intro i
    rw [← hc.alloc, hB.index_eq hn]
    by_cases hi : i < w.slots.length
    · rw [if_pos (by omega)]
      simp only
      have : w.slots[i]? = some (slotAddr B n i) := by
        rw [List.getElem?_eq_getElem hi, hB.slots_get hi]
      rw [h.cell this]
    · have hcell : S.cells[i]? = none := by
        rw [List.getElem?_eq_none_iff, ← h.length]; omega
      rw [hcell]
      by_cases hi2 : i < B.length * n
      · rw [if_pos hi2]
        simp only
        by_contra hne
        obtain ⟨j, hj, ej⟩ := (hB.mem_slots _).1 ((hc.mem _).mp hne)
        have := slotAddr_inj hn hB.sep hi2 (by omega) ej.symm
        omega
      · rw [if_neg hi2]
  cases q with
  | size =>
    simp only [vask, Slots.ask]
    have : SegVec.size M.vec = w.live.card := by
      unfold SegVec.size Alloc.size
      rw [← hc.alloc]; exact hB.nElems
    rw [this, ← f2]
    congr 3
    rw [← List.toFinset_card_of_nodup ((hB.slots_nodup hn).filter _)]
    congr 1
    ext a
    simp only [List.mem_toFinset, List.mem_filter]
    rw [hc.live]
    constructor
    · intro hm
      refine ⟨(hB.mem a).mpr (Or.inl ((hc.live a).mpr hm)), ?_⟩
      obtain ⟨x, hx⟩ := Option.ne_none_iff_exists'.mp hm
      simp [isValidAt, hc.val a x hx]
    · rintro ⟨_, hv⟩ hm
      unfold isValidAt at hv
      split at hv
      · rename_i x b e
        have := hc.dead a _ hm e
        simp at this
        rw [this] at hv; simp at hv
      · simp at hv
  | capacity => simp only [vask, Slots.ask, hcap]
  | values => simp only [vask, Slots.ask, hel, Option.map_some, f1]
  | «at» i =>
    simp only [vask, Slots.ask]
    rw [← hidx i]
    cases index M.vec.alloc i <;> rfl
  | valid i =>
    simp only [vask, Slots.ask]
    rw [← hidx i]
    cases index M.vec.alloc i <;> rfl

theorem Rel.test (hn : 0 < n) (h : Rel n M S w) (l : List VItem) (hf : FreshMemory M l) :
    vtest M l = S.test n l := by
  induction l generalizing M S w with
  | nil => rfl
  | cons i l ih =>
    cases i with
    | call c =>
      obtain ⟨hf1, hf2⟩ := hf
      cases c with
      | emplace x b =>
        obtain ⟨M', h1, h2⟩ := h.emplace hn x b (hf1 x b rfl)
        simp only [vtest, Slots.test, h1, Slots.exec]
        exact ih h2 (hf2 M' h1)
      | erase k =>
        rcases h.erase hn k with ⟨h1, h2⟩ | ⟨M', S', w', h1, h2, h3⟩
        · simp only [vtest, Slots.test, h1, Slots.exec, h2]
        · simp only [vtest, Slots.test, h1, Slots.exec, h2]
          exact ih h3 (hf2 M' h1)
    | expect q a =>
      simp only [vtest, Slots.test]
      rw [h.ask hn q, ih h hf]

theorem slots_test_forget (n : Nat) : ∀ (l l' : List VItem) (S : Slots), l.map VItem.forget = l'.map VItem.forget →
    S.test n l = S.test n l' := by
  intro l
  induction l with
  | nil =>
    intro l' S h
    have : l' = [] := by simpa using h.symm
    rw [this]
  | cons i l ih =>
    intro l' S h
    match l', h with
    | [], h => simp at h
    | i' :: l', h =>
      simp only [List.map_cons, List.cons.injEq] at h
      obtain ⟨h1, h2⟩ := h
      cases i with
      | call c =>
        cases i' with
        | expect q a => cases c <;> simp [VItem.forget] at h1
        | call c' =>
          have he : S.exec c = S.exec c' := by
            cases c <;> cases c' <;> simp [VItem.forget] at h1 <;> simp [Slots.exec, h1]
          simp only [Slots.test, he]
          cases S.exec c' with
          | none => rfl
          | some S' => exact ih l' S' h2
      | expect q a =>
        cases i' with
        | call c => cases c <;> simp [VItem.forget] at h1
        | expect q' a' =>
          simp only [VItem.forget, VItem.expect.injEq] at h1
          obtain ⟨rfl, rfl⟩ := h1
          simp only [Slots.test]
          rw [ih l' S h2]

end Mito.SegVec
