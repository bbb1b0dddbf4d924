import Verif.Utilities.SegmentedVectorLemmas

/-!
# C03–C10, C67–C69: segmented containers

Specifications: `Verif/Spec/SegmentedAllocator.lean`, `Verif/Spec/SegmentedVector.lean`.
-/

set_option linter.unusedSimpArgs false
set_option linter.unusedVariables false

namespace Mito.Alloc

variable {n : Nat} {w : World}

/-! ## C03 -/

/-- **C03.**  Whatever the history, the location handed out for a new element is not the location of
a live element. -/
theorem insert_not_live (hn : 0 < n) (hw : Reachable n w) (b : Addr) (hb : FreshBlock w.alloc b) :
    w.loc b ∉ w.live :=
  (hw.insert_cases hn b hb).1

/-- **C03.**  All live elements lie inside allocated segments (so the assertion in `erase` holds). -/
theorem live_in_segment (hn : 0 < n) (hw : Reachable n w) (a : Addr) (ha : a ∈ w.live) :
    ∃ i < w.alloc.nSegs, InSegment w.alloc i a := by
  obtain ⟨B, h⟩ := hw.inv hn
  obtain ⟨i, hi, e⟩ := (h.mem_slots a).1 ((h.mem a).2 (Or.inl ha))
  have hlen := h.len_le
  obtain ⟨b, hb, e'⟩ := slotAddr_eq (B := B) (i := i) hn (by omega)
  have hm := Nat.mod_lt i hn
  exact ⟨i / n, by rw [h.nsegs]; exact (List.getElem?_eq_some_iff.mp hb).1, b,
    by rw [h.starts]; exact hb, by omega, by rw [h.segSize]; omega⟩

/-- **C03.**  Segments do not overlap. -/
theorem segments_disjoint (hn : 0 < n) (hw : Reachable n w) (i j : Nat) (a : Addr)
    (hi : InSegment w.alloc i a) (hj : InSegment w.alloc j a) : i = j := by
  obtain ⟨B, h⟩ := hw.inv hn
  obtain ⟨b, hb, h1, h2⟩ := hi
  obtain ⟨c, hc, h3, h4⟩ := hj
  rw [h.starts] at hb hc
  rw [h.segSize] at h2 h4
  by_contra hne
  have := sep_get h.sep hb hc hne
  omega

/-- **C03.**  Neither assertion of the allocator ever fires on histories that erase live elements:
the new element goes to the front of the queue, and an erased element belongs to the allocation. -/
theorem assertions_hold (hn : 0 < n) (hw : Reachable n w) :
    (∀ b, FreshBlock w.alloc b → insertAssert (locationForPlacement w.alloc b).1 (w.loc b)) ∧
    (∀ a ∈ w.live, eraseCheck (erase w.alloc a) a = true) := by
  constructor
  · intro b hb a q hq
    obtain ⟨B, h⟩ := hw.inv hn
    have hq' : (locationForPlacement w.alloc b).1.queue = w.alloc.queue := by
      simp only [locationForPlacement, allocSegment]
      split_ifs <;> rfl
    rw [hq', h.queue] at hq
    exact (h.insert_reuse hn b hq).1
  · intro a ha
    obtain ⟨i, hi, b, hb, h1, h2⟩ := live_in_segment hn hw a ha
    simp only [eraseCheck, erase, List.any_eq_true, List.mem_range]
    exact ⟨i, hi, by simp [hb, h1, h2]⟩

/-! ## C05 -/

/-- **C05.**  `size()` is the number of live elements. -/
theorem size_eq_card (hn : 0 < n) (hw : Reachable n w) : size w.alloc = w.live.card := by
  obtain ⟨B, h⟩ := hw.inv hn
  exact h.nElems

/-- **C05.**  `capacity()` is the number of segments times the segment size, and bounds the size. -/
theorem size_le_capacity (hn : 0 < n) (hw : Reachable n w) :
    capacity w.alloc = w.alloc.nSegs * n ∧ size w.alloc ≤ capacity w.alloc := by
  obtain ⟨B, h⟩ := hw.inv hn
  have h1 := h.card_slots hn
  have h2 := h.len_le
  have hc : capacity w.alloc = B.length * n := by rw [capacity, h.nsegs, h.segSize]
  refine ⟨by rw [hc, h.nsegs], ?_⟩
  rw [size_eq_card hn hw, hc]
  exact_mod_cast (by omega : w.live.card ≤ B.length * n)

/-- **C05.**  A new segment is allocated exactly when all existing slots are occupied by live
elements; the capacity never shrinks and grows by one segment at a time. -/
theorem grows_iff_full (hn : 0 < n) (hw : Reachable n w) (b : Addr) (hb : FreshBlock w.alloc b) :
    capacity (w.insert b).alloc =
      if w.live.card = capacity w.alloc then capacity w.alloc + n else capacity w.alloc := by
  obtain ⟨B, h⟩ := hw.inv hn
  have h1 := h.card_slots hn
  have h2 := h.len_le
  have hc : capacity w.alloc = B.length * n := by rw [capacity, h.nsegs, h.segSize]
  have hcap : ∀ {w' : World} {B' : List Nat}, Inv n w' B' → capacity w'.alloc = B'.length * n :=
    fun h' => by rw [capacity, h'.nsegs, h'.segSize]
  rw [hc]
  cases hp : w.pending with
  | cons a q =>
    rw [hp] at h1
    simp at h1
    rw [if_neg (by omega), hcap (h.insert_reuse hn b hp).2.2.2]
  | nil =>
    rw [hp] at h1
    simp at h1
    rcases Nat.lt_or_eq_of_le h2 with hlt | heq
    · rw [if_neg (by omega), hcap (h.insert_room hn b hp hlt).2.2.2]
    · rw [if_pos (by omega), hcap (h.insert_grow hn b hb hp heq).2.2.2]
      simp [Nat.add_mul]

/-- **C05.**  Erasing does not change the capacity. -/
theorem erase_capacity (a : Addr) : capacity (w.erase a).alloc = capacity w.alloc := rfl

/-! ## C06 -/

/-- **C06.**  If some erased location has not been reused yet, the one erased longest ago is
reused. -/
theorem reuse_fifo (hn : 0 < n) (hw : Reachable n w) (b : Addr) (a : Addr) (q : List Addr)
    (hp : w.pending = a :: q) : w.loc b = a := by
  obtain ⟨B, h⟩ := hw.inv hn
  exact (h.insert_reuse hn b hp).1

/-- **C06.**  A location never used before is handed out exactly if nothing is waiting for reuse. -/
theorem fresh_iff_none_pending (hn : 0 < n) (hw : Reachable n w) (b : Addr)
    (hb : FreshBlock w.alloc b) : w.loc b ∉ w.slots ↔ w.pending = [] := by
  rcases (hw.insert_cases hn b hb).2 with ⟨a, q, hp, _, hs, _⟩ | ⟨hp, hs, _⟩
  · simp [hp, hs]
  · simp [hp, hs]

/-- **C06.**  The code's own flag tells which of the two happened. -/
theorem reused_flag (hn : 0 < n) (hw : Reachable n w) (b : Addr) (hb : FreshBlock w.alloc b) :
    (locationForPlacement w.alloc b).2.2 = true ↔ w.loc b ∈ w.slots := by
  rcases (hw.insert_cases hn b hb).2 with ⟨a, q, hp, _, hs, hr, _⟩ | ⟨hp, hs, hr, _⟩
  · simp [hr, hs]
  · simp [hr, hs]

/-! ## C09 -/

/-- **C09.**  `operator[](i)` is the `i`-th location ever handed out, and this is also the order of
iteration over all slots (with enough fuel for the loop); indices beyond the capacity throw. -/
theorem index_eq_iteration (hn : 0 < n) (hw : Reachable n w) :
    (∀ i, i < w.slots.length → index w.alloc i = w.slots[i]?) ∧
    (∀ fuel, w.slots.length ≤ fuel → visit w.alloc fuel (itBegin w.alloc) = some w.slots) ∧
    (∀ i, index w.alloc i = none ↔ capacity w.alloc ≤ i) := by
  obtain ⟨B, h⟩ := hw.inv hn
  have hlen := h.len_le
  refine ⟨?_, ?_, ?_⟩
  · intro i hi
    rw [h.index_eq hn, if_pos (by omega)]
    simp [hi, h.slots_get hi]
  · intro fuel hf
    obtain ⟨h0, h1⟩ := h.itBegin_spec hn
    by_cases hs : w.slots = []
    · rw [visit.eq_def]
      simp [h0 hs, itEnd, hs]
    · have hp : 0 < w.slots.length := List.length_pos_iff.mpr hs
      have := h.visit_spec hn _ (h1 hp) rfl fuel (by omega)
      simpa using this
  · intro i
    rw [h.index_eq hn, capacity, h.nsegs, h.segSize]
    by_cases hi : i < B.length * n <;> simp [hi] <;> omega

/-- **C09.**  Different indices below the capacity address different locations. -/
theorem index_injective (hn : 0 < n) (hw : Reachable n w) (i j : Nat)
    (hi : i < capacity w.alloc) (h : index w.alloc i = index w.alloc j) : i = j := by
  obtain ⟨B, hB⟩ := hw.inv hn
  have hc : capacity w.alloc = B.length * n := by rw [capacity, hB.nsegs, hB.segSize]
  rw [hB.index_eq hn, hB.index_eq hn, if_pos (by omega)] at h
  by_cases hj : j < B.length * n
  · rw [if_pos hj] at h
    exact slotAddr_inj hn hB.sep (by omega) hj (Option.some.inj h)
  · rw [if_neg hj] at h; simp at h

/-! ## C68, C69 -/

/-- **C68.**  The destructor frees every segment exactly once, and terminates after as many rounds
as there are segments. -/
theorem destructor_frees_once (hn : 0 < n) (hw : Reachable n w) (fuel : Nat)
    (hf : w.alloc.nSegs ≤ fuel) :
    freed w.alloc fuel = some ((List.range w.alloc.nSegs).filterMap w.alloc.starts) ∧
    ((List.range w.alloc.nSegs).filterMap w.alloc.starts).Nodup ∧
    ((List.range w.alloc.nSegs).filterMap w.alloc.starts).length = w.alloc.nSegs := by
  obtain ⟨B, h⟩ := hw.inv hn
  have hB : (List.range w.alloc.nSegs).filterMap w.alloc.starts = B := by
    rw [h.nsegs, funext h.starts]
    apply List.ext_getElem?
    intro i
    have : (List.range B.length).filterMap (fun i => B[i]?) =
        (List.range B.length).map (fun i => B.getD i 0) := by
      rw [← List.filterMap_eq_map]
      apply List.filterMap_congr
      intro j hj
      simp at hj
      simp [hj]
    rw [this]
    by_cases hi : i < B.length
    · simp [hi]
    · simp [hi, List.getElem?_eq_none (Nat.le_of_not_lt hi)]
  rw [hB]
  refine ⟨?_, ?_, h.nsegs.symm⟩
  · unfold freed
    cases hBc : B with
    | nil => simp [h.begin, hBc]
    | cons x xs =>
      have hx : x ≠ 0 := h.nz x (by simp [hBc])
      have hb : w.alloc.begin = x := by simp [h.begin, hBc]
      rw [if_neg (by rw [hb]; exact hx), hb]
      have := h.freedFrom_spec hn _ 0 x (by simp [hBc]) rfl fuel (by rw [← h.nsegs]; omega)
      rw [this, hBc]; simp
  · refine h.sep.imp ?_
    intro a b hab; omega

/-- **C69.**  Moving from a container hands everything over and leaves the source as a freshly
constructed container with the same segment size: all theorems about reachable states apply to it
again, in particular its destructor frees nothing. -/
theorem move_empties_source (s : State) :
    (State.moveFrom s).1 = s ∧ (State.moveFrom s).2 = State.init s.segSize ∧
    Reachable s.segSize ⟨(State.moveFrom s).2, ∅, [], []⟩ ∧
    ∀ fuel, freed (State.moveFrom s).2 fuel = some [] := by
  refine ⟨rfl, rfl, ?_, fun fuel => rfl⟩
  have : (State.moveFrom s).2 = State.init s.segSize := rfl
  rw [this]
  exact .init

/-! ## The hypotheses are met -/

/-- From every reachable state every operation can be continued: there is always a fresh block, so
histories of every shape and length exist. -/
theorem exists_freshBlock (hn : 0 < n) (hw : Reachable n w) : ∃ b, FreshBlock w.alloc b := by
  obtain ⟨B, h⟩ := hw.inv hn
  exact h.exists_fresh

/-- a concrete history with two segments of two elements, one pending slot -/
example : ∃ w, Reachable 2 w ∧ w.live = {10, 20} ∧ w.pending = [11] ∧ w.slots = [10, 11, 20] ∧
    w.loc 99 = 11 := by
  have f0 : FreshBlock (State.init 2) 10 := ⟨by decide, fun i a h => by simp [State.init] at h⟩
  have h1 := Reachable.insert _ 10 (Reachable.init (n := 2)) f0
  have h2 := Reachable.insert _ 99 h1 ⟨by decide, fun i a h => by
    rcases i with _ | i
    · simp [World.insert, locationForPlacement, nextAvailable, allocSegment, insert,
        State.init] at h ⊢
      omega
    · simp [World.insert, locationForPlacement, nextAvailable, allocSegment, insert,
        State.init] at h⟩
  have h3 := Reachable.insert _ 20 h2 ⟨by decide, fun i a h => by
    rcases i with _ | i
    · simp [World.insert, locationForPlacement, nextAvailable, allocSegment, insert,
        State.init] at h ⊢
      omega
    · simp [World.insert, locationForPlacement, nextAvailable, allocSegment, insert,
        State.init] at h⟩
  have h4 := Reachable.erase _ 11 h3 (by decide)
  exact ⟨_, h4, by decide, by decide, by decide, by decide⟩

end Mito.Alloc

namespace Mito.SegVec

open Mito.Alloc

variable {α : Type} {n : Nat} {v : SVec α} {m : Abs α} {known : Finset Addr}

/-! ## No undefined behaviour -/

/-- On every reachable vector an insertion succeeds, at an address that holds no live element, and
every erasure of a known element succeeds. -/
theorem operations_succeed (hn : 0 < n) (h : Reachable n v m known) :
    (∀ x b, FreshBlock v.alloc b → ∃ v' a, emplace v (x, true) b = some (v', a) ∧ m a = none) ∧
    (∀ a ∈ known, ∃ v' r, erase v a = some (v', r)) := by
  obtain ⟨w, hw⟩ := h.coupled hn
  constructor
  · intro x b hb
    obtain ⟨v', h1, _, _⟩ := hw.emplace hn x b hb
    refine ⟨v', w.loc b, h1, ?_⟩
    have := insert_not_live hn hw.reach b (by rw [hw.alloc]; exact hb)
    rw [hw.live] at this
    simpa using this
  · intro a ha
    obtain ⟨v', r, h1, _⟩ := hw.erase a ha
    exact ⟨v', r, h1⟩

/-! ## C03, C04 -/

/-- **C03 / C04.**  The memory of every reachable vector agrees with the abstract map: a live
element is found at its address, valid and with the value it was inserted with; everything else in
memory is marked invalid. -/
theorem refines_map (hn : 0 < n) (h : Reachable n v m known) (a : Addr) :
    (∀ x, v.mem a = some (x, true) ↔ m a = some x) ∧ (isValidAt v a = true ↔ m a ≠ none) := by
  obtain ⟨w, hw⟩ := h.coupled hn
  have key : ∀ x, v.mem a = some (x, true) ↔ m a = some x := by
    intro x
    constructor
    · intro hx
      by_contra hne
      cases hm : m a with
      | none => have := hw.dead a _ hm hx; simp at this
      | some y =>
        have := hw.val a y hm
        rw [hx] at this
        simp at this
        exact hne (by rw [hm, this])
    · exact hw.val a x
  refine ⟨key, ?_⟩
  unfold isValidAt
  cases hm : v.mem a with
  | none =>
    simp
    by_contra hne
    obtain ⟨y, hy⟩ := Option.ne_none_iff_exists'.mp hne
    rw [(key y).2 hy] at hm
    simp at hm
  | some o =>
    obtain ⟨x, b⟩ := o
    cases b with
    | true => simp [(key x).1 hm]
    | false =>
      simp
      by_contra hne
      obtain ⟨y, hy⟩ := Option.ne_none_iff_exists'.mp hne
      rw [(key y).2 hy] at hm
      simp at hm

/-- **C04.**  An insertion changes no live element: not its address, not its value. -/
theorem emplace_stable (hn : 0 < n) (h : Reachable n v m known) (o : α) (b : Addr)
    (hb : FreshBlock v.alloc b) (v' : SVec α) (a' : Addr)
    (he : emplace v (o, true) b = some (v', a'))
    (a : Addr) (x : α) (ha : m a = some x) : v'.mem a = some (x, true) ∧ a ≠ a' := by
  obtain ⟨w, hw⟩ := h.coupled hn
  obtain ⟨v2, h1, h2, _⟩ := hw.emplace hn o b hb
  rw [h1] at he
  obtain ⟨rfl, rfl⟩ := by simpa using he
  have hnl := insert_not_live hn hw.reach b (by rw [hw.alloc]; exact hb)
  have hne : a ≠ w.loc b := by
    intro e
    rw [hw.live, ← e, ha] at hnl
    simp at hnl
  exact ⟨by rw [h2 a hne]; exact hw.val a x ha, hne⟩

/-- **C04.**  An erasure changes no other element. -/
theorem erase_stable (hn : 0 < n) (h : Reachable n v m known) (e : Addr) (he : e ∈ known)
    (v' : SVec α) (r : Bool) (hr : erase v e = some (v', r)) (a : Addr) (hne : a ≠ e) :
    v'.mem a = v.mem a := by
  obtain ⟨w, hw⟩ := h.coupled hn
  obtain ⟨v2, r2, h1, _, _, h2, _⟩ := hw.erase e he
  rw [h1] at hr
  obtain ⟨rfl, rfl⟩ := by simpa using hr
  exact h2 a hne

/-! ## C05 for the vector -/

/-- **C05.**  The number of live elements is finite and `size()` reports it. -/
theorem vector_size (hn : 0 < n) (h : Reachable n v m known) :
    ∃ l : Finset Addr, (∀ a, a ∈ l ↔ m a ≠ none) ∧ size v = l.card ∧ l.card ≤ capacity v := by
  obtain ⟨w, hw⟩ := h.coupled hn
  refine ⟨w.live, hw.live, ?_, ?_⟩
  · rw [size, ← hw.alloc]; exact size_eq_card hn hw.reach
  · have := (size_le_capacity hn hw.reach).2
    rw [size_eq_card hn hw.reach, hw.alloc] at this
    exact_mod_cast this

/-! ## C07 -/

/-- **C07.**  A `for` loop over the vector visits every live element exactly once, no erased
element, and in the order of the indices: the visited addresses are those of `v[0], v[1], …` that
are live. -/
theorem iteration_visits_live (hn : 0 < n) (h : Reachable n v m known) (fuel : Nat)
    (hf : capacity v ≤ fuel) :
    ∃ l, elements v fuel = some l ∧ l.Nodup ∧ (∀ a, a ∈ l ↔ m a ≠ none) ∧
      l = ((List.range (capacity v)).filterMap (index v.alloc)).filter (fun a => (m a).isSome) := by
  obtain ⟨w, hw⟩ := h.coupled hn
  obtain ⟨B, hB⟩ := hw.reach.inv hn
  have hlen := hB.len_le
  have hcap : capacity v = B.length * n := by
    rw [capacity, ← hw.alloc, Alloc.capacity, hB.nsegs, hB.segSize]
  have hval : ∀ a, isValidAt v a = (m a).isSome := by
    intro a
    have := (refines_map hn h a).2
    cases hm : m a with
    | none => simp [hm] at this; simp [this]
    | some y => simp [hm] at this; simp [this]
  have hvis := hB.visitValid_spec hn (isValidAt v) fuel (by omega)
  rw [hw.alloc] at hvis
  refine ⟨_, hvis, (hB.slots_nodup hn).filter _, ?_, ?_⟩
  · intro a
    rw [List.mem_filter, hval]
    constructor
    · intro ⟨_, h2⟩
      intro e; simp [e] at h2
    · intro hne
      exact ⟨(hB.mem a).2 (Or.inl ((hw.live a).2 hne)), by
        cases hm : m a with
        | none => exact absurd hm hne
        | some y => rfl⟩
  · have hfun : isValidAt v = fun a => (m a).isSome := funext hval
    rw [hfun]
    have h1 : (List.range (capacity v)).filterMap (index v.alloc) =
        (List.range (capacity v)).map (slotAddr B n) := by
      rw [← List.filterMap_eq_map]
      apply List.filterMap_congr
      intro i hi
      simp at hi
      rw [← hw.alloc, hB.index_eq hn, if_pos (by omega)]
      rfl
    rw [h1, hcap]
    obtain ⟨d, hd⟩ := Nat.exists_eq_add_of_le hlen
    rw [hd, List.range_add, List.map_append, List.filter_append, ← hB.slots]
    symm
    apply List.append_right_eq_self.mpr
    rw [List.filter_eq_nil_iff]
    intro a ha hm
    simp at ha
    obtain ⟨j, hj, rfl⟩ := ha
    have hne : m (slotAddr B n (w.slots.length + j)) ≠ none := by
      intro e; simp [e] at hm
    have := (hB.mem _).2 (Or.inl ((hw.live _).2 hne))
    obtain ⟨i, hi, e⟩ := (hB.mem_slots _).1 this
    have := slotAddr_inj hn hB.sep (by omega) (by omega) e
    omega

/-! ## C10 -/

/-- **C10.**  `erase` answers `true` exactly for live elements; afterwards the element is not live,
and erasing it again answers `false` and changes nothing. -/
theorem erase_idempotent (hn : 0 < n) (h : Reachable n v m known) (a : Addr) (ha : a ∈ known) :
    ∃ v' r, erase v a = some (v', r) ∧ (r = true ↔ m a ≠ none) ∧ (r = false → v' = v) ∧
      isValidAt v' a = false ∧ erase v' a = some (v', false) ∧
      size v' = size v - (if r then 1 else 0) := by
  obtain ⟨w, hw⟩ := h.coupled hn
  obtain ⟨v', r, h1, h2, h3, _, w', _, h5⟩ := hw.erase a ha
  obtain ⟨v2, r2, g1, g2, g3, _⟩ := h5.erase a ha
  have hr2 : r2 = false := by
    by_contra hc
    have := g2.1 (by simpa using hc)
    simp [Abs.remove] at this
  have hv2 := g3 hr2
  subst hr2
  rw [hv2] at g1
  refine ⟨v', r, h1, h2, h3, ?_, g1, ?_⟩
  · have := (refines_map hn (Reachable.erase a h ha h1) a).2
    by_contra hc
    have := this.1 (by simpa using hc)
    simp [Abs.remove] at this
  · cases hr : r with
    | false => rw [h3 hr]; simp
    | true =>
      rw [hr] at h1
      unfold erase at h1
      split at h1
      · simp at h1
      · split at h1
        · simp at h1
        · simp at h1
          rw [← h1]
          simp [size, Alloc.size, Alloc.erase]

/-! ## C67 -/

/-- **C67.**  The destructor of a segmented vector destroys exactly the objects that exist, each
exactly once (it runs into no undefined behaviour and leaves no object behind). -/
theorem vector_destructor (hn : 0 < n) (h : Reachable n v m known) (fuel : Nat)
    (hf : capacity v ≤ fuel) :
    ∃ mem', destructor v fuel = some mem' ∧ ∀ a, mem' a = none := by
  obtain ⟨w, hw⟩ := h.coupled hn
  obtain ⟨B, hB⟩ := hw.reach.inv hn
  have hlen := hB.len_le
  have hcap : capacity v = B.length * n := by
    rw [capacity, ← hw.alloc, Alloc.capacity, hB.nsegs, hB.segSize]
  have hvis := (index_eq_iteration hn hw.reach).2.1 fuel (by omega)
  rw [hw.alloc] at hvis
  refine ⟨_, by
    rw [destructor, hvis]
    exact destroyAll_spec _ _ (hB.slots_nodup hn) (fun a ha => (hw.mem a).2 ha), ?_⟩
  intro a
  by_cases ha : a ∈ w.slots
  · simp [ha]
  · simp [ha]
    by_contra hc
    exact ha ((hw.mem a).1 hc)

/-! ## C08 -/

/-- **C08 is false.**  There is a vector (three elements, the middle one erased) on which the
iterator after `it++` stands on the erased element, whereas `++it` skips it. -/
theorem postfix_increment_visits_erased :
    ∃ (v : SVec Nat) (m : Abs Nat) (known : Finset Addr), Reachable 3 v m known ∧
      ∃ p q, postNext v.alloc (itBegin v.alloc) = some p ∧
        nextValid v.alloc (isValidAt v) 3 (itBegin v.alloc) = some q ∧
        p ≠ q ∧ m p.ptr = none ∧ isValidAt v p.ptr = false ∧ m q.ptr = some 7 := by
  have h0 : Reachable 3 (SVec.init 3 : SVec Nat) (fun _ => none) ∅ := .init
  have h1 := Reachable.emplace (v' := _) (a := _) 5 10 h0 ⟨by decide, fun i a h => by
    simp [SVec.init, State.init] at h⟩ rfl
  have h2 := Reachable.emplace (v' := _) (a := _) 6 99 h1 ⟨by decide, fun i a h => by
    rcases i with _ | i
    · simp [locationForPlacement, nextAvailable, allocSegment, Alloc.insert, SVec.init,
        State.init] at h ⊢
      omega
    · simp [locationForPlacement, nextAvailable, allocSegment, Alloc.insert, SVec.init,
        State.init] at h⟩ rfl
  have h3 := Reachable.emplace (v' := _) (a := _) 7 99 h2 ⟨by decide, fun i a h => by
    rcases i with _ | i
    · simp [locationForPlacement, nextAvailable, allocSegment, Alloc.insert, SVec.init,
        State.init] at h ⊢
      omega
    · simp [locationForPlacement, nextAvailable, allocSegment, Alloc.insert, SVec.init,
        State.init] at h⟩ rfl
  have h4 := Reachable.erase (v' := _) (r := _) 11 h3 (by decide) rfl
  exact ⟨_, _, _, h4, _, _, rfl, rfl, by decide, by decide, by decide, by decide⟩

/-- **C08, what holds.**  When the slot the underlying iterator moves to is not an erased one, the
two increments agree. -/
theorem postfix_eq_prefix_partial (s : State) (valid : Addr → Bool) (fuel : Nat) (it it' : It)
    (h : It.next s it = some it') (hv : it'.ptr = it'.end_ ∨ valid it'.ptr = true) :
    postNext s it = nextValid s valid (fuel + 1) it := by
  simp only [postNext, nextValid, h]
  rcases hv with hv | hv
  · simp [hv]
  · simp [hv]

/-- **C05/C07 need valid elements.**  Inserting a *copy of an erased element* (whose validity flag
is `false` and is copied along) makes `size()` count an element that no iteration visits. -/
theorem insert_invalid_copy_is_invisible :
    ∃ (v : SVec Nat) (a : Addr), emplace (SVec.init 3) (5, false) 10 = some (v, a) ∧
      size v = 1 ∧ elements v 3 = some [] :=
  ⟨_, _, rfl, by decide, by decide⟩

end Mito.SegVec
