import Verif.Spec.SegmentedAllocator
import Mathlib.Tactic.Ring
import Mathlib.Data.List.Nodup
import Mathlib.Data.List.Range

/-! # Helper lemmas for the segmented allocator -/

set_option linter.unusedSimpArgs false
set_option linter.unusedVariables false

namespace Mito.Alloc

/-- address of the `i`-th slot, given the bases of the segments -/
def slotAddr (B : List Addr) (n i : Nat) : Addr := B.getD (i / n) 0 + i % n

/-- the representation invariant -/
structure Inv (n : Nat) (w : World) (B : List Addr) : Prop where
  segSize : w.alloc.segSize = n
  nsegs : w.alloc.nSegs = B.length
  starts : ∀ i, w.alloc.starts i = B[i]?
  sep : B.Pairwise (fun a b => a + n < b ∨ b + n < a)
  nz : ∀ b ∈ B, b ≠ 0
  slots : w.slots = (List.range w.slots.length).map (slotAddr B n)
  empty : B = [] → w.slots = [] ∧ w.alloc.endp = 0 ∧ w.alloc.endAlloc = 0
  begin : w.alloc.begin = B.head?.getD 0
  last : ∀ C l, B = C ++ [l] → w.alloc.endAlloc = l + n ∧
    w.alloc.endp + C.length * n = l + w.slots.length ∧ C.length * n < w.slots.length ∧
    w.slots.length ≤ (C.length + 1) * n
  tails : ∀ i a b, B[i]? = some a → B[i+1]? = some b → w.alloc.tails (a + n) = some b
  queue : w.alloc.queue = w.pending
  nodup : w.pending.Nodup
  mem : ∀ a, a ∈ w.slots ↔ a ∈ w.live ∨ a ∈ w.pending
  disj : ∀ a ∈ w.pending, a ∉ w.live
  nElems : w.alloc.nElems = w.live.card

theorem sep_get {n : Nat} {B : List Addr} (sep : B.Pairwise (fun a b => a + n < b ∨ b + n < a))
    {i j : Nat} {a b : Addr} (hi : B[i]? = some a) (hj : B[j]? = some b) (hij : i ≠ j) :
    a + n < b ∨ b + n < a := by
  rw [List.pairwise_iff_getElem] at sep
  obtain ⟨hi', rfl⟩ := List.getElem?_eq_some_iff.mp hi
  obtain ⟨hj', rfl⟩ := List.getElem?_eq_some_iff.mp hj
  rcases Nat.lt_or_gt_of_ne hij with h | h
  · exact sep i j hi' hj' h
  · exact (sep j i hj' hi' h).symm

theorem slotAddr_eq {B : List Addr} {n i : Nat} (hn : 0 < n) (hi : i < B.length * n) :
    ∃ b, B[i / n]? = some b ∧ slotAddr B n i = b + i % n := by
  have h : i / n < B.length := by rw [Nat.div_lt_iff_lt_mul hn]; exact hi
  exact ⟨B[i / n], by simp [h], by simp [slotAddr, h]⟩

theorem slotAddr_inj {B : List Addr} {n i j : Nat} (hn : 0 < n)
    (sep : B.Pairwise (fun a b => a + n < b ∨ b + n < a))
    (hi : i < B.length * n) (hj : j < B.length * n) (h : slotAddr B n i = slotAddr B n j) :
    i = j := by
  obtain ⟨a, ha, ea⟩ := slotAddr_eq hn hi
  obtain ⟨b, hb, eb⟩ := slotAddr_eq hn hj
  have hi' := Nat.mod_lt i hn
  have hj' := Nat.mod_lt j hn
  rw [ea, eb] at h
  by_cases hd : i / n = j / n
  · have hab : a = b := by rw [hd, hb] at ha; exact (Option.some.inj ha).symm
    have : i % n = j % n := by omega
    rw [← Nat.div_add_mod i n, ← Nat.div_add_mod j n, hd, this]
  · have := sep_get sep ha hb hd
    omega

theorem slotAddr_ne_segEnd {B : List Addr} {n i k : Nat} {l : Addr} (hn : 0 < n)
    (sep : B.Pairwise (fun a b => a + n < b ∨ b + n < a))
    (hi : i < B.length * n) (hl : B[k]? = some l) : slotAddr B n i ≠ l + n := by
  obtain ⟨a, ha, ea⟩ := slotAddr_eq hn hi
  have hi' := Nat.mod_lt i hn
  intro h
  by_cases hd : i / n = k
  · have : a = l := by rw [hd, hl] at ha; exact (Option.some.inj ha).symm
    omega
  · have := sep_get sep ha hl hd
    omega

theorem slotAddr_append {B : List Addr} {n i : Nat} (b : Addr) (hn : 0 < n)
    (hi : i < B.length * n) : slotAddr (B ++ [b]) n i = slotAddr B n i := by
  have h : i / n < B.length := by rw [Nat.div_lt_iff_lt_mul hn]; exact hi
  simp [slotAddr, h, List.getElem?_append_left]

theorem slotAddr_last {C : List Addr} {n r : Nat} (l : Addr) (hr : r < n) :
    slotAddr (C ++ [l]) n (C.length * n + r) = l + r := by
  have hn : 0 < n := by omega
  have h1 : (C.length * n + r) / n = C.length := by
    rw [Nat.mul_comm, Nat.mul_add_div hn, Nat.div_eq_of_lt hr]; simp
  have h2 : (C.length * n + r) % n = r := by
    rw [Nat.mul_comm, Nat.mul_add_mod, Nat.mod_eq_of_lt hr]
  simp [slotAddr, h1, h2]

theorem eq_nil_or_snoc (B : List Addr) : B = [] ∨ ∃ C l, B = C ++ [l] := by
  rcases List.eq_nil_or_concat B with h | ⟨C, l, h⟩
  · exact Or.inl h
  · exact Or.inr ⟨C, l, by simpa [List.concat_eq_append] using h⟩

namespace Inv
variable {n : Nat} {w : World} {B : List Addr}

theorem len_le (h : Inv n w B) : w.slots.length ≤ B.length * n := by
  rcases eq_nil_or_snoc B with e | ⟨C, l, e⟩
  · simp [(h.empty e).1]
  · have := (h.last C l e).2.2.2; simpa [e] using this

theorem mem_slots (h : Inv n w B) (a : Addr) :
    a ∈ w.slots ↔ ∃ i < w.slots.length, slotAddr B n i = a := by
  conv_lhs => rw [h.slots]
  simp

theorem slots_nodup (h : Inv n w B) (hn : 0 < n) : w.slots.Nodup := by
  rw [h.slots]
  refine List.Nodup.map_on ?_ List.nodup_range
  intro i hi j hj hij
  have := h.len_le
  simp at hi hj
  exact slotAddr_inj hn h.sep (by omega) (by omega) hij

theorem slot_ne_zero (h : Inv n w B) (hn : 0 < n) {i : Nat} (hi : i < B.length * n) :
    slotAddr B n i ≠ 0 := by
  obtain ⟨a, ha, ea⟩ := slotAddr_eq hn hi
  have := h.nz a (List.mem_of_getElem? ha)
  omega

/-- `_end` is not the address of a slot in use -/
theorem slot_ne_end (h : Inv n w B) (hn : 0 < n) {i : Nat} (hi : i < w.slots.length) :
    slotAddr B n i ≠ w.alloc.endp := by
  have hlen := h.len_le
  rcases eq_nil_or_snoc B with e | ⟨C, l, e⟩
  · simp [(h.empty e).1] at hi
  · obtain ⟨_, h2, h3, h4⟩ := h.last C l e
    rw [Nat.add_mul, Nat.one_mul] at h4
    by_cases hf : w.slots.length = C.length * n + n
    · have he : w.alloc.endp = l + n := by omega
      rw [he]
      exact slotAddr_ne_segEnd hn h.sep (by omega) (k := C.length) (by simp [e])
    · obtain ⟨r, hr⟩ : ∃ r, w.slots.length = C.length * n + r := ⟨_, (Nat.add_sub_of_le h3.le).symm⟩
      have he : w.alloc.endp = slotAddr B n w.slots.length := by
        rw [hr, e, slotAddr_last l (by omega)]; omega
      rw [he]
      intro hh
      have := slotAddr_inj hn h.sep (by omega) (by
        rw [e]; simp [Nat.add_mul]; omega) hh
      omega

theorem init (hn : 0 < n) : Inv n ⟨.init n, ∅, [], []⟩ [] where
  segSize := rfl
  nsegs := rfl
  starts i := by simp [State.init]
  sep := List.Pairwise.nil
  nz := by simp
  slots := by simp
  empty _ := by simp [State.init]
  begin := rfl
  last C l e := by simp at e
  tails i a b h := by simp at h
  queue := rfl
  nodup := List.nodup_nil
  mem a := by simp
  disj a := by simp
  nElems := by simp [State.init]

theorem erase (h : Inv n w B) {a : Addr} (ha : a ∈ w.live) : Inv n (w.erase a) B where
  segSize := h.segSize
  nsegs := h.nsegs
  starts := h.starts
  sep := h.sep
  nz := h.nz
  slots := h.slots
  empty := h.empty
  begin := h.begin
  last := h.last
  tails := h.tails
  queue := by simp [World.erase, Alloc.erase, h.queue]
  nodup := by
    simp only [World.erase]
    rw [List.nodup_append]
    refine ⟨h.nodup, by simp, ?_⟩
    intro x hx y hy e
    simp at hy; subst hy; subst e
    exact h.disj _ hx ha
  mem x := by
    show x ∈ w.slots ↔ x ∈ w.live.erase a ∨ x ∈ w.pending ++ [a]
    rw [h.mem]
    by_cases e : x = a
    · subst e; simp [ha]
    · simp [e]
  disj x hx := by
    simp only [World.erase, List.mem_append, List.mem_singleton, Finset.mem_erase, not_and] at *
    intro hxa
    rcases hx with hx | hx
    · exact h.disj x hx
    · exact absurd hx hxa
  nElems := by
    have := Finset.card_erase_add_one ha
    simp only [World.erase, Alloc.erase, h.nElems]
    omega

/-- insertion into an erased slot -/
theorem insert_reuse (h : Inv n w B) (hn : 0 < n) (b : Addr) {a : Addr} {q : List Addr}
    (hp : w.pending = a :: q) :
    w.loc b = a ∧ (locationForPlacement w.alloc b).2.2 = true ∧
      (w.insert b).alloc = { w.alloc with nElems := w.alloc.nElems + 1, queue := q } ∧
      Inv n (w.insert b) B := by
  have hq : w.alloc.queue = a :: q := by rw [h.queue, hp]
  have hmem : a ∈ w.slots := (h.mem a).2 (Or.inr (by simp [hp]))
  obtain ⟨i, hi, ei⟩ := (h.mem_slots a).1 hmem
  have hlen := h.len_le
  have h0 : a ≠ 0 := by rw [← ei]; exact h.slot_ne_zero hn (by omega)
  have hend : a ≠ w.alloc.endp := by rw [← ei]; exact h.slot_ne_end hn hi
  have hloc : w.loc b = a := by
    simp [World.loc, locationForPlacement, nextAvailable, hq, h0]
  have hal : (w.insert b).alloc = { w.alloc with nElems := w.alloc.nElems + 1, queue := q } := by
    simp [World.insert, locationForPlacement, nextAvailable, hq, h0, hend, Alloc.insert]
  refine ⟨hloc, by simp [locationForPlacement, nextAvailable, hq], hal, ?_⟩
  have hs : (w.insert b).slots = w.slots := by simp [World.insert, hp]
  have hl : (w.insert b).live = Insert.insert a w.live := by simp [World.insert, hloc]
  have hpe : (w.insert b).pending = q := by simp [World.insert, hp]
  have hnd := h.nodup
  rw [hp, List.nodup_cons] at hnd
  have hal' : a ∉ w.live := h.disj a (by simp [hp])
  exact {
    segSize := by rw [hal]; exact h.segSize
    nsegs := by rw [hal]; exact h.nsegs
    starts := by rw [hal]; exact h.starts
    sep := h.sep
    nz := h.nz
    slots := by rw [hs]; exact h.slots
    empty := by rw [hal, hs]; exact h.empty
    begin := by rw [hal]; exact h.begin
    last := by rw [hal, hs]; exact h.last
    tails := by rw [hal]; exact h.tails
    queue := by rw [hal, hpe]
    nodup := by rw [hpe]; exact hnd.2
    mem := fun x => by
      rw [hs, hl, hpe, h.mem, hp]; simp; tauto
    disj := fun x hx => by
      rw [hpe] at hx; rw [hl]
      simp only [Finset.mem_insert, not_or]
      exact ⟨fun e => hnd.1 (e ▸ hx), h.disj x (by simp [hp, hx])⟩
    nElems := by
      rw [hal, hl, Finset.card_insert_of_notMem hal']
      simp [h.nElems] }

/-- when nothing is pending, the invariant for one more slot -/
theorem push_slot (h : Inv n w B) (hn : 0 < n) (b : Addr) (hp : w.pending = [])
    (B' : List Addr) (hB : ∀ i < w.slots.length, slotAddr B' n i = slotAddr B n i)
    (sep : B'.Pairwise (fun a b => a + n < b ∨ b + n < a)) (nz : ∀ b ∈ B', b ≠ 0)
    (hlt : w.slots.length < B'.length * n)
    (hloc : w.loc b = slotAddr B' n w.slots.length)
    (segSize : (w.insert b).alloc.segSize = n)
    (nsegs : (w.insert b).alloc.nSegs = B'.length)
    (starts : ∀ i, (w.insert b).alloc.starts i = B'[i]?)
    (begin : (w.insert b).alloc.begin = B'.head?.getD 0)
    (last : ∀ C l, B' = C ++ [l] → (w.insert b).alloc.endAlloc = l + n ∧
      (w.insert b).alloc.endp + C.length * n = l + (w.slots.length + 1) ∧
      C.length * n < w.slots.length + 1 ∧ w.slots.length + 1 ≤ (C.length + 1) * n)
    (tails : ∀ i x y, B'[i]? = some x → B'[i+1]? = some y →
      (w.insert b).alloc.tails (x + n) = some y)
    (queue : (w.insert b).alloc.queue = [])
    (nElems : (w.insert b).alloc.nElems = w.alloc.nElems + 1) :
    w.loc b ∉ w.live ∧ Inv n (w.insert b) B' := by
  have hs : (w.insert b).slots = w.slots ++ [w.loc b] := by simp [World.insert, hp]
  have hl : (w.insert b).live = Insert.insert (w.loc b) w.live := rfl
  have hpe : (w.insert b).pending = [] := by simp [World.insert, hp]
  have hnl : w.loc b ∉ w.live := by
    intro hm
    have := (h.mem (w.loc b)).2 (Or.inl hm)
    obtain ⟨i, hi, e⟩ := (h.mem_slots _).1 this
    rw [← hB i hi, hloc] at e
    have := slotAddr_inj hn sep (by omega) hlt e
    omega
  refine ⟨hnl, ?_⟩
  have hne : B' ≠ [] := by
    intro e; simp [e] at hlt
  have hl1 : (w.slots ++ [w.loc b]).length = w.slots.length + 1 := by simp
  exact {
    segSize, nsegs, starts, sep, nz, begin, tails
    slots := by
      rw [hs, hl1, List.range_succ, List.map_append, hloc]
      congr 1
      conv_lhs => rw [h.slots]
      apply List.map_congr_left
      intro i hi
      simp at hi
      exact (hB i hi).symm
    empty := fun e => absurd e hne
    last := by rw [hs, hl1]; exact last
    queue := by rw [hpe, queue]
    nodup := by rw [hpe]; exact List.nodup_nil
    mem := fun x => by
      rw [hs, hl, hpe]
      have := h.mem x
      rw [hp] at this
      simp at this
      simp [this]; tauto
    disj := fun x hx => by rw [hpe] at hx; simp at hx
    nElems := by
      rw [nElems, hl, Finset.card_insert_of_notMem hnl, h.nElems]; simp }

/-- insertion at the end of the last segment, which still has room -/
theorem insert_room (h : Inv n w B) (hn : 0 < n) (b : Addr)
    (hp : w.pending = []) (hroom : w.slots.length < B.length * n) :
    w.loc b ∉ w.live ∧ w.loc b = slotAddr B n w.slots.length ∧
      (locationForPlacement w.alloc b).2.2 = false ∧ Inv n (w.insert b) B := by
  rcases eq_nil_or_snoc B with e | ⟨C, l, e⟩
  · simp [e] at hroom
  obtain ⟨h1, h2, h3, h4⟩ := h.last C l e
  have hBl : B.length * n = C.length * n + n := by simp [e, Nat.add_mul]
  obtain ⟨r, hr⟩ : ∃ r, w.slots.length = C.length * n + r := ⟨_, (Nat.add_sub_of_le h3.le).symm⟩
  have he : w.alloc.endp = l + r := by omega
  have hq : w.alloc.queue = [] := by rw [h.queue, hp]
  have hne : w.alloc.endp ≠ w.alloc.endAlloc := by omega
  have h0 : w.alloc.endp ≠ 0 := by
    have := h.nz l (by simp [e]); omega
  have hloc : w.loc b = w.alloc.endp := by
    simp [World.loc, locationForPlacement, nextAvailable, hq, hne, h0]
  have hslot : slotAddr B n w.slots.length = w.alloc.endp := by
    rw [hr, e, slotAddr_last l (by omega), he]
  have hal : (w.insert b).alloc =
      { w.alloc with nElems := w.alloc.nElems + 1, endp := w.alloc.endp + 1, queue := [] } := by
    simp [World.insert, locationForPlacement, nextAvailable, hq, h0, hne, Alloc.insert]
  have := h.push_slot hn b hp B (fun _ _ => rfl) h.sep h.nz hroom (by rw [hloc, hslot])
    (by rw [hal]; exact h.segSize) (by rw [hal]; exact h.nsegs) (by rw [hal]; exact h.starts)
    (by rw [hal]; exact h.begin)
    (by
      rw [hal]
      intro C' l' e'
      rw [e] at e'
      have hC := List.append_inj_left' e' rfl
      have hL := List.append_inj_right' e' rfl
      simp at hL
      subst hC; subst hL
      refine ⟨h1, ?_, by omega, by rw [Nat.add_mul]; omega⟩
      show w.alloc.endp + 1 + C.length * n = _
      omega)
    (by rw [hal]; exact h.tails) (by rw [hal]) (by rw [hal])
  exact ⟨this.1, by rw [hloc, hslot], by
    simp [locationForPlacement, nextAvailable, hq, hne], this.2⟩

/-- insertion into a new segment -/
theorem insert_grow (h : Inv n w B) (hn : 0 < n) (b : Addr) (hb : FreshBlock w.alloc b)
    (hp : w.pending = []) (hfull : w.slots.length = B.length * n) :
    w.loc b ∉ w.live ∧ w.loc b = b ∧
      (locationForPlacement w.alloc b).2.2 = false ∧ Inv n (w.insert b) (B ++ [b]) := by
  have hq : w.alloc.queue = [] := by rw [h.queue, hp]
  have heq : w.alloc.endp = w.alloc.endAlloc := by
    rcases eq_nil_or_snoc B with e | ⟨C, l, e⟩
    · have := h.empty e; omega
    · obtain ⟨h1, h2, h3, h4⟩ := h.last C l e
      have hBl : B.length * n = C.length * n + n := by simp [e, Nat.add_mul]
      omega
  have hbe : w.alloc.begin = w.alloc.endp ↔ B = [] := by
    constructor
    · intro hbe
      rcases eq_nil_or_snoc B with e | ⟨C, l, e⟩
      · exact e
      · exfalso
        obtain ⟨h1, h2, h3, h4⟩ := h.last C l e
        have hlen : 0 < w.slots.length := by omega
        have hs0 := h.slot_ne_end hn hlen
        have : slotAddr B n 0 = w.alloc.begin := by
          rw [h.begin]; cases B <;> simp [slotAddr]
        exact hs0 (this.trans hbe)
    · intro e
      rw [h.begin, (h.empty e).2.1, e]; rfl
  have hsep : ∀ a ∈ B, a + n < b ∨ b + n < a := by
    intro a ha
    obtain ⟨i, hi, rfl⟩ := List.getElem_of_mem ha
    have := hb.2 i B[i] (by rw [h.starts]; simp)
    rwa [h.segSize] at this
  have hloc : w.loc b = b := by
    simp [World.loc, locationForPlacement, nextAvailable, hq, heq]
  have hal : (w.insert b).alloc =
      { w.alloc with
        nElems := w.alloc.nElems + 1, begin := if B = [] then b else w.alloc.begin,
        endp := b + 1, endAlloc := b + n, nSegs := B.length + 1, queue := [],
        starts := fun i => (B ++ [b])[i]?,
        tails := if B = [] then w.alloc.tails else
          fun a => if a = w.alloc.endAlloc then some b else w.alloc.tails a } := by
    have hst : (fun i => if i = B.length then some b else B[i]?) = fun i => (B ++ [b])[i]? := by
      funext i
      rcases Nat.lt_trichotomy i B.length with hi | hi | hi
      · rw [if_neg (by omega), List.getElem?_append_left hi]
      · simp [hi]
      · rw [if_neg (by omega), List.getElem?_eq_none (by omega),
          List.getElem?_eq_none (by simp; omega)]
    have hfun : w.alloc.starts = fun i => B[i]? := funext h.starts
    simp only [World.insert, locationForPlacement, nextAvailable, hq, heq, if_true, allocSegment,
      Alloc.insert, List.tail_nil]
    by_cases e : B = []
    · rw [if_pos (by rw [hbe.2 e, heq])]
      simp [h.segSize, h.nsegs, hfun, hst, e]
      funext i
      cases i <;> simp
    · rw [if_neg (fun h' => e (hbe.1 (h'.trans heq.symm)))]
      simp [h.segSize, h.nsegs, hfun, hst, e, heq]
  have hs : slotAddr (B ++ [b]) n w.slots.length = b := by
    have := slotAddr_last (C := B) (r := 0) b hn
    rw [hfull]; simpa using this
  have := h.push_slot hn b hp (B ++ [b])
    (fun i hi => slotAddr_append b hn (by omega))
    (by
      rw [List.pairwise_append]
      refine ⟨h.sep, by simp, fun a ha x hx => ?_⟩
      simp at hx; subst hx
      exact hsep a ha)
    (by
      intro x hx
      simp at hx
      rcases hx with hx | rfl
      · exact h.nz x hx
      · exact hb.1)
    (by simp [Nat.add_mul]; omega) (by rw [hloc, hs])
    (by rw [hal]; exact h.segSize) (by rw [hal]; simp) (by rw [hal]; simp)
    (by
      rw [hal]
      cases hB : B with
      | nil => simp
      | cons x xs => simp [h.begin, hB])
    (by
      intro C l e
      have hC := List.append_inj_left' e rfl
      have hL := List.append_inj_right' e rfl
      simp at hL
      subst hC; subst hL
      rw [hal]
      refine ⟨rfl, ?_, by omega, by rw [Nat.add_mul]; omega⟩
      show b + 1 + B.length * n = _
      omega)
    (by
      intro i x y hx hy
      rw [hal]
      have hi : i < B.length := by
        have := (List.getElem?_eq_some_iff.mp hy).1
        simp at this; omega
      have hB : B ≠ [] := by intro e; simp [e] at hi
      rw [List.getElem?_append_left hi] at hx
      simp only [hB, if_false]
      rcases eq_nil_or_snoc B with e | ⟨C, l, e⟩
      · exact absurd e hB
      obtain ⟨h1, h2, h3, h4⟩ := h.last C l e
      by_cases hlast : i + 1 = B.length
      · have : x = l := by
          have hiC : i = C.length := by rw [e] at hlast; simpa using hlast
          rw [e, hiC] at hx
          simpa using hx.symm
        rw [hlast] at hy
        simp at hy
        rw [if_pos (by omega), hy]
      · rw [List.getElem?_append_left (by omega)] at hy
        have hxl : x ≠ l := by
          intro exl
          have := sep_get h.sep (i := i) (j := C.length) (b := l) hx (by simp [e]) (by
            rw [e] at hlast; simp at hlast; omega)
          omega
        rw [if_neg (by omega)]
        exact h.tails i x y hx hy)
    (by rw [hal]) (by rw [hal])
  exact ⟨this.1, hloc, by simp [locationForPlacement, nextAvailable, hq, heq], this.2⟩

end Inv

/-- Every reachable state satisfies the invariant. -/
theorem Reachable.inv {n : Nat} (hn : 0 < n) {w : World} (hw : Reachable n w) : ∃ B, Inv n w B := by
  induction hw with
  | init => exact ⟨[], Inv.init hn⟩
  | insert w b _ hb ih =>
    obtain ⟨B, h⟩ := ih
    cases hp : w.pending with
    | cons a q => exact ⟨B, (h.insert_reuse hn b hp).2.2.2⟩
    | nil =>
      rcases Nat.lt_or_eq_of_le h.len_le with hlt | heq
      · exact ⟨B, (h.insert_room hn b hp hlt).2.2.2⟩
      · exact ⟨B ++ [b], (h.insert_grow hn b hb hp heq).2.2.2⟩
  | erase w a _ ha ih =>
    obtain ⟨B, h⟩ := ih
    exact ⟨B, h.erase ha⟩

end Mito.Alloc
