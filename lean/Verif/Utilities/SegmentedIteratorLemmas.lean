import Verif.Utilities.SegmentedAllocatorLemmas

/-! # Helper lemmas for the iterators of segmented containers -/

set_option linter.unusedSimpArgs false
set_option linter.unusedVariables false

namespace Mito.Alloc

variable {n : Nat} {w : World} {B : List Addr}

/-- the iterator stands at slot `i` -/
structure ItAt (n : Nat) (w : World) (B : List Addr) (i : Nat) (it : It) : Prop where
  lt : i < w.slots.length
  ptr : it.ptr = slotAddr B n i
  segEnd : ∃ b, B[i / n]? = some b ∧ it.segEnd = b + n
  end_ : it.end_ = w.alloc.endp

theorem Inv.slots_get (h : Inv n w B) {i : Nat} (hi : i < w.slots.length) :
    w.slots[i] = slotAddr B n i := by
  have := h.slots
  have h2 : w.slots[i]? = some (slotAddr B n i) := by
    rw [this]; simp [hi]
  simpa [hi] using h2

theorem Inv.next_spec (h : Inv n w B) (hn : 0 < n) {i : Nat} {it : It} (hat : ItAt n w B i it) :
    ∃ it', It.next w.alloc it = some it' ∧ it'.end_ = w.alloc.endp ∧
      (i + 1 = w.slots.length → it'.ptr = w.alloc.endp) ∧
      (i + 1 < w.slots.length → ItAt n w B (i + 1) it') := by
  obtain ⟨hlt, hptr, ⟨b, hb, hse⟩, hend⟩ := hat
  have hlen := h.len_le
  rcases eq_nil_or_snoc B with e | ⟨C, l, e⟩
  · simp [e] at hb
  obtain ⟨h1, h2, h3, h4⟩ := h.last C l e
  rw [Nat.add_mul, Nat.one_mul] at h4
  obtain ⟨b', hb', hsl⟩ := slotAddr_eq (B := B) (i := i) hn (by omega)
  have : b' = b := by rw [hb] at hb'; exact (Option.some.inj hb').symm
  subst this
  have hmod := Nat.mod_lt i hn
  have hdm := Nat.div_add_mod i n
  rcases Nat.lt_or_eq_of_le (Nat.succ_le_of_lt hlt) with hlt' | heq
  · -- there is a next slot
    by_cases hseg : i % n + 1 = n
    · -- end of a segment
      have hdiv : (i + 1) / n = i / n + 1 := by
        have : i + 1 = n * (i / n + 1) := by rw [Nat.mul_add, Nat.mul_one]; omega
        rw [this, Nat.mul_div_cancel_left _ hn]
      have hm0 : (i + 1) % n = 0 := by
        have : i + 1 = n * (i / n + 1) := by rw [Nat.mul_add, Nat.mul_one]; omega
        rw [this, Nat.mul_mod_right]
      obtain ⟨b2, hb2, hs2⟩ := slotAddr_eq (B := B) (i := i + 1) hn (by omega)
      rw [hdiv] at hb2
      rw [hm0] at hs2
      have hp : it.ptr + 1 = it.segEnd := by omega
      have hne : it.ptr + 1 ≠ it.end_ := by
        rw [hend]
        have hC : i / n ≠ C.length := by
          intro eC
          have : i / n + 1 < B.length := (List.getElem?_eq_some_iff.mp hb2).1
          rw [e] at this; simp at this; omega
        have := sep_get h.sep (b := l) hb (j := C.length) (by simp [e]) hC
        omega
      have htail : w.alloc.tails (it.ptr + 1) = some b2 := by
        rw [hp, hse]; exact h.tails _ _ _ hb hb2
      have hnx : It.next w.alloc it = some { it with ptr := b2, segEnd := b2 + w.alloc.segSize } := by
        unfold It.next
        simp only [hne, if_false]
        rw [if_pos hp, htail]
        rfl
      refine ⟨_, hnx, hend, fun hh => by omega, fun _ => ?_⟩
      exact ⟨hlt', by simp [hs2], ⟨b2, by rw [hdiv]; exact hb2, by simp [h.segSize]⟩, hend⟩
    · -- inside a segment
      have hdiv : (i + 1) / n = i / n := by
        refine Nat.div_eq_of_lt_le ?_ ?_
        · rw [Nat.mul_comm]; omega
        · rw [Nat.add_mul, Nat.mul_comm (i / n) n]; omega
      have hm : (i + 1) % n = i % n + 1 := by
        have hdm2 := Nat.div_add_mod (i + 1) n
        rw [hdiv] at hdm2
        omega
      obtain ⟨b2, hb2, hs2⟩ := slotAddr_eq (B := B) (i := i + 1) hn (by omega)
      rw [hdiv, hb] at hb2
      have hbb := Option.some.inj hb2
      subst hbb
      have hp : it.ptr + 1 = slotAddr B n (i + 1) := by omega
      have hne : it.ptr + 1 ≠ it.end_ := by rw [hp, hend]; exact h.slot_ne_end hn hlt'
      have hne2 : it.ptr + 1 ≠ it.segEnd := by omega
      refine ⟨{ it with ptr := it.ptr + 1 }, by simp [It.next, hne, hne2], hend,
        fun hh => by omega, fun _ => ⟨hlt', hp, ⟨b', by rw [hdiv]; exact hb, hse⟩, hend⟩⟩
  · -- the last slot
    have hr : i / n = C.length := by
      have hle : C.length ≤ i / n := by
        rw [Nat.le_div_iff_mul_le hn]; omega
      have hlt2 : i / n < B.length := (List.getElem?_eq_some_iff.mp hb).1
      rw [e] at hlt2; simp at hlt2; omega
    have hbl : b' = l := by rw [hr, e] at hb; simpa using hb.symm
    have hp : it.ptr + 1 = it.end_ := by
      rw [hend, hptr, hsl, hbl]
      rw [hr, Nat.mul_comm] at hdm
      omega
    refine ⟨{ it with ptr := it.ptr + 1 }, by simp [It.next, hp], hend, fun _ => ?_, fun hh => by
      omega⟩
    rw [← hend]; exact hp

theorem Inv.itBegin_spec (h : Inv n w B) (hn : 0 < n) :
    (w.slots = [] → (itBegin w.alloc).ptr = w.alloc.endp) ∧
    (0 < w.slots.length → ItAt n w B 0 (itBegin w.alloc)) := by
  constructor
  · intro hs
    rcases eq_nil_or_snoc B with e | ⟨C, l, e⟩
    · simp [itBegin, h.begin, e, (h.empty e).2.1]
    · have := (h.last C l e).2.2.1
      simp [hs] at this
  · intro hs
    have hlen := h.len_le
    cases hB : B with
    | nil => rw [hB] at hlen; simp at hlen; simp [hlen] at hs
    | cons x xs =>
      refine ⟨hs, ?_, ⟨x, by simp, ?_⟩, rfl⟩
      · simp [itBegin, h.begin, hB, slotAddr]
      · simp [itBegin, h.begin, hB, h.segSize]

theorem Inv.visit_spec (h : Inv n w B) (hn : 0 < n) (k : Nat) :
    ∀ {i : Nat} {it : It}, ItAt n w B i it → w.slots.length - i = k → ∀ fuel, k ≤ fuel →
      visit w.alloc fuel it = some (w.slots.drop i) := by
  induction k with
  | zero => intro i it hat hk; have := hat.lt; omega
  | succ k ih =>
    intro i it hat hk fuel hf
    obtain ⟨f, rfl⟩ : ∃ f, fuel = f + 1 := ⟨fuel - 1, by omega⟩
    have hne : it.ptr ≠ (itEnd w.alloc).ptr := by
      rw [hat.ptr]; exact h.slot_ne_end hn hat.lt
    obtain ⟨it', hnx, hend', hlast, hmid⟩ := h.next_spec hn hat
    rw [visit]
    simp only [hne, if_false, hnx]
    have hd : w.slots.drop i = it.ptr :: w.slots.drop (i + 1) := by
      rw [List.drop_eq_getElem_cons hat.lt, h.slots_get hat.lt, hat.ptr]
    by_cases hl : i + 1 = w.slots.length
    · have hv : visit w.alloc f it' = some [] := by
        rw [visit.eq_def]; simp [hlast hl, itEnd]
      rw [hv, hd, List.drop_eq_nil_of_le (by omega)]
      rfl
    · rw [ih (hmid (by have := hat.lt; omega)) (by omega) f (by omega), hd]
      rfl

theorem Inv.nextValid_spec (h : Inv n w B) (hn : 0 < n) (valid : Addr → Bool) (k : Nat) :
    ∀ {i : Nat} {it : It}, ItAt n w B i it → w.slots.length - i = k → ∀ fuel, k ≤ fuel →
      ∃ it' j, nextValid w.alloc valid fuel it = some it' ∧ i < j ∧ j ≤ w.slots.length ∧
        it'.end_ = w.alloc.endp ∧
        (w.slots.drop (i + 1)).filter valid = (w.slots.drop j).filter valid ∧
        (j = w.slots.length → it'.ptr = w.alloc.endp) ∧
        (j < w.slots.length → ItAt n w B j it' ∧ valid it'.ptr = true) := by
  induction k with
  | zero => intro i it hat hk; have := hat.lt; omega
  | succ k ih =>
    intro i it hat hk fuel hf
    obtain ⟨f, rfl⟩ : ∃ f, fuel = f + 1 := ⟨fuel - 1, by omega⟩
    obtain ⟨it', hnx, hend', hlast, hmid⟩ := h.next_spec hn hat
    have hlt := hat.lt
    rw [nextValid]
    simp only [hnx]
    by_cases hl : i + 1 = w.slots.length
    · refine ⟨it', i + 1, by simp [hlast hl, hend'], by omega, by omega, hend', rfl, hlast,
        fun hh => by omega⟩
    · have hat' := hmid (by omega)
      have hne : it'.ptr ≠ it'.end_ := by
        rw [hat'.ptr, hend']; exact h.slot_ne_end hn hat'.lt
      simp only [hne, if_false]
      by_cases hv : valid it'.ptr = true
      · exact ⟨it', i + 1, by simp [hv], by omega, by omega, hend', rfl, fun hh => by omega,
          fun _ => ⟨hat', hv⟩⟩
      · obtain ⟨it2, j, h1, h2, h3, h4, h5, h6, h7⟩ := ih hat' (by omega) f (by omega)
        refine ⟨it2, j, by simp [hv, h1], by omega, h3, h4, ?_, h6, h7⟩
        rw [← h5, List.drop_eq_getElem_cons hat'.lt, List.filter_cons, h.slots_get hat'.lt,
          ← hat'.ptr]
        simp [hv]

theorem Inv.visitValidFrom_spec (h : Inv n w B) (hn : 0 < n) (valid : Addr → Bool) (k : Nat) :
    ∀ {i : Nat} {it : It}, ItAt n w B i it → valid it.ptr = true → w.slots.length - i ≤ k →
      ∀ fuel, k ≤ fuel →
      visitValidFrom w.alloc valid fuel it = some ((w.slots.drop i).filter valid) := by
  induction k with
  | zero => intro i it hat _ hk; have := hat.lt; omega
  | succ k ih =>
    intro i it hat hv hk fuel hf
    obtain ⟨f, rfl⟩ : ∃ f, fuel = f + 1 := ⟨fuel - 1, by omega⟩
    have hne : it.ptr ≠ (itEnd w.alloc).ptr := by
      rw [hat.ptr]; exact h.slot_ne_end hn hat.lt
    obtain ⟨it', j, h1, h2, h3, h4, h5, h6, h7⟩ :=
      h.nextValid_spec hn valid _ hat rfl (f + 1) (by omega)
    have hlt := hat.lt
    rw [visitValidFrom]
    simp only [hne, if_false, h1]
    have hd : (w.slots.drop i).filter valid = it.ptr :: (w.slots.drop j).filter valid := by
      rw [List.drop_eq_getElem_cons hat.lt, h.slots_get hat.lt, ← hat.ptr, List.filter_cons, ← h5]
      simp [hv]
    rw [hd]
    by_cases hj : j = w.slots.length
    · have : visitValidFrom w.alloc valid f it' = some [] := by
        rw [visitValidFrom.eq_def]; simp [h6 hj, itEnd]
      rw [this, List.drop_eq_nil_of_le (by omega)]
      rfl
    · obtain ⟨h8, h9⟩ := h7 (by omega)
      rw [ih h8 h9 (by omega) f (by omega)]
      rfl

theorem Inv.visitValid_spec (h : Inv n w B) (hn : 0 < n) (valid : Addr → Bool) (fuel : Nat)
    (hf : w.slots.length ≤ fuel) :
    visitValid w.alloc valid fuel = some (w.slots.filter valid) := by
  obtain ⟨hb0, hb1⟩ := h.itBegin_spec hn
  unfold visitValid mkContainerIt
  by_cases hs : w.slots = []
  · have : (itBegin w.alloc).ptr = (itBegin w.alloc).end_ := hb0 hs
    simp only [this, ne_eq, not_true, if_false]
    rw [visitValidFrom.eq_def]
    simp [hb0 hs, itEnd, hs]
  · have hpos : 0 < w.slots.length := List.length_pos_iff.mpr hs
    have hat := hb1 hpos
    have hne : (itBegin w.alloc).ptr ≠ (itBegin w.alloc).end_ := by
      rw [hat.ptr, hat.end_]; exact h.slot_ne_end hn hpos
    simp only [ne_eq, hne, not_false_eq_true, if_true]
    have hd0 : w.slots = (itBegin w.alloc).ptr :: w.slots.drop 1 := by
      conv_lhs => rw [← List.drop_zero (l := w.slots)]
      rw [List.drop_eq_getElem_cons hpos, h.slots_get hpos, ← hat.ptr]
    by_cases hv : valid (itBegin w.alloc).ptr = true
    · simp only [hv, Bool.not_true, Bool.false_eq_true, if_false]
      have := h.visitValidFrom_spec hn valid _ hat hv (Nat.le_refl _) fuel (by omega)
      simpa using this
    · simp only [Bool.not_eq_true] at hv
      simp only [hv, Bool.not_false, if_true]
      obtain ⟨it', j, h1, h2, h3, h4, h5, h6, h7⟩ :=
        h.nextValid_spec hn valid _ hat rfl fuel (by omega)
      rw [h1]
      have hfil : w.slots.filter valid = (w.slots.drop j).filter valid := by
        conv_lhs => rw [hd0]
        rw [List.filter_cons, ← h5]
        simp [hv]
      simp only
      by_cases hj : j = w.slots.length
      · rw [visitValidFrom.eq_def]
        simp only [h6 hj, itEnd, if_true]
        rw [hfil, List.drop_eq_nil_of_le (by omega)]
        rfl
      · obtain ⟨h8, h9⟩ := h7 (by omega)
        rw [h.visitValidFrom_spec hn valid _ h8 h9 (Nat.le_refl _) fuel (by omega), hfil]

end Mito.Alloc

namespace Mito.Alloc

variable {n : Nat} {w : World} {B : List Addr}

theorem Inv.card_slots (h : Inv n w B) (hn : 0 < n) :
    w.slots.length = w.live.card + w.pending.length := by
  have h1 : w.slots.toFinset = w.live ∪ w.pending.toFinset := by
    ext a; simp [h.mem]
  have h2 : Disjoint w.live w.pending.toFinset := by
    rw [Finset.disjoint_left]
    intro a ha hp
    exact h.disj a (by simpa using hp) ha
  rw [← List.toFinset_card_of_nodup (h.slots_nodup hn), h1, Finset.card_union_of_disjoint h2,
    List.toFinset_card_of_nodup h.nodup]

theorem Inv.exists_fresh (h : Inv n w B) : ∃ b, FreshBlock w.alloc b := by
  have key : ∀ B : List Nat, ∃ b, b ≠ 0 ∧ ∀ a ∈ B, a + n < b := by
    intro B
    induction B with
    | nil => exact ⟨1, by simp⟩
    | cons x xs ih =>
      obtain ⟨b, hb, hx⟩ := ih
      refine ⟨b + x + n + 1, by omega, ?_⟩
      intro a ha
      simp at ha
      rcases ha with rfl | ha
      · omega
      · have := hx a ha; omega
  obtain ⟨b, hb, hB⟩ := key B
  refine ⟨b, hb, fun i a hi => Or.inl ?_⟩
  rw [h.segSize]
  rw [h.starts] at hi
  exact hB a (List.mem_of_getElem? hi)

theorem Inv.index_eq (h : Inv n w B) (hn : 0 < n) (i : Nat) :
    index w.alloc i = if i < B.length * n then some (slotAddr B n i) else none := by
  unfold index
  rw [h.segSize, h.starts]
  by_cases hi : i < B.length * n
  · obtain ⟨b, hb, e⟩ := slotAddr_eq hn hi
    simp [hi, hb, e]
  · have : B.length ≤ i / n := by rw [Nat.le_div_iff_mul_le hn]; omega
    simp [hi, List.getElem?_eq_none this]

theorem Inv.freedFrom_spec (h : Inv n w B) (hn : 0 < n) (k : Nat) :
    ∀ i a, B[i]? = some a → B.length - i = k → ∀ fuel, k ≤ fuel →
      freedFrom w.alloc fuel a = some (B.drop i) := by
  rcases eq_nil_or_snoc B with e | ⟨C, l, e⟩
  · intro i a ha; simp [e] at ha
  obtain ⟨h1, -, -, -⟩ := h.last C l e
  induction k with
  | zero =>
    intro i a ha hk
    have := (List.getElem?_eq_some_iff.mp ha).1
    omega
  | succ k ih =>
    intro i a ha hk fuel hf
    obtain ⟨f, rfl⟩ : ∃ f, fuel = f + 1 := ⟨fuel - 1, by omega⟩
    have hi := (List.getElem?_eq_some_iff.mp ha).1
    have hd : B.drop i = a :: B.drop (i + 1) := by
      rw [List.drop_eq_getElem_cons hi, (List.getElem?_eq_some_iff.mp ha).2]
    rw [freedFrom, h.segSize]
    by_cases hl : i = C.length
    · have : a = l := by rw [hl, e] at ha; simpa using ha.symm
      rw [if_pos (by omega), hd, List.drop_eq_nil_of_le (by rw [e]; simp; omega), ]
    · have hsep := sep_get h.sep (b := l) ha (j := C.length) (by simp [e]) hl
      have hlt : i + 1 < B.length := by
        rw [e] at hi ⊢; simp at hi ⊢; omega
      have hnx : B[i+1]? = some B[i+1] := by simp [hlt]
      rw [if_neg (by omega), h.tails i a _ ha hnx]
      simp only
      rw [ih (i + 1) _ hnx (by omega) f (by omega), hd]
      rfl

end Mito.Alloc
