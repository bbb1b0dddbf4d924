import Verif.Mesh.MeshLemmas

/-!
# C23, C24, C27: the mesh container

Vocabulary in `Verif/Spec/Mesh.lean`: `Reachable`, `recount`, `FreshBlocks`, `keepFirst`.
-/

set_option linter.unusedVariables false

namespace Mito.Meshes

open Mito.Alloc Mito.SegVec

variable {α : Type} {fac : α → List (Nat × Int)} {m : Mesh α} {s : Abs α} {known : Finset Nat}

/-- No undefined behaviour: on every reachable mesh an insertion succeeds, and so does every erasure
of a cell that was inserted before. -/
theorem mesh_operations_succeed (h : Reachable fac m s known) :
    (∀ c b, FreshBlock m.cells.alloc b → ∃ m' a, m.insert fac c true b = some (m', a) ∧
      m.insertNodes fac c b = some (m', a) ∧ s a = none) ∧
    (∀ a ∈ known, ∃ m', m.erase fac a = some m') := by
  obtain ⟨w, hw⟩ := h.inv
  constructor
  · intro c b hb
    obtain ⟨m', h1, h2, _⟩ := hw.insert c b hb
    exact ⟨m', _, h1, h1, h2⟩
  · intro a ha
    obtain ⟨m', _, h1, _⟩ := hw.erase a ha
    exact ⟨m', h1⟩

/-- The cells of a mesh: a loop over `cells()` visits the live cells, each once, and `nCells` is their
number. -/
theorem cellList_spec (h : Reachable fac m s known) :
    ∃ l, SegVec.elements m.cells (capacity m.cells) = some l ∧ l.Nodup ∧ (∀ a, a ∈ l ↔ s a ≠ none) ∧
      m.cellList = some (l.filterMap s) ∧ m.nCells = (l.filterMap s).length := by
  obtain ⟨w, hw⟩ := h.inv
  have hnd := hw.coupled.reach.slots_nodup (by decide)
  have hfm : (w.slots.filter fun a => (s a).isSome).filterMap s = w.slots.filterMap s := by
    apply filterMap_eq_of_filter_eq
    simp [List.filter_filter]
  have hlive : ∀ a, s a ≠ none → a ∈ w.slots := by
    intro a ha
    rw [← hw.coupled.mem]
    obtain ⟨c, hc⟩ := Option.ne_none_iff_exists'.mp ha
    rw [hw.coupled.val a c hc]
    simp
  refine ⟨w.slots.filter fun a => (s a).isSome, hw.elements _ hw.capacity, hnd.filter _, ?_, ?_, ?_⟩
  · intro a
    simp only [List.mem_filter]
    constructor
    · rintro ⟨_, h2⟩ e
      simp [e] at h2
    · intro ha
      exact ⟨hlive a ha, by simpa [Option.isSome_iff_ne_none] using ha⟩
  · rw [hfm]; exact hw.cellList
  · have hlen : ((w.slots.filter fun a => (s a).isSome).filterMap s).length =
        (w.slots.filter fun a => (s a).isSome).length := by
      rw [hfm]
      generalize w.slots = l
      induction l with
      | nil => rfl
      | cons a l ih => cases hs : s a <;> simp [hs, ih]
    have hset : w.live = (w.slots.filter fun a => (s a).isSome).toFinset := by
      ext a
      simp only [List.mem_toFinset, List.mem_filter, hw.coupled.live]
      constructor
      · intro ha
        exact ⟨hlive a ha, by simpa [Option.isSome_iff_ne_none] using ha⟩
      · rintro ⟨_, h2⟩ e
        simp [e] at h2
    rw [hlen, Mesh.nCells, SegVec.size, ← hw.coupled.alloc, size_eq_card (by decide) hw.coupled.reach,
      hset, List.toFinset_card_of_nodup (hnd.filter _)]

/-- **C23.**  After any history of insertions and erasures the orientation map is a recount of the
facets of the live cells: for every footprint the number of occurrences with each orientation, and no
entry for a footprint that does not occur. -/
theorem orientations_recount (h : Reachable fac m s known) :
    ∃ cells, m.cellList = some cells ∧ m.orient = recount (cells.flatMap fac) := by
  obtain ⟨w, hw⟩ := h.inv
  exact ⟨_, hw.cellList, hw.orient⟩

/-- **C23.**  The order and the number of insertions and erasures do not matter: two meshes with the
same cells, in whatever order, have the same orientation map. -/
theorem orientations_history_independent {m' : Mesh α} {s' : Abs α} {known' : Finset Nat}
    (h : Reachable fac m s known) (h' : Reachable fac m' s' known') (l l' : List α)
    (hl : m.cellList = some l) (hl' : m'.cellList = some l') (hp : l.Perm l') :
    m.orient = m'.orient := by
  obtain ⟨c, e1, e2⟩ := orientations_recount h
  obtain ⟨c', e1', e2'⟩ := orientations_recount h'
  rw [hl] at e1; rw [hl'] at e1'
  obtain rfl := by simpa using e1
  obtain rfl := by simpa using e1'
  rw [e2, e2']
  exact recount_perm (hp.flatMap_right fac)

/-- **C24.**  `isOnBoundary` throws exactly when no live cell has the facet, with whatever
orientation; otherwise it is true exactly when no live cell has it with the opposite orientation. -/
theorem isOnBoundary_iff (h : Reachable fac m s known) (cells : List α)
    (hc : m.cellList = some cells) (hs : ∀ c ∈ cells, ∀ f ∈ fac c, f.2 = 1 ∨ f.2 = -1)
    (k : Nat) (sg : Int) (hsg : sg = 1 ∨ sg = -1) :
    (m.isOnBoundary (k, sg) = none ↔ ∀ c ∈ cells, ∀ f ∈ fac c, f.1 ≠ k) ∧
    (m.isOnBoundary (k, sg) = some true ↔
      (∃ c ∈ cells, ∃ f ∈ fac c, f.1 = k) ∧ ∀ c ∈ cells, (k, -sg) ∉ fac c) := by
  obtain ⟨c, e1, e2⟩ := orientations_recount h
  rw [hc] at e1
  obtain rfl := by simpa using e1
  have hz : (cells.flatMap fac).countP (fun f => f.1 = k) = 0 ↔ ∀ c ∈ cells, ∀ f ∈ fac c, f.1 ≠ k := by
    rw [List.countP_eq_zero]
    simp only [List.mem_flatMap, forall_exists_index, and_imp, decide_eq_true_eq]
    exact ⟨fun H c hc f hf => H f c hc hf, fun H f c hc hf => H c hc f hf⟩
  unfold Mesh.isOnBoundary
  rw [e2]
  simp only [recount]
  by_cases h0 : (cells.flatMap fac).countP (fun f => f.1 = k) = 0
  · simp only [h0, if_true]
    have := hz.1 h0
    refine ⟨⟨fun _ => this, fun _ => by simp⟩, ⟨fun H => by simp at H, ?_⟩⟩
    rintro ⟨⟨c, hc, f, hf, e⟩, _⟩
    exact absurd e (this c hc f hf)
  · simp only [h0, if_false]
    have hne : ¬ ∀ c ∈ cells, ∀ f ∈ fac c, f.1 ≠ k := fun H => h0 (hz.2 H)
    refine ⟨⟨fun H => by simp at H, fun H => absurd H hne⟩, ?_⟩
    have hex : ∃ c ∈ cells, ∃ f ∈ fac c, f.1 = k := by
      by_contra hc
      apply hne
      intro c hc' f hf e
      exact hc ⟨c, hc', f, hf, e⟩
    rw [and_iff_right hex]
    rcases hsg with rfl | rfl
    · simp only [Int.reduceNeg, show ¬ ((1 : Int) = -1) by decide, if_false, Option.some.injEq,
        beq_iff_eq, Int.natCast_eq_zero, List.countP_eq_zero, List.mem_flatMap, forall_exists_index,
        and_imp, decide_eq_true_eq, not_and, not_not]
      constructor
      · intro H c hc hf
        have := H _ c hc hf rfl
        simp at this
      · intro H f c hc hf e
        rcases hs c hc f hf with h1 | h1
        · exact h1
        · exact absurd (by rw [← e, ← h1]; exact hf) (H c hc)
    · simp only [if_true, Option.some.injEq, neg_neg,
        beq_iff_eq, Int.natCast_eq_zero, List.countP_eq_zero, List.mem_flatMap, forall_exists_index,
        and_imp, decide_eq_true_eq, not_and, not_not]
      constructor
      · intro H c hc hf
        exact H _ c hc hf rfl rfl
      · intro H f c hc hf e h1
        exact H c hc (by rw [← e, ← h1]; exact hf)

/-- **C27.**  Erasing duplicates succeeds, leaves a reachable mesh (so that the orientation map is
again a recount, C23) and keeps, in their order, exactly the cells that are the first ones with their
key. -/
theorem eraseDuplicates_keeps_first {κ : Type} [DecidableEq κ] (key : α → κ)
    (h : Reachable fac m s known) (cells : List α) (hc : m.cellList = some cells) :
    ∃ m' s', m.eraseDuplicates fac key = some m' ∧ Reachable fac m' s' known ∧
      m'.cellList = some (keepFirst key [] cells) ∧
      m'.orient = recount ((keepFirst key [] cells).flatMap fac) := by
  obtain ⟨w, hw⟩ := h.inv
  obtain ⟨B, hB⟩ := hw.coupled.reach.inv (by decide)
  rw [hw.cellList] at hc
  obtain rfl := by simpa using hc
  obtain ⟨hb0, hb1⟩ := hB.itBegin_spec (by decide)
  have hcap := hw.capacity
  -- it is enough to know the abstract map
  have fin : ∀ m' s' w', m.eraseDuplicates fac key = some m' → Reachable fac m' s' known →
      MInv fac m' s' known w' → w'.slots = w.slots →
      w.slots.filterMap s' = keepFirst key [] (w.slots.filterMap s) →
      ∃ m' s', m.eraseDuplicates fac key = some m' ∧ Reachable fac m' s' known ∧
        m'.cellList = some (keepFirst key [] (w.slots.filterMap s)) ∧
        m'.orient = recount ((keepFirst key [] (w.slots.filterMap s)).flatMap fac) := by
    intro m' s' w' h1 h2 h3 h4 h5
    refine ⟨m', s', h1, h2, ?_, ?_⟩
    · rw [h3.cellList, h4, h5]
    · rw [h3.orient, h4, h5]
  have hend : (itEnd m.cells.alloc).ptr = w.alloc.endp := by rw [hw.coupled.alloc]; rfl
  by_cases hs : w.slots = []
  · have hptr := hb0 hs
    apply fin m s w _ h hw rfl (by simp [hs, keepFirst])
    unfold Mesh.eraseDuplicates mkContainerIt
    rw [← hw.coupled.alloc]
    have e : ¬ (itBegin w.alloc).ptr ≠ (itBegin w.alloc).end_ := by
      rw [hptr]; simp [itBegin]
    simp only [e, if_false]
    have : (itEnd w.alloc).ptr = (itBegin w.alloc).ptr := by rw [hptr]; rfl
    rw [eraseDuplicatesFrom.eq_def]
    simp [this]
  · have hpos : 0 < w.slots.length := List.length_pos_iff.mpr hs
    have hat := hb1 hpos
    have hne : (itBegin w.alloc).ptr ≠ (itBegin w.alloc).end_ := by
      rw [hat.ptr, hat.end_]; exact hB.slot_ne_end (by decide) hpos
    by_cases hv : (s (itBegin w.alloc).ptr).isSome
    · obtain ⟨m', s', w', r1, r2, r3, r4, _, r6⟩ := eraseDuplicatesFrom_spec key (w.slots.length)
        (seen := []) h hw hB hat hv (by omega) (capacity m.cells) hcap
      apply fin m' s' w' _ r2 r3 r4 (by simpa using r6)
      unfold Mesh.eraseDuplicates mkContainerIt
      rw [← hw.coupled.alloc]
      simp only [hne, ne_eq, not_false_eq_true, if_true, hw.valid, hv, Bool.not_true,
        Bool.false_eq_true, if_false]
      exact r1
    · obtain ⟨it', j, n1, n2, n3, n4, n5, n6, n7⟩ := hB.nextValid_spec (by decide)
        (isValidAt m.cells) (w.slots.length - 0) hat rfl (capacity m.cells) (by omega)
      rw [funext hw.valid] at n5
      have hfm : w.slots.filterMap s = (w.slots.drop j).filterMap s := by
        rw [← filterMap_eq_of_filter_eq n5]
        conv_lhs => rw [← List.drop_zero (l := w.slots), List.drop_eq_getElem_cons hpos]
        rw [List.filterMap_cons, hB.slots_get hpos, ← hat.ptr]
        simp at hv
        simp [hv]
      have hbegin : mkContainerIt m.cells.alloc (isValidAt m.cells) (capacity m.cells)
          (itBegin m.cells.alloc) = some it' := by
        unfold mkContainerIt
        rw [← hw.coupled.alloc]
        simp only [hne, ne_eq, not_false_eq_true, if_true, hw.valid, hv, Bool.not_false]
        exact n1
      by_cases hj : j = w.slots.length
      · apply fin m s w _ h hw rfl (by rw [hfm, hj]; simp [keepFirst])
        unfold Mesh.eraseDuplicates
        simp only [hbegin, hend]
        rw [eraseDuplicatesFrom.eq_def]
        simp [n6 hj]
      · obtain ⟨hat', hv'⟩ := n7 (by omega)
        obtain ⟨m', s', w', r1, r2, r3, r4, r5, r6⟩ := eraseDuplicatesFrom_spec key (w.slots.length)
          (seen := []) h hw hB hat' (by rw [← hw.valid]; exact hv') (by omega) (capacity m.cells) hcap
        apply fin m' s' w' _ r2 r3 r4 ?_
        · unfold Mesh.eraseDuplicates
          simp only [hbegin, hend]
          exact r1
        · rw [hfm, ← r6]
          have hfm0 := hfm
          rw [← List.take_append_drop j w.slots, List.filterMap_append] at hfm
          have hlen : (w.slots.take j ++ w.slots.drop j).drop j = w.slots.drop j := by
            rw [List.take_append_drop]
          rw [hlen] at hfm
          have hnil : (w.slots.take j).filterMap s = [] := List.append_left_eq_self.mp hfm
          conv_lhs => rw [← List.take_append_drop j w.slots, List.filterMap_append]
          have : (w.slots.take j).filterMap s' = [] := by
            rw [← hnil]
            apply List.filterMap_congr
            exact r5
          rw [this, List.nil_append]

/-- **C27.**  What `keepFirst` means: no key twice, in the order of the list, and for every key the
first element with that key. -/
theorem keepFirst_spec {κ : Type} [DecidableEq κ] (key : α → κ) (l : List α) :
    ((keepFirst key [] l).map key).Nodup ∧ (keepFirst key [] l).Sublist l ∧
      ∀ k, (keepFirst key [] l).find? (fun c => key c = k) = l.find? (fun c => key c = k) := by
  obtain ⟨h1, h2, h3⟩ := keepFirst_facts key l []
  exact ⟨h1.1, h2, fun k => h3 k (by simp)⟩

/-- **C27.**  Filling an empty mesh with cells: they come out in the order of insertion. -/
theorem insertAll_cells (l : List α) (bs : List Nat)
    (hf : FreshBlocks fac (Mesh.init : Mesh α) l bs) :
    ∃ m' s' known', (Mesh.init : Mesh α).insertAll fac l bs = some m' ∧ Reachable fac m' s' known' ∧
      m'.cellList = some l ∧ m'.orient = recount (l.flatMap fac) := by
  obtain ⟨m', s', known', w', e1, e2, e3, e4⟩ := insertAll_spec l bs .init MInv.init rfl hf
  simp at e4
  exact ⟨m', s', known', e1, e2, by rw [e3.cellList, e4], by rw [e3.orient, e4]⟩

/-! ### Examples and a finding -/

/-- in the examples a cell is the list of its facets -/
def exFac : List (Nat × Int) → List (Nat × Int) := fun c => c

/-- three segments `1 → 2`, `2 → 3` and again `1 → 2` -/
def exSegs : List (List (Nat × Int)) := [[(1, -1), (2, 1)], [(2, -1), (3, 1)], [(1, -1), (2, 1)]]

/-- a reachable mesh of three cells, its counts, a facet on the boundary, one that is not, one that
does not occur -/
theorem exMesh : ∃ m s known, Reachable exFac m s known ∧ m.cellList = some exSegs ∧
    m.orient 2 = some (2, 1) ∧ m.isOnBoundary (1, -1) = some true ∧
    m.isOnBoundary (2, 1) = some false ∧ m.isOnBoundary (7, 1) = none := by
  obtain ⟨bs, hbs⟩ := freshBlocks_exist (fac := exFac) exSegs MInv.init
  obtain ⟨m, s, known, _, h2, h3, h4⟩ := insertAll_cells exSegs bs hbs
  refine ⟨m, s, known, h2, h3, ?_, ?_, ?_, ?_⟩ <;>
    (simp only [Mesh.isOnBoundary, h4]; decide +kernel)

/-- erasing the duplicates of that mesh leaves two cells -/
example : ∃ m s known m', Reachable exFac m s known ∧ m.cellList = some exSegs ∧
    m.eraseDuplicates exFac id = some m' ∧
    m'.cellList = some [[(1, -1), (2, 1)], [(2, -1), (3, 1)]] ∧ m'.orient 2 = some (1, 1) := by
  obtain ⟨m, s, known, h1, h2, _⟩ := exMesh
  obtain ⟨m', s', e1, _, e3, e4⟩ := eraseDuplicates_keeps_first id h1 exSegs h2
  exact ⟨m, s, known, m', h1, h2, e1, by rw [e3]; decide +kernel, by rw [e4]; decide +kernel⟩

/-- Finding (excluded from `Reachable`): inserting a cell that was erased from a mesh.  The copy keeps
the flag "invalid", so that the cell is counted by `nCells` and by the orientation map but no loop
visits it. -/
theorem insert_erased_cell_invisible :
    ∃ (m0 m1 m2 : Mesh (List (Nat × Int))) (a a' : Nat) (c : List (Nat × Int)) (valid : Bool),
      Mesh.init.insert exFac [(1, -1), (2, 1)] true 1000 = some (m0, a) ∧
      m0.erase exFac a = some m1 ∧ m1.cells.mem a = some (c, valid) ∧
      Mesh.init.insert exFac c valid 1000 = some (m2, a') ∧
      m2.nCells = 1 ∧ m2.orient 1 = some (0, 1) ∧ m2.cellList = some [] := by
  refine ⟨_, _, _, _, _, _, _, rfl, rfl, rfl, rfl, ?_⟩
  decide +kernel

end Mito.Meshes
