import Verif.Topology.TeardownLemmas
import Verif.Props.Topology
import Mathlib.Algebra.BigOperators.Group.Finset.Piecewise

/-!
# C102: the end of the topology

Vocabulary in `Verif/Spec/Teardown.lean`: `Slots` (the addresses at which simplices lived), `Live`,
`staleO`, `staleF` (pointers left in the slots of erased simplices), `EarlyStaticsEmpty`.
-/

namespace Mito.Topology

/-- Every history has a list of slots (so that the theorems below say something). -/
theorem slots_exist (s : List Id) (ops : List Op) : Slots s ops (slotsO s ops) (slotsF s ops) := by
  have key : ∀ (L : List Topo) (g : Topo → Finset Id) (i : Id),
      i ∈ (List.range ((L.map fun t => (g t).sup id).sum + 1)).filter
        (fun i => L.any fun t => i ∈ g t) ↔
        ∃ t ∈ L, i ∈ g t := by
    intro L g i
    simp only [List.mem_filter, List.mem_range, List.any_eq_true, decide_eq_true_eq]
    refine ⟨fun h => h.2, fun h => ⟨?_, h⟩⟩
    obtain ⟨t, ht, hi⟩ := h
    have h1 : i ≤ (g t).sup id := Finset.le_sup (f := id) hi
    have h2 : (g t).sup id ≤ (L.map fun t => (g t).sup id).sum :=
      List.single_le_sum (by simp) _ (List.mem_map.2 ⟨t, ht, rfl⟩)
    exact Nat.lt_succ_of_le (h1.trans h2)
  exact ⟨fun N => List.nodup_range.filter _, fun N => List.nodup_range.filter _,
    fun N o => key _ (fun t => (t.lvl N).ors) o, fun N o => key _ (fun t => (t.lvl N).fps) o⟩

/-- **C102.**  Whatever was done to the topology before, simplices erased and slots reused or not, its
destructor touches memory only which it has not given back yet, and gives back everything.  In the
end the count of every simplex is the number of pointers outside of the topology, minus one for every
pointer to it that is left in the slot of an erased simplex.  (`n` is a bound on the orders; the code
has `n = 4`.) -/
theorem teardown_safe (s : List Id) (ops : List Op) (t : Topo) (hr : run (.init s) ops = some t)
    (sO sF : Nat → List Id) (hs : Slots s ops sO sF) (n : Nat)
    (hn : ∀ N, n ≤ N → sO N = [] ∧ sF N = []) :
    ∃ m, t.destroy sO sF n (t.mem sO sF) = some m ∧ (∀ h, ¬ m.Mapped h) ∧
      (∀ N o, m.cntO N o = t.ext N o - t.staleO sF N o) ∧
      (∀ N f, m.cntF N f = t.extF N f - t.staleF sO N f) := by
  have hc := hs.closed hr
  obtain ⟨m, e, d⟩ := destroy_spec hc n (t.mem sO sF) (fun _ _ => rfl) (fun _ _ => rfl)
  refine ⟨m, e, ?_, fun N o => ?_, fun N f => ?_⟩
  · intro h
    cases h with
    | oriented N o =>
      show o ∉ m.mapO N
      rw [d.mapO]
      by_cases hN : N < n
      · simp [hN]
      · rw [if_neg hN]
        simp [Topo.mem, (hn N (by omega)).1]
    | footprint N o =>
      show o ∉ m.mapF N
      rw [d.mapF]
      by_cases hN : N < n
      · simp [hN]
      · rw [if_neg hN]
        simp [Topo.mem, (hn N (by omega)).2]
  · have h1 : m.cntO N o = (t.refs N o : Int) -
        (((sF (N + 1)).map fun f => (t.compF (N + 1) f).count o).sum : Nat) := by
      rw [d.cntO]
      by_cases hN : N + 1 < n
      · rw [if_pos hN]; rfl
      · rw [if_neg hN, (hn (N + 1) (by omega)).2]; rfl
    rw [h1, sum_slots (hs.nodupF (N + 1)) (hc.liveF (N + 1)), Topo.refs, Topo.staleO]
    push_cast
    ring
  · have h1 : m.cntF N f = (t.refsF N f : Int) -
        (((sO N).filter fun o => t.fp N o = f).length : Nat) := by
      rw [d.cntF]
      by_cases hN : N < n
      · rw [if_pos hN]; rfl
      · rw [if_neg hN, (hn N (by omega)).1]; rfl
    have len : ∀ l : List Id, (l.filter fun o => t.fp N o = f).length =
        (l.map fun o => if t.fp N o = f then 1 else 0).sum := by
      intro l
      induction l with
      | nil => rfl
      | cons x l ih =>
        rw [List.filter_cons, List.map_cons, List.sum_cons, ← ih]
        by_cases e : t.fp N x = f
        · simp [e]; omega
        · simp [e]
    have card : ((t.lvl N).ors.filter fun o => (t.lvl N).ofp o = f).card =
        ∑ o ∈ (t.lvl N).ors, if t.fp N o = f then 1 else 0 := by
      rw [Finset.card_filter]; rfl
    rw [h1, len, sum_slots (hs.nodupO N) (hc.liveO N), Topo.refsF, Topo.staleF, len, card]
    push_cast
    ring

/-- **C102 (what holds).**  As long as no simplex was erased, the counts in the end are exactly the
numbers of pointers outside of the topology: zero when all of them are gone. -/
theorem teardown_exact (s : List Id) (ops : List Op) (t : Topo) (hr : run (.init s) ops = some t)
    (sO sF : Nat → List Id) (hs : Slots s ops sO sF) (n : Nat)
    (hn : ∀ N, n ≤ N → sO N = [] ∧ sF N = [])
    (hO : ∀ N, ∀ o ∈ sO N, o ∈ (t.lvl N).ors) (hF : ∀ N, ∀ f ∈ sF N, f ∈ (t.lvl N).fps) :
    ∃ m, t.destroy sO sF n (t.mem sO sF) = some m ∧ (∀ N o, m.cntO N o = t.ext N o) ∧
      (∀ N f, m.cntF N f = t.extF N f) := by
  obtain ⟨m, e, _, a, b⟩ := teardown_safe s ops t hr sO sF hs n hn
  refine ⟨m, e, fun N o => ?_, fun N f => ?_⟩
  · have : (sF (N + 1)).filter (· ∉ (t.lvl (N + 1)).fps) = [] := by
      rw [List.filter_eq_nil_iff]; intro f hf; simp [hF _ f hf]
    rw [a, Topo.staleO, this]; simp
  · have : (sO N).filter (· ∉ (t.lvl N).ors) = [] := by
      rw [List.filter_eq_nil_iff]; intro f hf; simp [hO _ f hf]
    rw [b, Topo.staleF, this]; simp

/-- The history of the witness: a segment is made and erased; the user keeps the two vertices. -/
def erasedSegment : List Op := [.vertex, .vertex, .segment 0 1, .erase 1 5]

/-- **C102 (finding).**  With an erased simplex the counts go wrong at the end: its slot is destroyed
a second time and releases its pointers again.  Here the user holds one pointer to the vertex `0`,
but its count is zero after the destruction of the topology. -/
theorem teardown_counts_wrong :
    ∃ t m, run (.init (List.range 20)) erasedSegment = some t ∧
      t.destroy (slotsO (List.range 20) erasedSegment) (slotsF (List.range 20) erasedSegment) 4
        (t.mem (slotsO (List.range 20) erasedSegment) (slotsF (List.range 20) erasedSegment)) =
          some m ∧
      t.extF 0 0 = 1 ∧ t.refsF 0 0 = 1 ∧ m.cntF 0 0 = 0 := by
  refine ⟨_, _, rfl, rfl, ?_⟩
  decide +kernel

/-- The order of the data members of `Topology` matters: destroying the vertices before the segments
touches memory given back. -/
example : ∃ t, run (.init (List.range 20)) [.vertex, .vertex, .segment 0 1] = some t ∧
    (let sO := slotsO (List.range 20) [.vertex, .vertex, .segment 0 1]
     let sF := slotsF (List.range 20) [.vertex, .vertex, .segment 0 1]
     ((t.destroyFactory sO sF 0 (t.mem sO sF)).bind (t.destroyFactory sO sF 1)).isSome = false ∧
     ((t.destroyFactory sO sF 1 (t.mem sO sF)).bind (t.destroyFactory sO sF 0)).isSome = true) := by
  refine ⟨_, rfl, ?_⟩
  decide +kernel

/-- **C102.**  A process in which static objects of the user hold pointers into the topology ends
without touching memory given back **exactly when** those that were complete before the first call of
`topology()` hold none: objects are destroyed in the reverse order of their construction. -/
theorem exit_safe_iff (s : List Id) (ops : List Op) (t : Topo) (hr : run (.init s) ops = some t)
    (sO sF : Nat → List Id) (hs : Slots s ops sO sF) (n : Nat)
    (hn : ∀ N, n ≤ N → sO N = [] ∧ sF N = []) (es : List Event) (held : Nat → List Handle)
    (hl : ∀ k, .static k ∈ es → ∀ h ∈ held k, t.Live h) (he : .topology ∈ es) :
    (t.atExit sO sF held n (statics es).reverse (t.mem sO sF)).isSome ↔
      EarlyStaticsEmpty es held := by
  have hc := hs.closed hr
  obtain ⟨A, B, post, h1, h2, h3, h4, h5⟩ := statics_split he
  have e1 : (statics es).reverse = B.reverse ++ .topology :: A.reverse := by rw [h1]; simp
  obtain ⟨m1, em1, eO, eF⟩ := atExit_before t sO sF held n B.reverse (t.mem sO sF) (by simpa using h4)
    (by
      intro k hk h hh
      have := hl k (h5 _ (by simpa using hk)) h hh
      cases h with
      | oriented N o =>
        show o ∈ (sO N).toFinset
        simpa using hc.liveO N o this
      | footprint N o =>
        show o ∈ (sF N).toFinset
        simpa using hc.liveF N o this)
  obtain ⟨m2, em2, d⟩ := destroy_spec hc n m1 (fun M _ => by rw [eO]; rfl)
    (fun M _ => by rw [eF]; rfl)
  have hno : ∀ h, ¬ m2.Mapped h := by
    intro h
    cases h with
    | oriented N o =>
      show o ∉ m2.mapO N
      rw [d.mapO, eO]
      by_cases hN : N < n
      · simp [hN]
      · rw [if_neg hN]
        simp [Topo.mem, (hn N (by omega)).1]
    | footprint N o =>
      show o ∉ m2.mapF N
      rw [d.mapF, eF]
      by_cases hN : N < n
      · simp [hN]
      · rw [if_neg hN]
        simp [Topo.mem, (hn N (by omega)).2]
  have e2 : t.atExit sO sF held n (statics es).reverse (t.mem sO sF) =
      t.atExit sO sF held n A.reverse m2 := by
    rw [e1, atExit_append, em1]
    simp only [Option.bind_some, Topo.atExit, em2]
  rw [e2, atExit_after t sO sF held n A.reverse m2 (by simpa using h3) hno]
  constructor
  · intro h pre k post' hes hp
    apply h
    simp only [List.mem_reverse]
    rw [h2] at hes
    rcases List.append_eq_append_iff.1 hes with ⟨c, e, e'⟩ | ⟨c, e, e'⟩
    · cases c with
      | nil => simp at e'
      | cons x c =>
        simp only [List.cons_append, List.cons.injEq] at e'
        exact absurd (by rw [e]; simp [e'.1]) hp
    · cases c with
      | nil => simp at e'
      | cons x c =>
        simp only [List.cons_append, List.cons.injEq] at e'
        rw [e]; simp [e'.1]
  · intro h k hk
    simp only [List.mem_reverse] at hk
    obtain ⟨pre, post', e⟩ := List.append_of_mem hk
    refine h pre k (post' ++ .topology :: post) (by rw [h2, e]; simp) ?_
    intro hp
    exact h3 (by rw [e]; simp [hp])

/-- In particular static objects whose initializer calls `topology()` itself may keep what they like:
the topology is complete before they are. -/
theorem exit_safe_late (es : List Event) (held : Nat → List Handle)
    (h : es.head? = some .topology) : EarlyStaticsEmpty es held := by
  intro pre k post he hp
  cases es with
  | nil => simp at h
  | cons e es =>
    simp only [List.head?_cons, Option.some.injEq] at h
    subst h
    cases pre with
    | nil => simp at he
    | cons p pre =>
      simp only [List.cons_append, List.cons.injEq] at he
      exact absurd (by simp [← he.1]) hp

/-- a static mesh at namespace scope, complete before `main` calls `topology()`, that still has a
vertex at the end: memory given back is touched; with the declarations the other way round it is not -/
example : ∃ t, run (.init (List.range 20)) [.vertex] = some t ∧
    (let sO := slotsO (List.range 20) [.vertex]
     let sF := slotsF (List.range 20) [.vertex]
     (t.atExit sO sF (fun _ => [.footprint 0 0]) 4 (statics [.static 0, .topology]).reverse
       (t.mem sO sF)).isSome = false ∧
     (t.atExit sO sF (fun _ => [.footprint 0 0]) 4
       (statics [.topology, .static 0, .topology]).reverse (t.mem sO sF)).isSome = true) := by
  refine ⟨_, rfl, ?_⟩
  decide +kernel

end Mito.Topology
