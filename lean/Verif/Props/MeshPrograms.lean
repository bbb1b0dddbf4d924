import Verif.Mesh.ProgramsAddressLemmas
import Verif.Mesh.ProgramTests

/-!
# C121: programs that use the topology and a mesh

A program may build simplices, insert cells, erase cells and simplices, and go on as the answers tell it.  If it is
careful, the mesh is what the calls say and nothing depends on the addresses; the tests of the repository are such
programs.  Programs that are not careful fail in the ways that the last theorems show.
-/

namespace Mito.MeshPrograms

open Mito.Topology Mito.Meshes

/-- In a state that a careful program reaches: the simplices of all cells in the mesh are alive; the orientations are
those of the facets of these cells, and of no other; `nCells` is their number; no cell of a reference is lost. -/
theorem careful_programs_keep_the_mesh {s : State} (h : MReach s) :
    (∀ v ∈ cells s, ∃ o, lookO s.base.env v = some (s.order + 1, o) ∧ o ∈ (s.base.topo.lvl (s.order + 1)).ors) ∧
      s.orient = recount (facetList s) ∧ s.count = (cells s).length ∧ (∀ i ∈ s.refs, i < s.slots.length) := by
  have hi := h.inv
  refine ⟨fun v hv => ?_, hi.orient, hi.count, hi.refs⟩
  obtain ⟨F, hF⟩ := hi.live v (mem_cells.mp hv)
  obtain ⟨o, ho, _⟩ := facetsOf_some hF
  exact ⟨o, ho, hi.good.liveO (lookO_iff.mp ho)⟩

/-- Careful calls lead from such states to such states. -/
theorem careful_calls_stay {s s1 : State} (h : MReach s) {c : Call} (hc : c.careful s) (e : mexec s c = some s1) : MReach s1 := by
  obtain ⟨supply, n, p, m, hp, hr⟩ := h
  suffices H : ∀ (p : MProg) (s0 : State), p.careful s0 → p.run s0 = some (s, m) →
      ∃ q : MProg, q.careful s0 ∧ q.run s0 = some (s1, 0) by
    obtain ⟨q, hq, hr'⟩ := H p _ hp hr
    exact ⟨supply, n, q, 0, hq, hr'⟩
  intro p
  induction p with
  | done k =>
    intro s0 _ hr
    simp only [MProg.run, Option.some.injEq, Prod.mk.injEq] at hr
    obtain ⟨rfl, _⟩ := hr
    exact ⟨.call c (.done 0), ⟨hc, fun _ _ => trivial⟩, by simp [MProg.run, e]⟩
  | call d p ih =>
    intro s0 hp hr
    simp only [MProg.run] at hr
    split at hr
    · simp at hr
    · rename_i s2 e2
      obtain ⟨q, hq, hr'⟩ := ih s2 (hp.2 s2 e2) hr
      refine ⟨.call d q, ⟨hp.1, fun s' e' => ?_⟩, by simp only [MProg.run, e2]; exact hr'⟩
      rw [e2] at e'
      simp only [Option.some.injEq] at e'
      exact e' ▸ hq
  | ask q k ih =>
    intro s0 hp hr
    exact ih _ s0 hp hr

/-- Erasing a cell through any reference, and erasing the duplicates, never fails; nor do the questions for the number
of cells and for the size of the boundary. -/
theorem erasing_never_fails {s : State} (h : MReach s) :
    (∀ k < s.refs.length, ∃ s1, mexec s (.erase k) = some s1) ∧ (∀ b, ∃ s1, mexec s (.eraseDuplicates b) = some s1) ∧
      ∃ n, mask s .boundarySize = some n := by
  have hi := h.inv
  refine ⟨fun k hk => ?_, fun b => hi.eraseDuplicatesIn_succeeds, ?_⟩
  · simp only [mexec, List.getElem?_eq_getElem hk]
    exact hi.eraseSlot_succeeds (hi.refs _ (List.getElem_mem hk))
  · simp only [mask]
    rw [allFacets_eq hi fun _ hv => hv]
    have key : ∀ L : List (Nat × Int), (∀ f ∈ L, f ∈ facetList s) → ∃ n, countBoundary s L = some n := by
      intro L
      induction L with
      | nil => exact fun _ => ⟨0, rfl⟩
      | cons f L ih =>
        intro hL
        obtain ⟨n, hn⟩ := ih fun x hx => hL x (by simp [hx])
        have hf := hL f (by simp)
        have : (facetList s).countP (fun g => g.1 = f.1) ≠ 0 := by
          rw [Nat.ne_zero_iff_zero_lt, List.countP_pos_iff]
          exact ⟨f, hf, by simp⟩
        simp only [countBoundary, hn, isOnBoundary, hi.orient, recount, this, if_false]
        exact ⟨_, rfl⟩
    exact key _ fun f hf => hf

/-- the answer of `isOnBoundary` -/
theorem isOnBoundary_eq {s : State} (h : MReach s) {f : Nat × Int} (hs : f.2 = 1 ∨ f.2 = -1)
    (hf : ∃ g ∈ facetList s, g.1 = f.1) : isOnBoundary s f = some (decide (∀ g ∈ facetList s, g.1 = f.1 → g.2 = f.2)) := by
  have hi := h.inv
  obtain ⟨g, hg, e⟩ := hf
  have h0 : (facetList s).countP (fun g => g.1 = f.1) ≠ 0 := by
    rw [Nat.ne_zero_iff_zero_lt, List.countP_pos_iff]
    exact ⟨g, hg, by simp [e]⟩
  have hpm : ∀ g ∈ facetList s, g.2 = 1 ∨ g.2 = -1 := by
    intro g hg
    obtain ⟨v, hv, hg⟩ := List.mem_flatMap.mp hg
    obtain ⟨F, hF⟩ := hi.live v (mem_cells.mp hv)
    rw [hF] at hg
    obtain ⟨o, ho, rfl⟩ := facetsOf_some hF
    obtain ⟨x, hx, rfl⟩ := List.mem_map.mp hg
    exact hi.good.ok.inv.sg _ _ (composition_live hi.good.ok.inv (hi.good.liveO (lookO_iff.mp ho)) x hx)
  simp only [isOnBoundary, hi.orient, recount, h0, if_false, Option.some.injEq]
  rw [Bool.eq_iff_iff]
  rcases hs with hs | hs
  · rw [if_neg (by omega)]
    simp only [beq_iff_eq, decide_eq_true_eq, Nat.cast_eq_zero, List.countP_eq_zero]
    constructor
    · intro hc g hg e
      have := hc g hg
      simp only [e, true_and, ne_eq, decide_not, Bool.not_eq_true', decide_eq_false_iff_not, Decidable.not_not] at this
      omega
    · intro hc g hg
      simp only [decide_eq_true_eq, not_and, not_not]
      intro e
      have := hc g hg e
      omega
  · rw [if_pos hs]
    simp only [beq_iff_eq, decide_eq_true_eq, Nat.cast_eq_zero, List.countP_eq_zero]
    constructor
    · intro hc g hg e
      have := hc g hg
      simp only [e, true_and] at this
      rcases hpm g hg with h1 | h1 <;> omega
    · intro hc g hg
      simp only [not_and]
      intro e
      have := hc g hg e
      omega

/-- A simplex is on the boundary of the mesh if it is a facet of a cell in the mesh, and of none with the opposite
orientation; the question is an exception if it is a facet of no cell in the mesh. -/
theorem is_on_boundary_iff {s : State} (h : MReach s) {v : Nat} {o : Id} (hv : lookO s.base.env v = some (s.order, o)) :
    (mask s (.isOnBoundary v) = none ↔ ∀ g ∈ facetList s, g.1 ≠ s.base.topo.fp s.order o) ∧
    (mask s (.isOnBoundary v) = some 1 ↔ (∃ g ∈ facetList s, g.1 = s.base.topo.fp s.order o) ∧
      ∀ g ∈ facetList s, g.1 = s.base.topo.fp s.order o → g.2 = s.base.topo.sg s.order o) := by
  have hi := h.inv
  have hsg := hi.good.ok.inv.sg _ o (hi.good.liveO (lookO_iff.mp hv))
  simp only [mask, hv, if_true]
  by_cases hf : ∃ g ∈ facetList s, g.1 = s.base.topo.fp s.order o
  · rw [isOnBoundary_eq h (f := (s.base.topo.fp s.order o, s.base.topo.sg s.order o)) hsg hf]
    simp only [Option.map_some, Option.some.injEq, reduceCtorEq, false_iff, hf, true_and]
    refine ⟨fun hc => ?_, ?_⟩
    · obtain ⟨g, hg, e⟩ := hf
      exact hc g hg e
    · by_cases hall : ∀ g ∈ facetList s, g.1 = s.base.topo.fp s.order o → g.2 = s.base.topo.sg s.order o
      · rw [decide_eq_true hall]
        simpa [ofBool] using hall
      · rw [decide_eq_false hall]
        simpa [ofBool] using hall
  · have h0 : (facetList s).countP (fun g => g.1 = s.base.topo.fp s.order o) = 0 := by
      rw [List.countP_eq_zero]
      intro g hg
      simp only [decide_eq_true_eq]
      exact fun e => hf ⟨g, hg, e⟩
    simp only [isOnBoundary, hi.orient, recount, h0, if_true, Option.map_none, true_iff, reduceCtorEq, false_iff, hf, false_and,
      not_false_eq_true, and_true]
    exact fun g hg e => hf ⟨g, hg, e⟩

/-- `boundary_size` is the number of facets of cells in the mesh that have no partner with the opposite orientation. -/
theorem boundary_size_eq {s : State} (h : MReach s) : mask s .boundarySize =
    some ((facetList s).countP fun f => ∀ g ∈ facetList s, g.1 = f.1 → g.2 = f.2 : Nat) := by
  have hi := h.inv
  have hpm : ∀ g ∈ facetList s, g.2 = 1 ∨ g.2 = -1 := by
    intro g hg
    obtain ⟨v, hv, hg⟩ := List.mem_flatMap.mp hg
    obtain ⟨F, hF⟩ := hi.live v (mem_cells.mp hv)
    rw [hF] at hg
    obtain ⟨o, ho, rfl⟩ := facetsOf_some hF
    obtain ⟨x, hx, rfl⟩ := List.mem_map.mp hg
    exact hi.good.ok.inv.sg _ _ (composition_live hi.good.ok.inv (hi.good.liveO (lookO_iff.mp ho)) x hx)
  have key : ∀ L : List (Nat × Int), (∀ f ∈ L, f ∈ facetList s) →
      countBoundary s L = some (L.countP fun f => ∀ g ∈ facetList s, g.1 = f.1 → g.2 = f.2 : Nat) := by
    intro L
    induction L with
    | nil => exact fun _ => rfl
    | cons f L ih =>
      intro hL
      have hf := hL f (by simp)
      simp only [countBoundary]
      rw [ih fun x hx => hL x (by simp [hx]), isOnBoundary_eq h (hpm f hf) ⟨f, hf, rfl⟩]
      refine congrArg some ?_
      rw [List.countP_cons]
      push_cast
      by_cases hd : ∀ g ∈ facetList s, g.1 = f.1 → g.2 = f.2
      · rw [decide_eq_true hd]; simp; omega
      · rw [decide_eq_false hd]; simp
  simp only [mask]
  rw [allFacets_eq hi fun _ hv => hv]
  exact key _ fun f hf => hf

/-! ### addresses -/

/-- How a careful program ends does not depend on the addresses. -/
theorem mesh_runs_do_not_depend_on_addresses (p : MProg) {n : Nat} {a b : List Id} {s s' : State} {m m' : Int}
    (hc : p.careful (mstart a n)) (h : p.run (mstart a n) = some (s, m)) (h' : p.run (mstart b n) = some (s', m')) :
    m' = m ∧ MSame s s' := by
  obtain ⟨h1, h2⟩ := p.run_same (MInv.init a n) (MInv.init b n) (mstart_same a b n) hc h h'
  exact ⟨h2, h1⟩

/-- A careful program that ends for some addresses ends for all, if there are enough of them: 116 for each call. -/
theorem mesh_runs_end_for_all_addresses (p : MProg) {n : Nat} {a b : List Id} {s : State} {m : Int} (hc : p.careful (mstart a n))
    (h : p.run (mstart a n) = some (s, m)) (hn : b.Nodup) (hl : 116 * p.calls (mstart a n) ≤ b.length) :
    ∃ s', p.run (mstart b n) = some (s', m) ∧ MSame s s' := by
  have hf : Fresh (mstart b n).base.topo (0 + 116 * p.calls (mstart a n)) := by
    refine ⟨by simpa [mstart, Topo.init] using hl, hn.sublist (List.take_sublist _ _), fun i _ N => ?_⟩
    simp [mstart, Topo.init, Level.empty]
  obtain ⟨s', h', _⟩ := p.run_succeeds (MInv.init a n) (MInv.init b n) (mstart_same a b n) hc h 0 hf
  exact ⟨s', h', (mesh_runs_do_not_depend_on_addresses p hc h h').2⟩

/-- In the middle of careful programs: the answers to all questions are the same. -/
theorem mesh_answers_do_not_depend_on_addresses {s s' : State} (h : MReach s) (h' : MReach s') (hs : MSame s s') (q : MQuery) :
    mask s' q = mask s q :=
  mask_same h.inv h'.inv hs q

/-! ### the tests -/

instance (s : State) (c : Call) : Decidable (c.careful s) := by
  cases c <;> unfold Call.careful <;> infer_instance

/-- are all calls of a test careful -/
def carefulTest : List MItem → State → Bool
  | [], _ => true
  | .call c :: l, s => decide (c.careful s) && match mexec s c with
    | none => true
    | some s' => carefulTest l s'
  | .expect _ _ :: l, s => carefulTest l s

theorem carefulTest_iff {l : List MItem} {s : State} (h : carefulTest l s = true) : (mtest l).careful s := by
  induction l generalizing s with
  | nil => trivial
  | cons x l ih =>
    cases x with
    | call c =>
      simp only [carefulTest, Bool.and_eq_true, decide_eq_true_eq] at h
      refine ⟨h.1, fun s' e => ?_⟩
      rw [e] at h
      exact ih h.2
    | expect q a =>
      simp only [mtest, MProg.careful]
      split
      · exact ih h
      · trivial

/-- the runs of the tests with one choice of addresses -/
theorem mesh_tests_pass_once : ∀ l ∈ meshTests, ((mtest l).run (mstart (List.range 200) 1)).map Prod.snd = some 0 ∧
    carefulTest l (mstart (List.range 200) 1) = true ∧ (mtest l).calls (mstart (List.range 200) 1) ≤ 15 := by
  decide +kernel

/-- The tests of meshes in the repository pass, whatever the addresses. -/
theorem mesh_tests_pass {l : List MItem} (hl : l ∈ meshTests) {a : List Id} {s : State} {m : Int}
    (h : (mtest l).run (mstart a 1) = some (s, m)) : m = 0 := by
  obtain ⟨h0, hc, _⟩ := mesh_tests_pass_once l hl
  cases e : (mtest l).run (mstart (List.range 200) 1) with
  | none => rw [e] at h0; simp at h0
  | some r =>
    rw [e] at h0
    simp only [Option.map_some, Option.some.injEq] at h0
    rw [(mesh_runs_do_not_depend_on_addresses (mtest l) (carefulTest_iff hc) e h).1]
    exact h0

/-- No call of these tests fails, whatever the addresses, if there are enough. -/
theorem mesh_tests_end {l : List MItem} (hl : l ∈ meshTests) {a : List Id} (hn : a.Nodup) (ha : 1740 ≤ a.length) :
    ∃ s, (mtest l).run (mstart a 1) = some (s, 0) := by
  obtain ⟨h0, hc, hk⟩ := mesh_tests_pass_once l hl
  cases e : (mtest l).run (mstart (List.range 200) 1) with
  | none => rw [e] at h0; simp at h0
  | some r =>
    obtain ⟨s, m⟩ := r
    rw [e] at h0
    simp only [Option.map_some, Option.some.injEq] at h0
    subst h0
    obtain ⟨s', h', _⟩ := mesh_runs_end_for_all_addresses (mtest l) (carefulTest_iff hc) e hn (by omega)
    exact ⟨s', h'⟩

/-! ### programs that are not careful -/

/-- The simplex of a cell in the mesh was erased: the handle of the cell is null.  The cell is still in the mesh, and
can neither be erased nor visited; the boundary of the mesh cannot be found any more. -/
theorem erased_simplex_breaks_the_mesh {s s1 : State} {k i w : Nat} (hk : s.refs[k]? = some i) (hw : s.slots[i]? = some (w, true))
    (e : mexec s (.eraseSimplex k) = some s1) (hnull : look s1.base.env w = none) :
    mexec s1 (.erase k) = none ∧ mask s1 .boundarySize = none ∧ w ∈ cells s1 ∧ s1.orient = s.orient ∧ s1.count = s.count := by
  simp only [mexec, hk, hw] at e
  obtain ⟨σ, _, e2⟩ := Option.map_eq_some_iff.mp e
  subst e2
  simp only at hnull
  have hO : lookO σ.env w = none := by unfold lookO; rw [hnull]
  have hF : facetsOf σ s.order w = none := by unfold facetsOf; rw [hO]
  have hcell : w ∈ cells { s with base := σ } := mem_cells.mpr (List.mem_of_getElem? hw)
  refine ⟨by simp [mexec, hk, hw, eraseSlot, hF], ?_, hcell, rfl, rfl⟩
  simp only [mask]
  have : ∀ l : List Nat, w ∈ l → allFacets { s with base := σ } l = none := by
    intro l hl
    induction l with
    | nil => simp at hl
    | cons v l ih =>
      simp only [allFacets]
      rcases List.mem_cons.mp hl with rfl | hl
      · rw [hF]
      · rw [ih hl]
        cases facetsOf σ s.order v <;> rfl
  rw [this _ hcell]

/-- an edge with orientation -1 in a cell whose simplex is erased; then another cell -/
def staleProgram : List MItem :=
  nodes 5 ++ [.call (.topology (.segment 1 0)), put 0 1 2, .call (.eraseSimplex 0), .call (.topology (.erase 5)),
    put 2 3 4, .call (.topology (.segment 2 3))]

/-- Negation of address independence without care: the same program, in which the simplex of a cell was erased before
the cell, says that the edge of the other cell is on the boundary for some addresses, and that it is not for others,
where the edge got the address of an edge that was erased. -/
theorem stale_orientations :
    ∃ (p : MProg) (a b : List Id) (s s' : State), p.run (mstart a 1) = some (s, 0) ∧ p.run (mstart b 1) = some (s', 0) ∧
      mask s (.isOnBoundary 8) = some 1 ∧ mask s' (.isOnBoundary 8) = some 0 := by
  have h : ((mtest staleProgram).run (mstart (List.range 60) 1)).isSome = true ∧
      ((mtest staleProgram).run (mstart ((List.range 60).map fun i => if i = 22 then 7 else i) 1)).isSome = true := by decide +kernel
  obtain ⟨⟨s, m⟩, e⟩ := Option.isSome_iff_exists.mp h.1
  obtain ⟨⟨s', m'⟩, e'⟩ := Option.isSome_iff_exists.mp h.2
  have h1 : ((mtest staleProgram).run (mstart (List.range 60) 1)).map (fun r => (r.2, mask r.1 (.isOnBoundary 8))) = some (0, some 1) := by
    decide +kernel
  have h2 : ((mtest staleProgram).run (mstart ((List.range 60).map fun i => if i = 22 then 7 else i) 1)).map
      (fun r => (r.2, mask r.1 (.isOnBoundary 8))) = some (0, some 0) := by decide +kernel
  rw [e] at h1
  rw [e'] at h2
  simp only [Option.map_some, Option.some.injEq, Prod.mk.injEq] at h1 h2
  obtain ⟨rfl, h1⟩ := h1
  obtain ⟨rfl, h2⟩ := h2
  exact ⟨_, _, _, s, s', e, e', h1, h2⟩

/-- `mesh.insert(r)` for the reference to an erased cell whose place is the next that is used again: the cell is
destroyed before it is copied. -/
theorem insert_of_erased_cell_fails {s : State} (k i : Nat) (f : List Nat) (hk : s.refs[k]? = some i) (hf : s.free = i :: f) :
    mexec s (.insertAgain k) = none := by
  simp only [mexec, hk]
  cases hw : s.slots[i]? with
  | none => rfl
  | some p =>
    obtain ⟨w, v⟩ := p
    simp only [insertCell, count]
    cases facetsOf s.base s.order w with
    | none => rfl
    | some F =>
      simp only [emplace, hf, hw]
      cases hrel : release s.base w with
      | none => rfl
      | some σ1 =>
        simp only
        cases he : exec σ1 (.copy w) with
        | none => rfl
        | some σ =>
          obtain ⟨x, hx⟩ := exec_copy_look he
          rw [release_null hrel] at hx
          simp at hx

/-- A cell that was erased from the mesh keeps its simplex alive until its place is used again. -/
theorem erased_cell_keeps_its_simplex {s : State} (h : MReach s) {w N : Nat} {o : Id} (hw : (w, false) ∈ s.slots)
    (hl : look s.base.env w = some (.or N o)) : o ∈ (s.base.topo.lvl N).ors ∧ w ∉ cells s := by
  have hi := h.inv
  refine ⟨hi.good.liveO hl, fun hc => ?_⟩
  have hc' := mem_cells.mp hc
  obtain ⟨i, hi', e⟩ := List.getElem_of_mem hw
  have hw' : s.slots[i]? = some (w, false) := by rw [List.getElem?_eq_getElem hi', e]
  obtain ⟨A, B, e1, _⟩ := set_split hw' (w, false)
  have hv := hi.vars
  rw [e1] at hv hc'
  simp only [List.map_append, List.map_cons, List.nodup_append, List.nodup_cons, List.mem_cons] at hv
  simp only [List.mem_append, List.mem_cons, Prod.mk.injEq, Bool.true_eq_false, and_false, false_or] at hc'
  rcases hc' with hc' | hc'
  · exact hv.2.2 w (List.mem_map.mpr ⟨_, hc', rfl⟩) w (Or.inl rfl) rfl
  · exact hv.2.1.1 (List.mem_map.mpr ⟨_, hc', rfl⟩)

/-- So `topology.erase` through another handle of the same simplex does nothing, although no cell in the mesh has it: the triangle and its edges stay. -/
theorem erase_through_another_handle :
    ((mtest (nodes 3 ++ [put 0 1 2, .call (.topology (.triangle 0 1 2)), .call (.erase 0), .call (.topology (.erase 4)),
      .expect .nCells 0, .expect (.topology (.count 2)) 1, .expect (exists2 0 1) 1])).run (mstart (List.range 60) 1)).map Prod.snd = some 0 := by
  decide +kernel

/-! ### examples -/

/-- The states of careful programs are many: the four triangles of a square. -/
example : ∃ s, MReach s ∧ s.count = 4 ∧ (facetList s).length = 12 ∧ mask s .boundarySize = some 4 := by
  have h : carefulTest fourTriangles (mstart (List.range 200) 1) = true := by decide +kernel
  have h2 : ((mtest fourTriangles).run (mstart (List.range 200) 1)).map (fun r => (r.1.count, (facetList r.1).length, mask r.1 .boundarySize)) =
      some (4, 12, some 4) := by decide +kernel
  cases e : (mtest fourTriangles).run (mstart (List.range 200) 1) with
  | none => rw [e] at h2; simp at h2
  | some r =>
    obtain ⟨s, m⟩ := r
    rw [e] at h2
    simp only [Option.map_some, Option.some.injEq, Prod.mk.injEq] at h2
    exact ⟨s, ⟨_, _, _, m, carefulTest_iff h, e⟩, h2.1, h2.2.1, h2.2.2⟩

/-- `erased_simplex_breaks_the_mesh` is about something: the handle is null. -/
example : ((mtest (nodes 3 ++ [put 0 1 2, .call (.eraseSimplex 0), .expect (.isNull 0) 1, .expect .nCells 1, .expect .visited 1])).run
    (mstart (List.range 60) 1)).map Prod.snd = some 0 ∧
    ((mtest (nodes 3 ++ [put 0 1 2, .call (.eraseSimplex 0), .call (.erase 0)])).run (mstart (List.range 60) 1)).isNone = true := by
  decide +kernel

/-- `insert_of_erased_cell_fails` too -/
example : ((mtest (nodes 3 ++ [put 0 1 2, .call (.erase 0)])).run (mstart (List.range 60) 1)).map (fun r => (r.1.refs, r.1.free)) =
    some ([0], [0]) ∧
    ((mtest (nodes 3 ++ [put 0 1 2, .call (.insertAgain 0), .expect .nCells 2])).run (mstart (List.range 60) 1)).map Prod.snd = some 0 := by
  decide +kernel

/-- A test that expects something wrong fails. -/
example : ((mtest (buildMeshTest ++ [.expect .boundarySize 5])).run (mstart (List.range 200) 1)).map Prod.snd = some 1 ∧
    ((mtest (eraseDuplicatesTest ++ [.expect .nCells 2])).run (mstart (List.range 200) 1)).map Prod.snd = some 1 ∧
    ((mtest (eraseElementTest ++ [.expect (exists2 2 4) 0])).run (mstart (List.range 200) 1)).map Prod.snd = some 1 := by
  decide +kernel

end Mito.MeshPrograms
