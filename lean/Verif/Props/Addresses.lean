import Verif.Topology.ProgramLemmas

/-!
# C116: what a program does with the topology does not depend on the addresses it gets

The simplices live where the segmented allocator puts them, handles are compared by these
addresses, and the factories look simplices up in maps and sets ordered by them.  The supply of addresses
is a parameter of the model.
-/

namespace Mito.Topology

/-- Two runs of a program, with whatever addresses, end with the same number, and with the same
simplices up to their addresses. -/
theorem runs_do_not_depend_on_addresses (p : Prog) {s s' : List Id} {σ σ' : Machine} {n n' : Int}
    (h : p.run (start s) = some (σ, n)) (h' : p.run (start s') = some (σ', n')) :
    n' = n ∧ SameUpToAddresses σ σ' := by
  obtain ⟨h1, h2⟩ := run_same (Good.start s) (Good.start s') (start_same s s') h h'
  exact ⟨h2, h1⟩

/-- A call ends without an operation on the topology only if it is `erase` of a null handle; any other call whose arguments are not what it
wants has no run. -/
theorem calls_want_arguments {σ : Machine} {c : Cmd} (h : c.op σ.topo σ.env = none) :
    exec σ c = none ↔ ∀ v, c = .erase v → σ.env[v]? ≠ some none := by
  cases c <;> simp [exec, h, Cmd.idle]

/-- A program that ends for some addresses ends for all, if there are enough of them: 58 for each call. -/
theorem runs_end_for_all_addresses (p : Prog) {s s' : List Id} {σ : Machine} {n : Int}
    (h : p.run (start s) = some (σ, n)) (hn : s'.Nodup) (hl : 58 * p.calls (start s) ≤ s'.length) :
    ∃ σ', p.run (start s') = some (σ', n) ∧ SameUpToAddresses σ σ' := by
  have hf : Fresh (start s').topo (0 + 58 * p.calls (start s)) := by
    refine ⟨by simpa [start, Topo.init] using hl, hn.sublist (List.take_sublist _ _), fun i _ N => ?_⟩
    simp [start, Topo.init, Level.empty]
  obtain ⟨σ', h', _⟩ := run_succeeds (Good.start s) (Good.start s') (start_same s s') h 0 hf
  exact ⟨σ', h', (runs_do_not_depend_on_addresses p h h').2⟩

/-- In the middle of a program: the answers to all questions are the same, and every call that ends in both
states leads to states that are the same up to addresses. -/
theorem answers_do_not_depend_on_addresses {σ σ' : Machine} (h : MReachable σ) (h' : MReachable σ')
    (hs : SameUpToAddresses σ σ') :
    (∀ q, ask σ' q = ask σ q) ∧
      ∀ c σ1 σ1', exec σ c = some σ1 → exec σ' c = some σ1' → SameUpToAddresses σ1 σ1' := by
  obtain ⟨s, p, n, hp⟩ := h
  obtain ⟨s', p', n', hp'⟩ := h'
  have hg := run_good (Good.start s) hp
  have hg' := run_good (Good.start s') hp'
  exact ⟨ask_same hg hg'.ok hs, fun c σ1 σ1' h1 h1' => (exec_matches hg hg' hs h1).1 σ1' h1'⟩

/-- a program whose way depends on an answer: two triangles with a common edge, the first is erased, and the
number of references to the common edge decides what is built next -/
def sampleProg : Prog :=
  .call .vertex <| .call .vertex <| .call .vertex <| .call .vertex <|
  .call (.triangle 0 1 2) <| .call (.triangle 1 0 3) <| .call (.segment 0 1) <|
  .ask (.references 6) fun a =>
    if a = some 2 then .call (.erase 4) <| .ask (.count 1) fun b => .done (b.getD (-1)) else .done (-2)

/-- It runs to its end, with the same answer for either order of addresses. -/
theorem sample_runs : ((sampleProg.run (start (List.range 100))).map Prod.snd = some 4) ∧
    ((sampleProg.run (start (List.range 100).reverse)).map Prod.snd = some 4) ∧
    sampleProg.calls (start (List.range 100)) = 8 := by decide +kernel

/-- What does depend on them is the order in which the set of the vertices of a simplex is walked, and so the
order in which a loop over it in the user's program goes: after the same three calls
the first vertex of the segment is the first one built, or the second one. -/
theorem order_of_vertices_depends_on_addresses :
    ∃ (p : Prog) (s s' : List Id) (σ σ' : Machine) (n n' : Int), s.Nodup ∧ s'.Nodup ∧
      p.run (start s) = some (σ, n) ∧ p.run (start s') = some (σ', n') ∧ SameUpToAddresses σ σ' ∧
      (∃ o x y, lookO σ.env 2 = some (1, o) ∧ lookV σ.env 0 = some x ∧ lookV σ.env 1 = some y ∧
        σ.topo.vertexSet 1 (σ.topo.fp 1 o) = [x, y]) ∧
      ∃ o x y, lookO σ'.env 2 = some (1, o) ∧ lookV σ'.env 0 = some x ∧ lookV σ'.env 1 = some y ∧
        σ'.topo.vertexSet 1 (σ'.topo.fp 1 o) = [y, x] := by
  let p : Prog := .call .vertex <| .call .vertex <| .call (.segment 0 1) <| .done 0
  have e1 : ∃ r, p.run (start (List.range 10)) = some r := by
    rw [← Option.isSome_iff_exists]; decide +kernel
  have e2 : ∃ r, p.run (start (List.range 10).reverse) = some r := by
    rw [← Option.isSome_iff_exists]; decide +kernel
  obtain ⟨r, hr⟩ := e1
  obtain ⟨r', hr'⟩ := e2
  have a1 : (p.run (start (List.range 10))).map (fun r => (lookO r.1.env 2, lookV r.1.env 0, lookV r.1.env 1,
      r.1.topo.vertexSet 1 (r.1.topo.fp 1 ((lookO r.1.env 2).getD (0, 0)).2))) =
      some (some (1, 5), some 0, some 1, [0, 1]) := by decide +kernel
  have a2 : (p.run (start (List.range 10).reverse)).map (fun r => (lookO r.1.env 2, lookV r.1.env 0, lookV r.1.env 1,
      r.1.topo.vertexSet 1 (r.1.topo.fp 1 ((lookO r.1.env 2).getD (0, 0)).2))) =
      some (some (1, 4), some 9, some 8, [8, 9]) := by decide +kernel
  rw [hr] at a1
  rw [hr'] at a2
  simp only [Option.map_some, Option.some.injEq, Prod.mk.injEq] at a1 a2
  obtain ⟨b1, b2, b3, b4⟩ := a1
  obtain ⟨c1, c2, c3, c4⟩ := a2
  refine ⟨p, _, _, r.1, r'.1, r.2, r'.2, List.nodup_range, List.nodup_reverse.mpr List.nodup_range, hr, hr',
    (runs_do_not_depend_on_addresses p hr hr').2, ⟨5, 0, 1, b1, b2, b3, ?_⟩, ⟨4, 9, 8, c1, c2, c3, ?_⟩⟩
  · rw [b1] at b4; exact b4
  · rw [c1] at c4; exact c4

end Mito.Topology
