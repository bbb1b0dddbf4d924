import Verif.Props.Addresses
import Verif.Topology.Tests

/-!
# C117: the tests of the topology in the repository pass, for all addresses

One run in the kernel for each test; C116 carries the result over to all addresses.
-/

namespace Mito.Topology

/-- the run of a test with one choice of addresses -/
theorem tests_pass_once : ∀ l ∈ topologyTests, ((test l).run (start (List.range 400))).map Prod.snd = some 0 := by
  decide +kernel

/-- No expectation of any of the tests fails, whatever the addresses. -/
theorem topology_tests_pass {l : List Item} (hl : l ∈ topologyTests) {s : List Id} {σ : Machine} {n : Int}
    (h : (test l).run (start s) = some (σ, n)) : n = 0 := by
  have h0 := tests_pass_once l hl
  cases e : (test l).run (start (List.range 400)) with
  | none => rw [e] at h0; simp at h0
  | some r =>
    rw [e] at h0
    simp only [Option.map_some, Option.some.injEq] at h0
    rw [(runs_do_not_depend_on_addresses (test l) e h).1]
    exact h0

theorem tests_calls : ∀ l ∈ topologyTests, (test l).calls (start (List.range 400)) ≤ 51 := by
  decide +kernel

/-- No call of any of the tests fails, whatever the addresses, if there are enough. -/
theorem topology_tests_end {l : List Item} (hl : l ∈ topologyTests) {s : List Id} (hn : s.Nodup) (hs : 2958 ≤ s.length) :
    ∃ σ, (test l).run (start s) = some (σ, 0) := by
  have h0 := tests_pass_once l hl
  have h1 := tests_calls l hl
  cases e : (test l).run (start (List.range 400)) with
  | none => rw [e] at h0; simp at h0
  | some r =>
    obtain ⟨σ, n⟩ := r
    rw [e] at h0
    simp only [Option.map_some, Option.some.injEq] at h0
    subst h0
    obtain ⟨σ', h', _⟩ := runs_end_for_all_addresses (test l) e hn (by omega)
    exact ⟨σ', h'⟩

/-- A test that expects something wrong fails: the numbers are not 0 for want of looking. -/
theorem wrong_tests_fail : ((test (segmentTest ++ [.expect (.arranged 3 [0, 1]) 1])).run (start (List.range 30))).map Prod.snd = some 1 ∧
    ((test (eraseVerticesTest ++ [.expect (.count 2) 3])).run (start (List.range 200))).map Prod.snd = some 1 ∧
    ((test (simplicesTest ++ [no (.existsFlipped 5)])).run (start (List.range 200))).map Prod.snd = some 1 := by
  decide +kernel

end Mito.Topology
