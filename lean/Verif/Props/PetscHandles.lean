import Verif.Solvers.HandlesCurrentLemmas

/-! # Property theorems: the lifetime of PETSc objects (C94) -/

namespace Mito.Handles

theorem phases_init : phases .init [] = .init := rfl

/-- **C94.**  For programs that do not copy linear systems: no handle is misused if and only if linear systems are used between their
creation and destruction only, solvers are created after their linear system, and solve between their creation (with a matrix) and the
destruction of either. -/
theorem no_misuse_iff {ops : List Op} (hn : NoCopies ops) : (run .init ops).isSome ↔ (follows .init ops).isSome := by
  rcases run_agrees SInv.init hn with ⟨st, L, h1, -, h3⟩ | ⟨h1, h3⟩ <;> rw [phases_init] at h3 <;> simp [h1, h3]

/-- **C94.**  All objects of PETSc are freed if and only if all linear systems and solvers that were created were destroyed – a solver destroys
its linear system, too – and none was created again before. -/
theorem released_iff_clean {ops : List Op} (hn : NoCopies ops) {st : State} (h : run .init ops = some st) :
    st.Released ↔ ∃ p, follows .init ops = some p ∧ p.Clean := by
  rcases run_agrees SInv.init hn with ⟨st', L, h1, h2, h3⟩ | ⟨h1, -⟩
  · rw [h] at h1
    cases h1
    rw [phases_init] at h3
    rw [released_iff h2, h3]
    simp
  · rw [h] at h1
    cases h1

theorem run_append (a b : List Op) (st : State) : run st (a ++ b) = (run st a).bind (run · b) := by
  induction a generalizing st with
  | nil => rfl
  | cons o a ih =>
    simp only [List.cons_append, run]
    cases step st o with
    | none => rfl
    | some st' => exact ih st'

theorem follows_append (a b : List Op) (p : Phases) : follows p (a ++ b) = (follows p a).bind (follows · b) := by
  induction a generalizing p with
  | nil => rfl
  | cons o a ih =>
    simp only [List.cons_append, follows]
    cases follow p o with
    | none => rfl
    | some st' => exact ih st'

/-- **C94.**  If linear systems are created once, a solver solves with the matrix of its linear system. -/
theorem solve_current {ops : List Op} (hn : NoCopies ops) (h1 : ∀ s, ops.count (.createSystem s) ≤ 1) {k : Nat} {st : State}
    (h : run .init (ops ++ [.solve k]) = some st) : st.Current k := by
  rw [run_append, Option.bind_eq_some_iff] at h
  obtain ⟨st0, h0, h⟩ := h
  have hf : AllFit st0 := run_fits SInv.init (by intro K hK; cases hK) hn h1 (by intro s q hq; simp [phases, State.init] at hq) h0
  simp only [run, step, Option.bind_eq_bind, Option.bind_eq_some_iff] at h
  obtain ⟨st1, ⟨K, hK, S, hS, h⟩, h'⟩ := h
  cases h'
  split at h
  · rename_i hc
    cases h
    simp only [Bool.and_eq_true] at hc
    obtain ⟨⟨⟨⟨c1, c2⟩, c3⟩, -⟩, -⟩ := hc
    obtain ⟨S', hS', hfit⟩ := hf K (List.mem_of_getElem? hK)
    rw [hS] at hS'
    cases hS'
    cases hx : K.ksp with
    | garbage => simp [hx, Heap.usable] at c2
    | null => simp [hx, Heap.usable] at c2
    | obj j =>
      cases hy : S.matrix with
      | garbage => simp [hy, Heap.usable] at c1
      | null => simp [hy, Heap.usable] at c1
      | obj m =>
        rw [hx] at c3
        obtain ⟨m', hm'⟩ := Option.isSome_iff_exists.mp c3
        refine ⟨K, S, j, m, hK, hS, hx, hy, ?_⟩
        rw [hm', hfit.2 j m m' hx hy hm']
  · cases h

/-! ## A linear system with several solvers -/

theorem follows_create (n : Nat) : follows ⟨[.alive], [], false⟩ ((List.range n).flatMap fun k => [.solver 0, .createSolver k]) =
    some ⟨[.alive], (List.range n).map fun _ => (0, .alive), false⟩ := by
  induction n with
  | zero => rfl
  | succ n ih =>
    rw [List.range_succ, List.flatMap_append, follows_append, ih]
    simp [follows, follow]

theorem follows_solve (n m : Nat) (hm : m ≤ n) : follows ⟨[.alive], (List.range n).map fun _ => (0, .alive), false⟩ ((List.range m).map .solve) =
    some ⟨[.alive], (List.range n).map fun _ => (0, .alive), false⟩ := by
  induction m with
  | zero => rfl
  | succ m ih =>
    rw [List.range_succ, List.map_append, follows_append, ih (by omega)]
    have : (List.range n)[m]? = some m := List.getElem?_range (by omega)
    have h2 : ((List.range n).map fun _ => ((0 : Nat), Phase.alive))[m]? = some (0, .alive) := by rw [List.getElem?_map, this]; rfl
    simp only [Option.bind_some, List.map_cons, List.map_nil, follows, follow, h2]
    rfl

theorem follows_destroy (n m : Nat) (hm : m ≤ n) : follows ⟨[.gone], (List.range n).map fun _ => (0, .alive), false⟩ ((List.range m).map .destroySolver) =
    some ⟨[.gone], (List.range n).map fun i => (0, if i < m then .gone else .alive), false⟩ := by
  induction m with
  | zero => simp [follows]
  | succ m ih =>
    rw [List.range_succ, List.map_append, follows_append, ih (by omega)]
    have h1 : (List.range n)[m]? = some m := List.getElem?_range (by omega)
    have h2 : ((List.range n).map fun i => ((0 : Nat), if i < m then Phase.gone else .alive)).set m (0, .gone) =
        (List.range n).map fun i => (0, if i < m + 1 then .gone else .alive) := by
      refine List.ext_getElem (by simp) fun i h3 h4 => ?_
      simp only [List.getElem_set, List.getElem_map, List.getElem_range]
      by_cases h5 : m = i
      · rw [if_pos h5, if_pos (by omega)]
      · rw [if_neg h5]
        have : (i < m) ↔ (i < m + 1) := by omega
        simp [this]
    simp [follows, follow, h1, h2]

/-- **C94.**  Several solvers of one linear system may all be destroyed, in a row and after the linear system. -/
theorem solvers_released (n : Nat) : ∃ st, run .init ([.system, .createSystem 0] ++ (((List.range n).flatMap fun k => [.solver 0, .createSolver k]) ++
    ((List.range n).map .solve ++ ([.destroySystem 0] ++ (List.range n).map .destroySolver)))) = some st ∧ st.Released := by
  have hf : follows .init ([.system, .createSystem 0] ++ (((List.range n).flatMap fun k => [.solver 0, .createSolver k]) ++
      ((List.range n).map .solve ++ ([.destroySystem 0] ++ (List.range n).map .destroySolver)))) =
      some ⟨[.gone], (List.range n).map fun i => (0, if i < n then .gone else .alive), false⟩ := by
    rw [follows_append]
    show (some (⟨[.alive], [], false⟩ : Phases)).bind _ = _
    rw [Option.bind_some, follows_append, follows_create, Option.bind_some, follows_append, follows_solve n n (Nat.le_refl _), Option.bind_some, follows_append]
    exact follows_destroy n n (Nat.le_refl _)
  have hn : NoCopies ([.system, .createSystem 0] ++ (((List.range n).flatMap fun k => [.solver 0, .createSolver k]) ++
      ((List.range n).map .solve ++ ([.destroySystem 0] ++ (List.range n).map .destroySolver)))) := by
    intro s hs
    simp at hs
  obtain ⟨st, hst⟩ := Option.isSome_iff_exists.mp ((no_misuse_iff hn).mpr (by rw [hf]; rfl))
  refine ⟨st, hst, (released_iff_clean hn hst).mpr ⟨_, hf, rfl, by simp, ?_⟩⟩
  intro r hr
  obtain ⟨i, hi, rfl⟩ := List.mem_map.mp hr
  rw [if_pos (List.mem_range.mp hi)]
  exact Or.inr rfl

/-! ## What goes wrong -/

/-- a linear system that is solved once -/
def exSolve : List Op := [.system, .createSystem 0, .solver 0, .createSolver 0, .setOptions 0, .useMatrix 0, .useRhs 0, .solve 0, .getSolution 0]

/-- **C94.**  The property is false for the code.  Objects of linear systems and solvers that go out of scope are not released; two solvers of a linear
system cannot be used one after the other, because the first destroys the linear system; destroying a solver that was not created reads a
pointer that was never written; the copy of a linear system, which can be used and destroyed, has the same objects, which are destroyed twice; a solver whose linear
system is created again goes on solving with the old matrix. -/
theorem handles_fail :
    (∃ st, run .init exSolve = some st ∧ ¬ st.Released) ∧
    run .init (exSolve ++ [.solver 0, .createSolver 1, .destroySolver 0, .solve 1]) = none ∧
    run .init [.system, .createSystem 0, .solver 0, .destroySolver 0] = none ∧
    (run .init [.system, .createSystem 0, .copySystem 0, .useMatrix 1, .useRhs 1, .destroySystem 1]).isSome ∧
    run .init [.system, .createSystem 0, .copySystem 0, .destroySystem 0, .destroySystem 1] = none ∧
    ∃ st, run .init (exSolve ++ [.destroySystem 0, .createSystem 0, .solve 0]) = some st ∧ ¬ st.Current 0 := by
  refine ⟨?_, by decide +kernel, by decide +kernel, by decide +kernel, by decide +kernel, ?_⟩
  · obtain ⟨st, hst⟩ := Option.isSome_iff_exists.mp (show (run .init exSolve).isSome = true by decide +kernel)
    refine ⟨st, hst, fun h => ?_⟩
    have e : (run .init exSolve).map (fun st => st.heap.refs 0) = some 1 := by decide +kernel
    rw [hst, Option.map_some, h 0] at e
    cases e
  · obtain ⟨st, hst⟩ := Option.isSome_iff_exists.mp
      (show (run .init (exSolve ++ [.destroySystem 0, .createSystem 0, .solve 0])).isSome = true by decide +kernel)
    refine ⟨st, hst, ?_⟩
    rintro ⟨K, S, j, m, h1, h2, h3, h4, h5⟩
    have e : (run .init (exSolve ++ [.destroySystem 0, .createSystem 0, .solve 0])).map
        (fun st => (st.solvers, st.systems, st.heap.ops 3)) = some ([⟨0, .obj 3⟩], [⟨.obj 6, .obj 5, .obj 4⟩], some 2) := by decide +kernel
    rw [hst, Option.map_some] at e
    simp only [Option.some.injEq, Prod.mk.injEq] at e
    obtain ⟨e1, e2, e3⟩ := e
    rw [e1] at h1
    cases h1
    rw [e2] at h2
    cases h2
    cases h3
    cases h4
    rw [e3] at h5
    cases h5

/-- the program that the test of the solver runs releases everything -/
example : ∃ st, run .init (exSolve ++ [.destroySolver 0]) = some st ∧ st.Released := by
  have hn : NoCopies (exSolve ++ [.destroySolver 0]) := by intro s hs; simp [exSolve] at hs
  obtain ⟨st, hst⟩ := Option.isSome_iff_exists.mp (show (run .init (exSolve ++ [.destroySolver 0])).isSome = true by decide +kernel)
  refine ⟨st, hst, (released_iff_clean hn hst).mpr ⟨⟨[.gone], [(0, .gone)], false⟩, by decide +kernel, rfl, by simp, by simp⟩⟩

/-- and it solves with the matrix of the linear system -/
example (st : State) (h : run .init (exSolve ++ [.solve 0]) = some st) : st.Current 0 :=
  solve_current (by intro s hs; simp [exSolve] at hs) (fun s => by by_cases h : s = 0 <;> simp [exSolve, List.count_cons, h, eq_comm]) h

end Mito.Handles
