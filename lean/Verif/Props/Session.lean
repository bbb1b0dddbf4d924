import Verif.Solvers.SessionLemmas

/-! # C104: sessions of MPI and PETSc -/

namespace Mito.Session

/-- **C104.**  A process ends without an erroneous call exactly if it begins with the simulation and its calls to PETSc form sessions, or has no
simulation and at most one session of PETSc, with nothing outside of it. -/
theorem process_iff (cs : List Call) : (process cs).isSome ↔ WithSimulation cs ∨ SingleSession cs := by
  cases cs with
  | nil => simp [process, calls, exit, SingleSession, Process.start]
  | cons c cs =>
    cases c with
    | simulation =>
      have e : calls .start (.simulation :: cs) = calls (inSimulation false false) cs := rfl
      have h1 : WithSimulation (.simulation :: cs) ↔ Allowed false cs := by
        rw [← sessions_iff]
        constructor
        · rintro ⟨w, e, h⟩
          obtain ⟨-, rfl⟩ := List.cons.inj e
          exact h
        · exact fun h => ⟨cs, rfl, h⟩
      have h2 : ¬ SingleSession (.simulation :: cs) := by
        rintro (h | ⟨w, h | h, -⟩) <;> simp at h
      rw [h1, or_iff_left h2, process, e]
      by_cases h : Allowed false cs
      · obtain ⟨s', e'⟩ := (calls_simulation cs false false (by simp)).1 h
        simp only [e', exit]
        simp [inSimulation, h]
      · simp [(calls_simulation cs false false (by simp)).2 h, h]
    | petscInitialize =>
      have e : calls .start (.petscInitialize :: cs) = calls ⟨.running, true, true, false⟩ cs := rfl
      have h1 : ¬ WithSimulation (.petscInitialize :: cs) := by
        rintro ⟨w, e, -⟩
        simp at e
      have h2 : SingleSession (.petscInitialize :: cs) ↔
          (Call.simulation ∉ cs ∧ Call.petscFinalize ∉ cs) ∨ ∃ w, cs = w ++ [.petscFinalize] ∧ Call.simulation ∉ w ∧ Call.petscFinalize ∉ w := by
        constructor
        · rintro (h | ⟨w, h | h, h3⟩)
          · simp at h
          · obtain ⟨-, rfl⟩ := List.cons.inj h
            exact .inl h3
          · obtain ⟨-, rfl⟩ := List.cons.inj h
            exact .inr ⟨w, rfl, h3⟩
        · rintro (h | ⟨w, rfl, h⟩)
          · exact .inr ⟨cs, .inl rfl, h⟩
          · exact .inr ⟨w, .inr rfl, h⟩
      rw [or_iff_right h1, h2, process, e]
      rcases calls_session cs with ⟨e', h⟩ | ⟨e', h⟩ | ⟨e', h3, h4⟩
      · simp only [e', exit]
        simpa using Or.inl h
      · simp only [e', exit]
        simpa using Or.inr h
      · simp only [e', exit]
        simp only [Option.isSome_none, Bool.false_eq_true, false_iff, not_or]
        exact ⟨h3, h4⟩
    | petscFinalize =>
      refine iff_of_false (by simp [process, calls, step, Process.start]) ?_
      rintro (⟨w, e, -⟩ | e | ⟨w, e | e, -⟩) <;> simp at e
    | communicate =>
      refine iff_of_false (by simp [process, calls, step, Process.start]) ?_
      rintro (⟨w, e, -⟩ | e | ⟨w, e | e, -⟩) <;> simp at e
    | solve =>
      refine iff_of_false (by simp [process, calls, step, Process.start]) ?_
      rintro (⟨w, e, -⟩ | e | ⟨w, e | e, -⟩) <;> simp at e

/-- **C104.**  With a simulation MPI is finalized at the end of the process, whether or not the last session of PETSc is.  Without one, MPI is
finalized exactly if the session is. -/
theorem process_end {cs : List Call} {p : Process} (h : process cs = some p) :
    (WithSimulation cs → p.mpi = .over ∧ (p.petsc = false ↔ Closed cs)) ∧
    (SingleSession cs → (p.mpi ≠ .running ↔ Closed cs) ∧ (p.petsc = false ↔ Closed cs)) := by
  have hclosed : ∀ cs : List Call, Closed cs ↔ openAfter false cs = false := by
    intro cs
    rw [← Bool.not_eq_true, openAfter_false_iff]
    constructor
    · rintro h (⟨a, b, e, h'⟩ | ⟨h', -⟩)
      · exact h' (h a b e)
      · simp at h'
    · intro h a b e
      by_contra h'
      exact h (.inl ⟨a, b, e, h'⟩)
  constructor
  · rintro ⟨w, rfl, hw⟩
    obtain ⟨s', e⟩ := (calls_simulation w false false (by simp)).1 ((sessions_iff w).mp hw)
    have e' : calls .start (.simulation :: w) = some (inSimulation (openAfter false w) s') := e
    simp only [process, e', exit, inSimulation, if_true, Option.some.injEq] at h
    subst h
    rw [hclosed]
    exact ⟨rfl, Iff.rfl⟩
  · rintro (rfl | ⟨w, hw, h1, h2⟩)
    · obtain rfl : p = .start := by simpa [process, calls, exit, Process.start] using h.symm
      rw [hclosed]
      simp [Process.start, openAfter]
    · have hw0 : openAfter true w = true := (openAfter_false_iff w true).mpr (.inr ⟨rfl, h2⟩)
      rcases hw with rfl | rfl
      · have e : calls .start (.petscInitialize :: w) = some ⟨.running, true, true, false⟩ := by
          rcases calls_session w with ⟨e, -⟩ | ⟨-, w', rfl, -⟩ | ⟨-, h3, -⟩
          · exact e
          · simp at h2
          · exact (h3 ⟨h1, h2⟩).elim
        simp only [process, e, exit] at h
        obtain rfl : p = ⟨.running, true, true, false⟩ := by simpa using h.symm
        rw [hclosed]
        simp [openAfter, hw0]
      · have e : calls .start (.petscInitialize :: w ++ [.petscFinalize]) = some ⟨.over, false, true, false⟩ := by
          rcases calls_session (w ++ [.petscFinalize]) with ⟨-, -, h3⟩ | ⟨e, -⟩ | ⟨-, -, h3⟩
          · simp at h3
          · exact e
          · exact (h3 ⟨w, rfl, h1, h2⟩).elim
        simp only [process, e, exit] at h
        obtain rfl : p = ⟨.over, false, true, false⟩ := by simpa using h.symm
        rw [hclosed]
        simp [openAfter, openAfter_append]

/-- **C104.**  In particular the order of the two libraries matters: a program that uses PETSc and then asks for the simulation is erroneous,
with or without finalizing PETSc; the other order is right, with any number of sessions. -/
theorem order_matters (w v : List Call) :
    process (.petscInitialize :: w ++ .simulation :: v) = none ∧
    (∀ n : Nat, (process (.simulation :: (List.replicate n [.petscInitialize, .solve, .petscFinalize]).flatten)).isSome) ∧
    (∀ n : Nat, 2 ≤ n → process ((List.replicate n [.petscInitialize, .solve, .petscFinalize]).flatten) = none) := by
  refine ⟨?_, fun n => ?_, fun n hn => ?_⟩
  · rw [← Option.not_isSome_iff_eq_none, process_iff]
    rintro (⟨u, e, -⟩ | e | ⟨u, e | e, h1, h2⟩)
    · simp at e
    · simp at e
    · obtain ⟨-, e⟩ := List.cons.inj e
      exact h1 (e ▸ by simp)
    · obtain ⟨-, e⟩ := List.cons.inj e
      change w ++ .simulation :: v = u ++ [.petscFinalize] at e
      have hm : Call.simulation ∈ u ++ [.petscFinalize] := by rw [← e]; simp
      simp at hm
      exact h1 hm
  · rw [process_iff]
    refine .inl ⟨_, rfl, (sessions_iff _).mpr ?_⟩
    induction n with
    | zero => trivial
    | succ n ih => simpa [List.replicate_succ, Allowed, openAfter] using ih
  · obtain ⟨m, rfl⟩ : ∃ m, n = m + 2 := ⟨n - 2, by omega⟩
    simp [List.replicate_succ, process, calls, step, Process.start]

/-! ### Examples -/

/-- the Poisson benchmark, benchmarks/mito.lib/pdes/poisson.cc:42-148; the tests for several tasks; a program with both -/
example : process [.petscInitialize, .solve, .petscFinalize] = some ⟨.over, false, true, false⟩ ∧
    process [.simulation, .communicate] = some ⟨.over, false, false, true⟩ ∧
    process [.simulation, .petscInitialize, .solve, .petscFinalize, .communicate] = some ⟨.over, false, false, true⟩ := by decide

/-- wrong programs: no session, communication after the end, PETSc first, finalized twice -/
example : process [.solve] = none ∧ process [.petscInitialize, .petscFinalize, .communicate] = none ∧
    process [.petscInitialize, .petscFinalize, .simulation] = none ∧ process [.petscInitialize, .simulation, .petscFinalize] = none ∧
    process [.simulation, .petscInitialize, .petscFinalize, .petscFinalize] = none := by decide

/-- a session that is not finalized: MPI keeps running without a simulation -/
example : process [.petscInitialize, .solve] = some ⟨.running, true, true, false⟩ ∧ ¬ Closed [.petscInitialize, .solve] := by
  refine ⟨by decide, fun h => ?_⟩
  have := h [] [.solve] rfl
  simp at this

end Mito.Session
