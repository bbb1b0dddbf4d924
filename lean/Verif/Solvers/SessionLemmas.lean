import Verif.Spec.Session
import Mathlib.Data.List.Basic
import Mathlib.Tactic.Tauto

/-! # Helper lemmas for sessions of MPI and PETSc -/

namespace Mito.Session

/-- the state of a program that began with the simulation -/
def inSimulation (petsc : Bool) (started : Bool) : Process := ⟨.running, petsc, started, true⟩

/-- the session that is open after some calls, if `petsc` tells whether it was before -/
def openAfter : Bool → List Call → Bool
  | b, [] => b
  | _, .petscInitialize :: cs => openAfter true cs
  | _, .petscFinalize :: cs => openAfter false cs
  | b, _ :: cs => openAfter b cs

theorem openAfter_append (b : Bool) (cs ds : List Call) : openAfter b (cs ++ ds) = openAfter (openAfter b cs) ds := by
  induction cs generalizing b with
  | nil => rfl
  | cons c cs ih => cases c <;> simp [openAfter, ih]

theorem openAfter_false_iff (cs : List Call) (b : Bool) : openAfter b cs = true ↔
    (∃ a₁ a₂, cs = a₁ ++ .petscInitialize :: a₂ ∧ Call.petscFinalize ∉ a₂) ∨ (b = true ∧ Call.petscFinalize ∉ cs) := by
  induction cs generalizing b with
  | nil => simp [openAfter]
  | cons c cs ih =>
    have key : (∃ a₁ a₂, c :: cs = a₁ ++ .petscInitialize :: a₂ ∧ Call.petscFinalize ∉ a₂) ↔
        (c = .petscInitialize ∧ Call.petscFinalize ∉ cs) ∨ ∃ a₁ a₂, cs = a₁ ++ .petscInitialize :: a₂ ∧ Call.petscFinalize ∉ a₂ := by
      constructor
      · rintro ⟨a₁, a₂, e, h⟩
        match a₁, e with
        | [], e =>
          obtain ⟨rfl, rfl⟩ := List.cons.inj e
          exact .inl ⟨rfl, h⟩
        | x :: a₁, e =>
          obtain ⟨-, rfl⟩ := List.cons.inj e
          exact .inr ⟨a₁, a₂, rfl, h⟩
      · rintro (⟨rfl, h⟩ | ⟨a₁, a₂, rfl, h⟩)
        · exact ⟨[], cs, rfl, h⟩
        · exact ⟨c :: a₁, a₂, rfl, h⟩
    rw [key]
    cases c <;> simp [openAfter, ih, or_comm]
    tauto

/-- the calls to PETSc are allowed, if `b` tells whether a session is open -/
def Allowed : Bool → List Call → Prop
  | _, [] => True
  | b, c :: cs => (c = .petscFinalize ∨ c = .solve → b = true) ∧ Allowed (openAfter b [c]) cs

theorem allowed_iff (b : Bool) (cs : List Call) : Allowed b cs ↔
    ∀ a c d, cs = a ++ c :: d → c = .petscFinalize ∨ c = .solve → openAfter b a = true := by
  induction cs generalizing b with
  | nil => simp [Allowed]
  | cons c cs ih =>
    rw [Allowed, ih]
    constructor
    · rintro ⟨h1, h2⟩ a x d e hx
      match a, e with
      | [], e =>
        obtain ⟨rfl, rfl⟩ := List.cons.inj e
        exact h1 hx
      | y :: a, e =>
        obtain ⟨rfl, rfl⟩ := List.cons.inj e
        have := h2 a x d rfl hx
        rw [← openAfter_append] at this
        exact this
    · intro h
      refine ⟨fun hc => h [] c cs rfl hc, fun a x d e hx => ?_⟩
      have := h (c :: a) x d (by rw [e]; rfl) hx
      rw [← openAfter_append]
      exact this

theorem sessions_iff (cs : List Call) : Sessions cs ↔ Allowed false cs := by
  rw [allowed_iff]
  constructor
  · intro h a c d e hc
    obtain ⟨a₁, a₂, e1, h1⟩ := h a c d e hc
    exact (openAfter_false_iff a false).mpr (.inl ⟨a₁, a₂, e1, h1⟩)
  · intro h a c d e hc
    rcases (openAfter_false_iff a false).mp (h a c d e hc) with h | ⟨h, -⟩
    · exact h
    · simp at h

/-- after the simulation, exactly the sessions of PETSc matter; MPI runs to the end -/
theorem calls_simulation (cs : List Call) (b s : Bool) (hs : b = true → s = false) :
    (Allowed b cs → ∃ s', calls (inSimulation b s) cs = some (inSimulation (openAfter b cs) s')) ∧ (¬ Allowed b cs → calls (inSimulation b s) cs = none) := by
  induction cs generalizing b s with
  | nil => exact ⟨fun _ => ⟨s, rfl⟩, fun h => (h trivial).elim⟩
  | cons c cs ih =>
    cases c with
    | simulation => simpa [calls, step, inSimulation, Allowed, openAfter] using ih b s hs
    | petscInitialize =>
      cases b with
      | true => simpa [calls, step, inSimulation, Allowed, openAfter] using ih true s hs
      | false => simpa [calls, step, inSimulation, Allowed, openAfter] using ih true false (by simp)
    | petscFinalize =>
      cases b with
      | true =>
        obtain rfl := hs rfl
        simpa [calls, step, inSimulation, Allowed, openAfter] using ih false false (by simp)
      | false => simp [calls, step, inSimulation, Allowed]
    | communicate => simpa [calls, step, inSimulation, Allowed, openAfter] using ih b s hs
    | solve =>
      cases b with
      | true => simpa [calls, step, inSimulation, Allowed, openAfter] using ih true s hs
      | false => simp [calls, step, inSimulation, Allowed]

/-- a session without a simulation -/
theorem calls_session (cs : List Call) :
    (calls ⟨.running, true, true, false⟩ cs = some ⟨.running, true, true, false⟩ ∧ Call.simulation ∉ cs ∧ Call.petscFinalize ∉ cs) ∨
    (calls ⟨.running, true, true, false⟩ cs = some ⟨.over, false, true, false⟩ ∧ ∃ w, cs = w ++ [.petscFinalize] ∧ Call.simulation ∉ w ∧ Call.petscFinalize ∉ w) ∨
    (calls ⟨.running, true, true, false⟩ cs = none ∧ ¬ (Call.simulation ∉ cs ∧ Call.petscFinalize ∉ cs) ∧
      ¬ ∃ w, cs = w ++ [.petscFinalize] ∧ Call.simulation ∉ w ∧ Call.petscFinalize ∉ w) := by
  induction cs with
  | nil => exact .inl ⟨rfl, by simp, by simp⟩
  | cons c cs ih =>
    have key : ∀ c : Call, c ≠ .simulation → c ≠ .petscFinalize → ((∃ w, c :: cs = w ++ [.petscFinalize] ∧ Call.simulation ∉ w ∧ Call.petscFinalize ∉ w) ↔
        ∃ w, cs = w ++ [.petscFinalize] ∧ Call.simulation ∉ w ∧ Call.petscFinalize ∉ w) := by
      intro c h1 h2
      constructor
      · rintro ⟨w, e, h3, h4⟩
        match w, e with
        | [], e => exact (h2 (List.cons.inj e).1).elim
        | x :: w, e =>
          obtain ⟨rfl, rfl⟩ := List.cons.inj e
          exact ⟨w, rfl, fun h => h3 (List.mem_cons_of_mem _ h), fun h => h4 (List.mem_cons_of_mem _ h)⟩
      · rintro ⟨w, rfl, h3, h4⟩
        exact ⟨c :: w, rfl, by simp [h3, h1.symm], by simp [h4, h2.symm]⟩
    cases c with
    | simulation =>
      refine .inr (.inr ⟨by simp [calls, step], by simp, ?_⟩)
      rintro ⟨w, e, h3, -⟩
      match w, e with
      | [], e => simp at e
      | x :: w, e =>
        obtain ⟨rfl, -⟩ := List.cons.inj e
        simp at h3
    | petscFinalize =>
      cases cs with
      | nil => exact .inr (.inl ⟨by simp [calls, step], [], rfl, by simp, by simp⟩)
      | cons d cs =>
        refine .inr (.inr ⟨by cases d <;> simp [calls, step], by simp, ?_⟩)
        rintro ⟨w, e, -, h4⟩
        match w, e with
        | [], e => simp at e
        | x :: w, e =>
          obtain ⟨rfl, -⟩ := List.cons.inj e
          simp at h4
    | petscInitialize => simpa [calls, step, key] using ih
    | communicate => simpa [calls, step, key] using ih
    | solve => simpa [calls, step, key] using ih

end Mito.Session
