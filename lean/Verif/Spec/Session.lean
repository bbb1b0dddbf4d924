import Verif.Solvers.Session

/-! # Specification vocabulary for sessions of MPI and PETSc (C104) -/

namespace Mito.Session

/-- the calls to PETSc form sessions: `petscFinalize` and `solve` come after a `petscInitialize` with no `petscFinalize` in between -/
def Sessions (cs : List Call) : Prop :=
  ∀ a c b, cs = a ++ c :: b → c = .petscFinalize ∨ c = .solve → ∃ a₁ a₂, a = a₁ ++ .petscInitialize :: a₂ ∧ Call.petscFinalize ∉ a₂

/-- Programs with a simulation: it comes first, and the calls to PETSc form sessions. -/
def WithSimulation (cs : List Call) : Prop := ∃ w, cs = .simulation :: w ∧ Sessions w

/-- Programs without a simulation: nothing, or a single session, with nothing before and nothing after it. -/
def SingleSession (cs : List Call) : Prop :=
  cs = [] ∨ ∃ w, (cs = .petscInitialize :: w ∨ cs = .petscInitialize :: w ++ [.petscFinalize]) ∧ Call.simulation ∉ w ∧ Call.petscFinalize ∉ w

/-- the last session of PETSc has been finalized -/
def Closed (cs : List Call) : Prop :=
  ∀ a b, cs = a ++ .petscInitialize :: b → Call.petscFinalize ∈ b

end Mito.Session
