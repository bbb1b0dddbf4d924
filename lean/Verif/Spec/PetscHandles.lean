import Verif.Solvers.Handles

/-! # When programs with linear systems and solvers are right (C94)

The specification knows nothing of objects and references: it only says in which phase linear systems and solvers are. -/

namespace Mito.Handles

/-- not created yet; created (solvers: without a matrix, or with one); destroyed -/
inductive Phase
  | fresh
  | idle
  | alive
  | gone
  deriving DecidableEq

/-- the phases of linear systems and solvers, and whether something was created again before it was destroyed -/
structure Phases where
  systems : List Phase
  solvers : List (Nat × Phase)
  lost : Bool
  deriving DecidableEq

def Phases.init : Phases := ⟨[], [], false⟩

/-- what may be done in which phase, and what phase follows -/
def follow (p : Phases) : Op → Option Phases
  | .system => some { p with systems := p.systems ++ [.fresh] }
  | .copySystem s => do
    let q ← p.systems[s]?
    pure { p with systems := p.systems ++ [q] }
  | .createSystem s => do
    let q ← p.systems[s]?
    pure { p with systems := p.systems.set s .alive, lost := p.lost || q == .alive }
  | .destroySystem s => do
    let q ← p.systems[s]?
    if q = .fresh then none else pure { p with systems := p.systems.set s .gone }
  | .useMatrix s | .useRhs s | .getSolution s | .print s => do
    let q ← p.systems[s]?
    if q = .alive then pure p else none
  | .solver s => do
    let _ ← p.systems[s]?
    pure { p with solvers := p.solvers ++ [(s, .fresh)] }
  | .createSolver k => do
    let r ← p.solvers[k]?
    let q ← p.systems[r.1]?
    if q = .fresh then none
    else pure { p with solvers := p.solvers.set k (r.1, if q = .alive then .alive else .idle),
                       lost := p.lost || r.2 == .alive || r.2 == .idle }
  | .destroySolver k => do
    let r ← p.solvers[k]?
    let q ← p.systems[r.1]?
    if q = .fresh ∨ r.2 = .fresh then none
    else pure { p with systems := p.systems.set r.1 .gone, solvers := p.solvers.set k (r.1, .gone) }
  | .setOptions k => do
    let r ← p.solvers[k]?
    if r.2 = .alive ∨ r.2 = .idle then pure p else none
  | .solve k => do
    let r ← p.solvers[k]?
    let q ← p.systems[r.1]?
    if q = .alive ∧ r.2 = .alive then pure p else none

def follows (p : Phases) : List Op → Option Phases
  | [] => some p
  | o :: l => (follow p o).bind (follows · l)

/-- linear systems are not copied -/
def NoCopies (ops : List Op) : Prop := ∀ s, Op.copySystem s ∉ ops

/-- nothing is left: all that was created was destroyed, and nothing was created again before -/
def Phases.Clean (p : Phases) : Prop :=
  p.lost = false ∧ (∀ q ∈ p.systems, q = .fresh ∨ q = .gone) ∧ ∀ r ∈ p.solvers, r.2 = .fresh ∨ r.2 = .gone

/-- PETSc has freed all objects -/
def State.Released (st : State) : Prop := ∀ i, st.heap.refs i = 0

/-- the solver `k` solves with the matrix of its linear system -/
def State.Current (st : State) (k : Nat) : Prop :=
  ∃ K S j m, st.solvers[k]? = some K ∧ st.systems[K.system]? = some S ∧ K.ksp = .obj j ∧ S.matrix = .obj m ∧ st.heap.ops j = some m

end Mito.Handles
