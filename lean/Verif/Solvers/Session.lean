/-!
# Sessions of MPI and PETSc

The calls with which a program begins and ends its use of MPI and PETSc: lib/mito/simulation/Context.icc:12-43 (through the singleton of
lib/mito/simulation/factories.h), lib/mito/matrix_solvers/backend/petsc/externals.h:24-34.  What the calls of the libraries do is taken from
their documentation: `MPI_Init` may be called only once, `MPI_Finalize` only while MPI runs; `PetscInitialize` starts MPI unless it runs
already, does nothing in a PETSc session, and fails after `MPI_Finalize`; `PetscFinalize` ends the session, and ends MPI if its session
started it; outside of a session it fails.
-/

namespace Mito.Session

/-- the state of MPI in a process -/
inductive Mpi where
  | before
  | running
  | over
  deriving DecidableEq

/-- the state of a process -/
structure Process where
  mpi : Mpi
  /-- a PETSc session is open -/
  petsc : Bool
  /-- the PETSc session has started MPI -/
  started : Bool
  /-- the singleton of the simulation exists -/
  simulation : Bool
  deriving DecidableEq

/-- what a program calls -/
inductive Call where
  /-- `mito::simulation::simulation()` -/
  | simulation
  /-- `mito::petsc::initialize()` -/
  | petscInitialize
  /-- `mito::petsc::finalize()` -/
  | petscFinalize
  /-- anything that needs MPI: `MPI_Reduce`, `ParallelGridVTKWriter::write`, lib/mito/io/vtk/ParallelGridVTKWriter.h:34-37 -/
  | communicate
  /-- anything that needs PETSc: linear systems and solvers -/
  | solve
  deriving DecidableEq

def Process.start : Process := ⟨.before, false, false, false⟩

/-- a call; `none`: the call is erroneous -/
def step (p : Process) : Call → Option Process
  | .simulation =>
    -- lib/mito/utilities/Singleton.h:17-22: the first call constructs the simulation, and with it the context
    if p.simulation then some p
    else if p.mpi = .before then some { p with mpi := .running, simulation := true } else none
  | .petscInitialize =>
    if p.petsc then some p
    else match p.mpi with
      | .before => some { p with mpi := .running, petsc := true, started := true }
      | .running => some { p with petsc := true, started := false }
      | .over => none
  | .petscFinalize =>
    if p.petsc then some { p with petsc := false, mpi := if p.started then .over else p.mpi } else none
  | .communicate => if p.mpi = .running then some p else none
  | .solve => if p.petsc then some p else none

/-- the calls of a program -/
def calls : Process → List Call → Option Process
  | p, [] => some p
  | p, c :: cs =>
    match step p c with
    | none => none
    | some q => calls q cs

/-- the end of the process: the destructor of the context, if there is one, lib/mito/simulation/Context.icc:30-36 -/
def exit (p : Process) : Option Process :=
  if p.simulation then (if p.mpi = .running then some { p with mpi := .over } else none) else some p

/-- a whole process; `none`: some call is erroneous -/
def process (cs : List Call) : Option Process :=
  match calls .start cs with
  | none => none
  | some p => exit p

end Mito.Session
