import Mathlib.Logic.Function.Basic

/-!
# Model of the lifetime of the PETSc objects behind linear systems and solvers

lib/mito/matrix_solvers/backend/petsc/PETScLinearSystem.h:13-82, PETScLinearSystem.icc:13-34, PETScLinearSystem.cc:13-159,
lib/mito/matrix_solvers/backend/petsc/PETScKrylovSolver.cc:13-49 and 87-135

What PETSc does is an assumption: objects are counted; `XxxCreate` returns a new object with one reference; `XxxDestroy` gives up a reference,
frees the object with the last one and sets the handle to null, and does nothing if the handle is null; `KSPSetOperators` takes two references
(one for each of its matrices) which the solver gives up when it is freed.  Values of matrices and vectors, options and errors that PETSc
reports for other reasons are not modelled.  Handing a handle that was never written, that is null or whose object was freed to PETSc is
a misuse: `none`.
-/

namespace Mito.Handles

/-- the members `_matrix`, `_rhs`, `_solution` and `_ksp`: pointers, not initialised by the constructors
(lib/mito/matrix_solvers/backend/petsc/PETScLinearSystem.cc:13-16, PETScKrylovSolver.cc:14-18) -/
inductive Handle
  | garbage
  | null
  | obj (i : Nat)
  deriving DecidableEq

/-- the objects of PETSc: the number of objects created so far, their references and the matrix that a solver refers to -/
structure Heap where
  next : Nat
  refs : Nat → Nat
  ops : Nat → Option Nat

def Heap.empty : Heap := ⟨0, fun _ => 0, fun _ => none⟩

/-- `VecCreate`, `MatCreate`, `KSPCreate` -/
def Heap.create (h : Heap) : Heap × Handle := (⟨h.next + 1, Function.update h.refs h.next 1, h.ops⟩, .obj h.next)

/-- give up references -/
def Heap.drop (h : Heap) (i n : Nat) : Heap := { h with refs := Function.update h.refs i (h.refs i - n) }

/-- `VecDestroy`, `MatDestroy`, `KSPDestroy` -/
def Heap.destroy (h : Heap) : Handle → Option Heap
  | .garbage => none
  | .null => some h
  | .obj i =>
    if h.refs i = 0 then none
    else if h.refs i = 1 then
      match h.ops i with
      | some m => some ((h.drop i 1).drop m 2)
      | none => some (h.drop i 1)
    else some (h.drop i 1)

/-- any other function of PETSc needs an object -/
def Heap.usable (h : Heap) : Handle → Bool
  | .obj i => h.refs i != 0
  | _ => false

/-- `KSPSetOperators` for a new solver; a null matrix leaves it without one -/
def Heap.setOperators (h : Heap) (ksp matrix : Handle) : Option Heap :=
  match ksp, matrix with
  | .obj k, .obj m =>
    if h.refs k = 0 ∨ h.refs m = 0 then none
    else some { h with refs := Function.update h.refs m (h.refs m + 2), ops := Function.update h.ops k (some m) }
  | .obj k, .null => if h.refs k = 0 then none else some h
  | _, _ => none

/-- the handles of a `PETScLinearSystem` -/
structure System where
  matrix : Handle
  rhs : Handle
  solution : Handle
  deriving DecidableEq

/-- a `PETScKrylovSolver`: the linear system it refers to and its handle -/
structure Solver where
  system : Nat
  ksp : Handle
  deriving DecidableEq

structure State where
  heap : Heap
  systems : List System
  solvers : List Solver

def State.init : State := ⟨.empty, [], []⟩

/-- what a program does with linear systems and solvers -/
inductive Op
  /-- the constructor of a linear system -/
  | system
  /-- a copy of a linear system: the class does not declare a copy constructor, so the handles are copied -/
  | copySystem (s : Nat)
  | createSystem (s : Nat)
  | destroySystem (s : Nat)
  /-- `insert_matrix_value`, `add_matrix_value`, `assemble` -/
  | useMatrix (s : Nat)
  /-- `insert_rhs_value`, `add_rhs_value` -/
  | useRhs (s : Nat)
  /-- `get_solution` -/
  | getSolution (s : Nat)
  /-- `print` -/
  | print (s : Nat)
  /-- the constructor of a solver for a linear system -/
  | solver (s : Nat)
  | createSolver (k : Nat)
  | destroySolver (k : Nat)
  | setOptions (k : Nat)
  | solve (k : Nat)
  deriving DecidableEq

/-- lib/mito/matrix_solvers/backend/petsc/PETScLinearSystem.cc:22-47: the handles are overwritten -/
def createSystem (h : Heap) : Heap × System :=
  let r1 := h.create
  let r2 := r1.1.create
  let r3 := r2.1.create
  (r3.1, ⟨r3.2, r2.2, r1.2⟩)

/-- lib/mito/matrix_solvers/backend/petsc/PETScLinearSystem.cc:50-60 -/
def destroySystem (h : Heap) (S : System) : Option (Heap × System) := do
  let h1 ← h.destroy S.matrix
  let h2 ← h1.destroy S.solution
  let h3 ← h2.destroy S.rhs
  pure (h3, ⟨.null, .null, .null⟩)

/-- lib/mito/matrix_solvers/backend/petsc/PETScKrylovSolver.cc:24-34 -/
def createSolver (h : Heap) (S : System) : Option (Heap × Handle) := do
  let r := h.create
  let h' ← r.1.setOperators r.2 S.matrix
  pure (h', r.2)

/-- whether the solver was given a matrix -/
def Heap.hasOperators (h : Heap) : Handle → Bool
  | .obj k => (h.ops k).isSome
  | _ => false

/-- one step of a program; the destructors of both classes do nothing
(lib/mito/matrix_solvers/backend/petsc/PETScLinearSystem.cc:19, PETScKrylovSolver.cc:21) and are left out -/
def step (st : State) : Op → Option State
  | .system => some { st with systems := st.systems ++ [⟨.garbage, .garbage, .garbage⟩] }
  | .copySystem s => do
    let S ← st.systems[s]?
    pure { st with systems := st.systems ++ [S] }
  | .createSystem s => do
    let _ ← st.systems[s]?
    let r := createSystem st.heap
    pure { st with heap := r.1, systems := st.systems.set s r.2 }
  | .destroySystem s => do
    let S ← st.systems[s]?
    let r ← destroySystem st.heap S
    pure { st with heap := r.1, systems := st.systems.set s r.2 }
  | .useMatrix s => do
    let S ← st.systems[s]?
    if st.heap.usable S.matrix then pure st else none
  | .useRhs s => do
    let S ← st.systems[s]?
    if st.heap.usable S.rhs then pure st else none
  | .getSolution s => do
    let S ← st.systems[s]?
    if st.heap.usable S.solution then pure st else none
  | .print s => do
    let S ← st.systems[s]?
    if st.heap.usable S.matrix && st.heap.usable S.rhs then pure st else none
  | .solver s => do
    let _ ← st.systems[s]?
    pure { st with solvers := st.solvers ++ [⟨s, .garbage⟩] }
  | .createSolver k => do
    let K ← st.solvers[k]?
    let S ← st.systems[K.system]?
    let r ← createSolver st.heap S
    pure { st with heap := r.1, solvers := st.solvers.set k ⟨K.system, r.2⟩ }
  -- the solver destroys the linear system, too: lib/mito/matrix_solvers/backend/petsc/PETScKrylovSolver.cc:37-48
  | .destroySolver k => do
    let K ← st.solvers[k]?
    let S ← st.systems[K.system]?
    let r ← destroySystem st.heap S
    let h ← r.1.destroy K.ksp
    pure ⟨h, st.systems.set K.system r.2, st.solvers.set k ⟨K.system, .null⟩⟩
  | .setOptions k => do
    let K ← st.solvers[k]?
    if st.heap.usable K.ksp then pure st else none
  -- lib/mito/matrix_solvers/backend/petsc/PETScKrylovSolver.cc:109-120: the matrix is assembled, then the solver is called with its own operators
  | .solve k => do
    let K ← st.solvers[k]?
    let S ← st.systems[K.system]?
    if st.heap.usable S.matrix && st.heap.usable K.ksp && st.heap.hasOperators K.ksp && st.heap.usable S.rhs && st.heap.usable S.solution then
      pure st
    else none

/-- a program -/
def run (st : State) : List Op → Option State
  | [] => some st
  | o :: l => (step st o).bind (run · l)

end Mito.Handles
