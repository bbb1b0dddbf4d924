import Verif.Fem.DiscreteSystem

/-!
# Model of `mito::matrix_solvers::petsc::PETScLinearSystem` in a program with several tasks

The objects are created on `PETSC_COMM_WORLD`, lib/mito/matrix_solvers/backend/petsc/PETScLinearSystem.cc:29-35, so that all tasks share one
matrix and two vectors.  What is assumed of PETSc (its documentation): the tasks have to ask for the same global size; `PETSC_DECIDE` gives
each task a range of consecutive rows, the first `n % k` tasks having one more; values set in rows of other tasks are kept until the object
is assembled, and sent then.  `assemble`, lib/mito/matrix_solvers/backend/petsc/PETScLinearSystem.cc:69-83, assembles the matrix, and not the
right-hand side.  (A PETSc built for debugging may refuse a right-hand side that is not assembled.)
-/

namespace Mito.Distributed

open Mito.Assoc Mito.DiscreteSystem

variable {R : Type} [CommRing R]

/-- `VecSetSizes(v, PETSC_DECIDE, n)` with `k` tasks: the rows of task `r`,
lib/mito/matrix_solvers/backend/petsc/PETScLinearSystem.cc:29-36 -/
def localSize (n k r : Nat) : Nat := n / k + if r < n % k then 1 else 0

/-- the first row of task `r` -/
def firstRow (n k r : Nat) : Nat := ((List.range r).map (localSize n k)).sum

/-- does task `r` have row `i`? -/
def owns (n k r i : Nat) : Bool := firstRow n k r ≤ i && i < firstRow n k r + localSize n k r

/-- the calls to a linear system, lib/mito/matrix_solvers/backend/petsc/PETScLinearSystem.cc:86-131 -/
inductive Call (R : Type) where
  | insertMatrix (i j : Nat) (v : R)
  | addMatrix (i j : Nat) (v : R)
  | insertRhs (i : Nat) (v : R)
  | addRhs (i : Nat) (v : R)

/-- what a call does to the entry `(i, j)` of the matrix -/
def Call.onMatrix (i j : Nat) (x : R) : Call R → R
  | .insertMatrix i' j' v => if i = i' ∧ j = j' then v else x
  | .addMatrix i' j' v => if i = i' ∧ j = j' then x + v else x
  | .insertRhs _ _ => x
  | .addRhs _ _ => x

/-- what a call does to the entry `i` of the right-hand side -/
def Call.onRhs (i : Nat) (x : R) : Call R → R
  | .insertMatrix _ _ _ => x
  | .addMatrix _ _ _ => x
  | .insertRhs i' v => if i = i' then v else x
  | .addRhs i' v => if i = i' then x + v else x

/-- The entry `(i, j)` of the matrix when it is assembled: the calls of the owner of the row come first, those of the other tasks are
received in the order `arrival`. -/
def matrixAt (n : Nat) (arrival : List Nat) (tasks : List (List (Call R))) (i j : Nat) : R :=
  let own := (tasks.zipIdx.filter fun t => owns n tasks.length t.2 i).flatMap Prod.fst
  let sent := arrival.flatMap fun r => if owns n tasks.length r i then [] else tasks.getD r []
  (own ++ sent).foldl (Call.onMatrix i j) 0

/-- the entry `i` of the right-hand side when the system is solved: only the calls of the owner of the row have arrived -/
def rhsAt (n : Nat) (tasks : List (List (Call R))) (i : Nat) : R :=
  ((tasks.zipIdx.filter fun t => owns n tasks.length t.2 i).flatMap Prod.fst).foldl (Call.onRhs i) 0

/-- the entry it would have if `VecAssemblyBegin` and `VecAssemblyEnd` were called -/
def assembledRhsAt (n : Nat) (arrival : List Nat) (tasks : List (List (Call R))) (i : Nat) : R :=
  let own := (tasks.zipIdx.filter fun t => owns n tasks.length t.2 i).flatMap Prod.fst
  let sent := arrival.flatMap fun r => if owns n tasks.length r i then [] else tasks.getD r []
  (own ++ sent).foldl (Call.onRhs i) 0

/-- `get_solution` on task `r`, lib/mito/matrix_solvers/backend/petsc/PETScLinearSystem.icc:15-35: `VecGetArrayRead` gives the rows of the task,
`VecGetSize` the number of all rows.  `none`: entries beyond the end of the array are read. -/
def getSolution (n k r : Nat) (u : Nat → R) : Option (List R) :=
  if n ≤ localSize n k r then some ((List.range n).map fun i => u (firstRow n k r + i)) else none

/-! ### the calls of a discrete system -/

/-- the loop on `b`, lib/mito/fem/DiscreteSystem.h:169-181 -/
def rowCalls (m : List (Nat × Int)) (eqA : Nat) (row : Nat → R) : List (Nat × Nat) → Option (List (Call R))
  | [] => some []
  | (nb, b) :: l =>
    match get m nb with
    | none => none
    | some eqB => (rowCalls m eqA row l).map fun cs => if eqB = -1 then cs else .addMatrix eqA eqB.toNat (row b) :: cs

/-- the loop on `a`, lib/mito/fem/DiscreteSystem.h:157-184 -/
def elementCalls (m : List (Nat × Int)) (B : Blocks R) (conn : List (Nat × Nat)) : List (Nat × Nat) → Option (List (Call R))
  | [] => some []
  | (na, a) :: l =>
    match get m na with
    | none => none
    | some eqA =>
      if eqA = -1 then elementCalls m B conn l
      else
        match rowCalls m eqA.toNat (B.matrix a) conn, elementCalls m B conn l with
        | some cs, some cs' => some (.addRhs eqA.toNat (B.vector a) :: cs ++ cs')
        | _, _ => none

/-- `assemble`, lib/mito/fem/DiscreteSystem.h:145-186 -/
def assembleCalls (m : List (Nat × Int)) (blocks : Nat → Blocks R) : List (Conn × Nat) → Option (List (Call R))
  | [] => some []
  | (c, e) :: l =>
    match elementCalls m (blocks e) c.zipIdx c.zipIdx, assembleCalls m blocks l with
    | some cs, some cs' => some (cs ++ cs')
    | _, _ => none

/-- a task: its function space and what its weak form computes -/
structure Task (R : Type) where
  space : FunctionSpace R
  blocks : Nat → Blocks R

/-- the calls of a task -/
def Task.calls (t : Task R) : Option (List (Call R)) :=
  assembleCalls (buildEquationMap t.space).1 t.blocks t.space.elements.zipIdx

/-- the number of equations of a task -/
def Task.size (t : Task R) : Nat := (buildEquationMap t.space).2

/-- how a program that solves on several tasks may end -/
inductive Outcome (R : Type) where
  /-- the tasks ask for different sizes -/
  | sizes
  /-- an exception on some task -/
  | throws
  /-- some task reads beyond the end of an array -/
  | undefined
  /-- the solution field of each task -/
  | solved (fields : List (DiscreteField.Field Nat R))

/-- `read_solution` on a task, with the entries that `get_solution` copied -/
def readTask (n k : Nat) (u : Nat → R) (t : Task R × Nat) : Option (Option (DiscreteField.Field Nat R)) :=
  (getSolution n k t.2 u).map fun l =>
    readSolution (fun i => l.getD i 0) (buildEquationMap t.1.space).1 (create t.1.space).field

/-- all tasks create a discrete system and call `LinearSolver::solve`, lib/mito/solvers/LinearSolver.h:45-58 -/
def solveTasks (solver : Nat → (Nat → Nat → R) → (Nat → R) → Nat → R) (arrival : List Nat) (tasks : List (Task R)) : Outcome R :=
  match tasks with
  | [] => .solved []
  | t₀ :: _ =>
    if tasks.all fun t => t.size = t₀.size then
      match tasks.mapM Task.calls with
      | none => .throws
      | some calls =>
        let u := solver t₀.size (matrixAt t₀.size arrival calls) (rhsAt t₀.size calls)
        match tasks.zipIdx.mapM (readTask t₀.size tasks.length u) with
        | none => .undefined
        | some fields =>
          match fields.mapM id with
          | none => .throws
          | some fs => .solved fs
    else .sizes

end Mito.Distributed
