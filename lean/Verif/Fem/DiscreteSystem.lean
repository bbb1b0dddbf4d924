import Verif.Utilities.Assoc
import Verif.Fem.DiscreteField
import Mathlib.Algebra.Ring.Defs
import Mathlib.Data.List.Dedup

/-!
# Model of `mito::fem::DiscreteSystem`, `mito::fem::Weakform` and `mito::solvers::LinearSolver`

Sources: lib/mito/fem/DiscreteSystem.h, lib/mito/fem/Weakform.h, lib/mito/fem/utilities.h,
lib/mito/fem/FunctionSpace.h, lib/mito/solvers/LinearSolver.h,
lib/mito/matrix_solvers/backend/petsc/PETScLinearSystem.cc.

Numbers are elements of a ring `R`, so there is no rounding.  A PETSc matrix is a function of row and column,
a PETSc vector a function of the row; both are zero when created, and `ADD_VALUES` adds.  An index outside
of the matrix cannot occur (see `Verif/Props/DiscreteSystem.lean`).  The solver is a function of matrix and
right-hand side that returns the solution vector.  Printing is left out.
-/

namespace Mito.DiscreteSystem

open Mito.Assoc

/-- what a discrete system uses of an element: the ids of its discretization nodes -/
abbrev Conn := List Nat

/-- `insert` in a `std::set<node_type>`, as the list of its elements in increasing order -/
def setInsert (x : Nat) : List Nat → List Nat
  | [] => [x]
  | y :: l => if x < y then x :: y :: l else if x = y then y :: l else y :: setInsert x l

/-- the set of the elements of a list -/
def setOf (l : List Nat) : List Nat := l.foldr setInsert []

/-- what a discrete system uses of a function space, lib/mito/fem/FunctionSpace.h:84-94: the connectivities
of the elements and the constrained nodes.  `prescribed` is the function of the Dirichlet constraint at the
discretization nodes, lib/mito/constraints/Dirichlet.h:35; no code uses it. -/
structure FunctionSpace (R : Type) where
  elements : List Conn
  constrained : List Nat
  prescribed : Nat → R

/-- `get_discretization_nodes`, lib/mito/fem/utilities.h:13-25, in a `std::set` -/
def nodes {R : Type} (V : FunctionSpace R) : List Nat := setOf V.elements.flatten

/-- a round of the second loop of `_build_equation_map`, lib/mito/fem/DiscreteSystem.h:125-133 -/
def addEquation (s : List (Nat × Int) × Nat) (n : Nat) : List (Nat × Int) × Nat :=
  match get s.1 n with
  | some _ => s
  | none => (s.1 ++ [(n, (s.2 : Int))], s.2 + 1)

/-- `_build_equation_map`, lib/mito/fem/DiscreteSystem.h:89-138: the map and the number of equations -/
def buildEquationMap {R : Type} (V : FunctionSpace R) : List (Nat × Int) × Nat :=
  let constrained := setOf V.constrained
  -- `std::set_difference`
  let interior := (nodes V).filter fun n => n ∉ constrained
  let m := constrained.foldl (fun m n => Assoc.insert m n (-1 : Int)) []
  interior.foldl addEquation (m, 0)

/-! ### weak forms -/

variable {R : Type} [CommRing R]

/-- an elementary matrix and an elementary vector -/
structure Blocks (R : Type) where
  matrix : Nat → Nat → R
  vector : Nat → R

/-- `compute_blocks`, lib/mito/fem/Weakform.h:77-102: the sums of the blocks.
A block is a function of the element (given by its number). -/
def computeBlocks (lhs : List (Nat → Nat → Nat → R)) (rhs : List (Nat → Nat → R)) (e : Nat) :
    Blocks R :=
  ⟨lhs.foldl (fun m b => fun i j => m i j + b e i j) (fun _ _ => 0),
    rhs.foldl (fun v b => fun i => v i + b e i) (fun _ => 0)⟩

/-! ### assembly -/

/-- `PETScLinearSystem`: matrix and right-hand side -/
structure LinearSystem (R : Type) where
  matrix : Nat → Nat → R
  rhs : Nat → R

/-- `create`, lib/mito/matrix_solvers/backend/petsc/PETScLinearSystem.cc:22-46 -/
def LinearSystem.create : LinearSystem R := ⟨fun _ _ => 0, fun _ => 0⟩

/-- `add_matrix_value`, lib/mito/matrix_solvers/backend/petsc/PETScLinearSystem.cc:97-107 -/
def addMatrix (s : LinearSystem R) (i j : Nat) (v : R) : LinearSystem R :=
  ⟨fun i' j' => if i' = i ∧ j' = j then s.matrix i' j' + v else s.matrix i' j', s.rhs⟩

/-- `add_rhs_value`, lib/mito/matrix_solvers/backend/petsc/PETScLinearSystem.cc:121-131 -/
def addRhs (s : LinearSystem R) (i : Nat) (v : R) : LinearSystem R :=
  ⟨s.matrix, fun i' => if i' = i then s.rhs i' + v else s.rhs i'⟩

/-- the loop on `b` of `assemble`, lib/mito/fem/DiscreteSystem.h:169-181: `none`, `at` of an absent node -/
def addRow (m : List (Nat × Int)) (eqA : Nat) (row : Nat → R) :
    List (Nat × Nat) → LinearSystem R → Option (LinearSystem R)
  | [], s => some s
  | (nb, b) :: l, s =>
    match get m nb with
    | none => none
    | some eqB => addRow m eqA row l (if eqB = -1 then s else addMatrix s eqA eqB.toNat (row b))

/-- the loop on `a` of `assemble`, lib/mito/fem/DiscreteSystem.h:157-184; `conn` are the nodes of the element
with their local numbers -/
def addRows (m : List (Nat × Int)) (B : Blocks R) (conn : List (Nat × Nat)) :
    List (Nat × Nat) → LinearSystem R → Option (LinearSystem R)
  | [], s => some s
  | (na, a) :: l, s =>
    match get m na with
    | none => none
    | some eqA =>
      if eqA = -1 then addRows m B conn l s
      else
        match addRow m eqA.toNat (B.matrix a) conn (addRhs s eqA.toNat (B.vector a)) with
        | none => none
        | some s' => addRows m B conn l s'

/-- `assemble`, lib/mito/fem/DiscreteSystem.h:145-186; `blocks e` are those of the `e`-th element -/
def assemble (m : List (Nat × Int)) (blocks : Nat → Blocks R) :
    List (Conn × Nat) → LinearSystem R → Option (LinearSystem R)
  | [], s => some s
  | (c, e) :: l, s =>
    match addRows m (blocks e) c.zipIdx c.zipIdx s with
    | none => none
    | some s' => assemble m blocks l s'

/-! ### solution -/

/-- `read_solution`, lib/mito/fem/DiscreteSystem.h:189-212: `none` if `at` of the field throws.
(`u[eq]` is in range: the vector has an entry per equation.) -/
def readSolution (u : Nat → R) :
    List (Nat × Int) → DiscreteField.Field Nat R → Option (DiscreteField.Field Nat R)
  | [], f => some f
  | (n, eq) :: l, f =>
    if eq = -1 then readSolution u l f
    else
      match get f n with
      | none => none
      | some _ => readSolution u l (Assoc.set f n (u eq.toNat))

/-- a discrete system -/
structure System (R : Type) where
  space : FunctionSpace R
  equations : List (Nat × Int)
  nEquations : Nat
  field : DiscreteField.Field Nat R
  linear : LinearSystem R

/-- the constructor, lib/mito/fem/DiscreteSystem.h:46-70, with `fem_field`,
lib/mito/fem/FunctionSpace.h:98-111: the field holds zero at each node -/
def create (V : FunctionSpace R) : System R :=
  let e := buildEquationMap V
  ⟨V, e.1, e.2, (V.elements.flatten.dedup).map fun n => (n, 0), LinearSystem.create⟩

/-- `LinearSolver::solve`, lib/mito/solvers/LinearSolver.h:45-58: assemble, solve, read the solution.
The system is not emptied before. -/
def solve (solver : Nat → (Nat → Nat → R) → (Nat → R) → Nat → R) (blocks : Nat → Blocks R)
    (S : System R) : Option (System R) :=
  match assemble S.equations blocks S.space.elements.zipIdx S.linear with
  | none => none
  | some l =>
    match readSolution (solver S.nEquations l.matrix l.rhs) S.equations S.field with
    | none => none
    | some f => some { S with field := f, linear := l }

/-- `n` calls of `solve` -/
def solveTimes (solver : Nat → (Nat → Nat → R) → (Nat → R) → Nat → R) (blocks : Nat → Blocks R) :
    Nat → System R → Option (System R)
  | 0, S => some S
  | n + 1, S =>
    match solve solver blocks S with
    | none => none
    | some S' => solveTimes solver blocks n S'

end Mito.DiscreteSystem
