/-!
# Model of the references between the objects of a finite element program

Many classes of mito keep references to (or pointers to) objects made by the user of the library.
The model only keeps track of which object refers to which, of which objects are alive, and of which
objects an operation touches; touching an object that is no longer alive is undefined behaviour
(`none`).

Simplifications: objects are named by the order in which they were made; a reference to an object of
the wrong kind does not compile, here the operation does nothing with it; meshes have cells, so that
each loop over the cells or elements has a first pass.
-/

namespace Mito.Lifetimes

/-- the type of the elements of a function space -/
inductive Shape where
  | segment
  | triangle
  deriving DecidableEq, Repr

/-- the objects with the references they keep -/
inductive Obj where
  | mesh
  | coords
  /-- functions own copies of the functions they are made of, lib/mito/functions/function.h -/
  | field
  | material
  /-- a variable of type `real` -/
  | number
  /-- lib/mito/manifolds/Manifold.h:143-145 -/
  | manifold (mesh coords : Nat)
  /-- lib/mito/constraints/Dirichlet.h:40-41 -/
  | dirichlet (domain : Nat)
  /-- `_constraints`, lib/mito/fem/FunctionSpace.h:125, and the references kept by its elements,
  lib/mito/fem/elements/IsoparametricTriangle.h:68-71 and IsoparametricSegment.h:65 (a segment has no
  reference to the coordinate system) -/
  | space (shape : Shape) (mesh coords constraints : Nat)
  /-- `GradGradBlock` and `MassBlock`, which keep nothing -/
  | matrixBlock
  /-- lib/mito/fem/blocks/SourceTermBlock.h:77 -/
  | sourceBlock (field : Nat)
  /-- pointers to the blocks, lib/mito/fem/Weakform.h:106-109 -/
  | weakform (lhs rhs : List Nat)
  /-- lib/mito/fem/DiscreteSystem.h:225-228 -/
  | system (space weakform : Nat)
  /-- lib/mito/solvers/LinearSolver.h:65 -/
  | solver (system : Nat)
  /-- lib/mito/quadrature/Integrator.h:76 -/
  | integrator (manifold : Nat)
  /-- lib/mito/io/summit/MeshSummitWriter.h:113-116 -/
  | writer (mesh coords : Nat)
  /-- lib/mito/materials/MaterialConsistencyTest.h:155-159 -/
  | consistency (material perturbation tolerance : Nat)
  deriving DecidableEq, Repr

/-- the objects made so far and the living ones, newest first -/
structure State where
  objs : List Obj
  alive : List Nat
  deriving Repr

def State.init : State := ⟨[], []⟩

/-- what a program does with these objects -/
inductive Op where
  /-- declare a variable; function spaces are made by `space` -/
  | make (o : Obj)
  /-- `function_space`, lib/mito/fem/FunctionSpace.h:52-60 -/
  | space (shape : Shape) (manifold constraints : Nat)
  /-- `add_block` of the left-hand side, lib/mito/fem/Weakform.h:57-64 -/
  | addMatrix (weakform block : Nat)
  /-- `add_block` of the right-hand side, lib/mito/fem/Weakform.h:67-74 -/
  | addSource (weakform block : Nat)
  /-- `LinearSolver::solve`, lib/mito/solvers/LinearSolver.h:45-58 -/
  | solve (solver : Nat)
  /-- `compute_l2_norm` or `compute_h1_norm` of the difference of the solution of a system and a
  field, lib/mito/fem/norms.h:17-75 -/
  | norm (space system field : Nat)
  /-- `Integrator::integrate`, lib/mito/quadrature/Integrator.h:60-72 -/
  | integrate (integrator field : Nat)
  /-- `MeshSummitWriter::write`, lib/mito/io/summit/MeshSummitWriter.h:66-109 -/
  | write (writer : Nat)
  /-- `test_stress` or `test_tangents`, lib/mito/materials/MaterialConsistencyTest.h:104-151 -/
  | test (consistency : Nat)
  /-- end of the lifetime of an object; none of the destructors touches another one of these objects -/
  | destroy (object : Nat)
  deriving DecidableEq, Repr

/-- the references an object keeps -/
def Obj.refs : Obj → List Nat
  | .manifold m c => [m, c]
  | .dirichlet d => [d]
  | .space _ m c k => [m, c, k]
  | .sourceBlock f => [f]
  | .weakform lhs rhs => lhs ++ rhs
  | .system p w => [p, w]
  | .solver y => [y]
  | .integrator m => [m]
  | .writer m c => [m, c]
  | .consistency a b c => [a, b, c]
  | _ => []

/-- the objects touched through a manifold: `elements()`, `coordinate_system()`,
lib/mito/manifolds/Manifold.h:71-76 -/
def manifoldUses (s : State) (x : Nat) : List Nat :=
  match s.objs[x]? with
  | some (.manifold m c) => [x, m, c]
  | _ => [x]

/-- the objects touched by `compute` of a block on an element, apart from the element itself:
lib/mito/fem/blocks/GradGradBlock.h:27-67, MassBlock.h:27-67, SourceTermBlock.h:36-73 -/
def blockUses (s : State) (x : Nat) : List Nat :=
  match s.objs[x]? with
  | some (.sourceBlock f) => [x, f]
  | _ => [x]

/-- the objects touched by `parametrization()` of the elements of a function space: the cell and the
coordinate system for a triangle (lib/mito/fem/elements/IsoparametricTriangle.h:64), copies kept in the
element for a segment (lib/mito/fem/elements/seg1/IsoparametricSegmentP1.h:68-77) -/
def parametrizationUses (s : State) (x : Nat) : List Nat :=
  match s.objs[x]? with
  | some (.space .triangle m c _) => [x, m, c]
  | _ => [x]

/-- `assemble`, lib/mito/fem/DiscreteSystem.h:145-186, and `read_solution`, :189-212.  The matrix
blocks only evaluate shape functions and the jacobian, which use copies of the coordinates of the nodes;
the source term blocks evaluate the parametrization. -/
def systemUses (s : State) (x : Nat) : List Nat :=
  match s.objs[x]? with
  | some (.system p w) =>
    match s.objs[w]? with
    | some (.weakform lhs rhs) =>
      x :: p :: w :: (lhs.flatMap (blockUses s) ++ rhs.flatMap (blockUses s) ++
        if rhs = [] then [] else parametrizationUses s p)
    | _ => [x, p, w]
  | _ => [x]

def solverUses (s : State) (x : Nat) : List Nat :=
  match s.objs[x]? with
  | some (.solver y) => x :: systemUses s y
  | _ => [x]

def integratorUses (s : State) (x : Nat) : List Nat :=
  match s.objs[x]? with
  | some (.integrator m) => x :: manifoldUses s m
  | _ => [x]

def constraintUses (s : State) (x : Nat) : List Nat :=
  match s.objs[x]? with
  | some (.dirichlet d) => [x, d]
  | _ => [x]

def writerUses (s : State) (x : Nat) : List Nat :=
  match s.objs[x]? with
  | some (.writer m c) => [x, m, c]
  | _ => [x]

def testUses (s : State) (x : Nat) : List Nat :=
  match s.objs[x]? with
  | some (.consistency a b c) => [x, a, b, c]
  | _ => [x]

/-- The objects an operation touches.  Constructors bind references to the objects they are given; the
one of `Integrator` computes the coordinates of the quadrature points
(lib/mito/quadrature/Integrator.h:53-58), and the one of `FunctionSpace` visits the cells of the mesh and
of the constrained domain (lib/mito/fem/elements/tri1/DiscretizerCG.h:18-64). -/
def uses (s : State) : Op → List Nat
  | .make (.integrator m) => manifoldUses s m
  | .make o => o.refs
  | .space _ m k => manifoldUses s m ++ constraintUses s k
  | .addMatrix w b => [w, b]
  | .addSource w b => [w, b]
  | .solve x => solverUses s x
  | .norm p y f => y :: f :: parametrizationUses s p
  | .integrate i f => f :: integratorUses s i
  | .write x => writerUses s x
  | .test x => testUses s x
  | .destroy x => [x]

def State.push (s : State) (o : Obj) : State := ⟨s.objs ++ [o], s.objs.length :: s.alive⟩

def State.addMatrix (s : State) (w b : Nat) : State :=
  match s.objs[w]? with
  | some (.weakform lhs rhs) => ⟨s.objs.set w (.weakform (lhs ++ [b]) rhs), s.alive⟩
  | _ => s

def State.addSource (s : State) (w b : Nat) : State :=
  match s.objs[w]? with
  | some (.weakform lhs rhs) => ⟨s.objs.set w (.weakform lhs (rhs ++ [b])), s.alive⟩
  | _ => s

/-- what an operation changes -/
def effect (s : State) : Op → State
  | .make o => s.push o
  | .space shape m k =>
    match s.objs[m]? with
    | some (.manifold mesh coords) => s.push (.space shape mesh coords k)
    | _ => s
  | .addMatrix w b => s.addMatrix w b
  | .addSource w b => s.addSource w b
  | .destroy x => ⟨s.objs, s.alive.erase x⟩
  | _ => s

/-- one operation; `none`: it touches an object that is not alive -/
def step (s : State) (op : Op) : Option State :=
  if ∀ x ∈ uses s op, x ∈ s.alive then some (effect s op) else none

/-- a program -/
def run (s : State) : List Op → Option State
  | [] => some s
  | op :: ops => (step s op).bind fun s' => run s' ops

end Mito.Lifetimes
