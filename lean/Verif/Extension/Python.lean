import Mathlib.Data.List.Basic

/-!
# Model of the Python module, extensions/mito/mito.cc, and of the Python programs that use it

A Python object lives as long as something in Python refers to it (CPython counts references).  The classes of the module refer to each other by C++ references only: the bindings
declare no `keep_alive`.  So an object lives exactly as long as a variable refers to it.

Simplifications: the only references from Python are variables (a temporary, an argument or a local variable is a variable that is deleted later; containers and attributes are left
out); the interpreter does not reuse the memory of a dead object, touching it is undefined behaviour; a mesh has cells, so that each loop over them has a first pass.
-/

namespace Mito.Python

/-! ## Coordinates -/

/-- `__getitem__` of coordinates, extensions/mito/mito.cc:41-44, 66-69, and `operator[]`, lib/mito/coordinates/Coordinates.h:85: the index is not checked, and outside of the array reading is undefined behaviour (`none`) -/
def getItem (x : List α) (i : Int) : Option α := if i < 0 then none else x[i.toNat]?

/-- `zip(x, t)` of coordinates `x` and a tuple `t`, from item `i` on: the classes have neither `__iter__` nor `__len__`, so that Python calls `__getitem__(0)`, `__getitem__(1)`, … until
it raises `IndexError`, which it never does; the first argument of `zip` is asked first -/
def zipFirst (x : List α) : Nat → List β → Option (List (α × β))
  | i, [] => (getItem x i).map fun _ => []
  | i, b :: t => (getItem x i).bind fun a => (zipFirst x (i + 1) t).map ((a, b) :: ·)

/-- `zip(t, x)` -/
def zipSecond (x : List α) : Nat → List β → Option (List (β × α))
  | _, [] => some []
  | i, b :: t => (getItem x i).bind fun a => (zipSecond x (i + 1) t).map ((b, a) :: ·)

/-- The first steps of `list(x)`, `tuple(x)` or `a, b = x`: the items, or `none` for undefined behaviour. -/
def iterate (x : List α) : Nat → Option (List α)
  | 0 => some []
  | n + 1 => (iterate x n).bind fun l => (getItem x n).map fun a => l ++ [a]

/-! ## Objects -/

/-- the objects with the objects they refer to -/
inductive Obj where
  /-- `CoordinateSystem2D`, extensions/mito/mito.cc:104-111 -/
  | coords
  /-- `SimplicialMesh2D`, extensions/mito/mito.cc:114-136: the coordinate system is filled by the reader and not referred to -/
  | mesh
  /-- `ManifoldTriangle2D`, extensions/mito/mito.cc:140-153 and lib/mito/manifolds/Manifold.h:143-145 -/
  | manifold (mesh coords : Nat)
  /-- `GaussIntegrator2Triangle2D`, extensions/mito/mito.cc:157-173 and lib/mito/quadrature/Integrator.h:76 -/
  | integrator (manifold : Nat)
  /-- `ScalarField2D`, extensions/mito/mito.cc:75-84: the Python function is counted by `std::function` -/
  | field
  deriving DecidableEq, Repr

/-- the objects made so far, in order, and the variables -/
structure State where
  objs : List Obj
  vars : List (Nat × Nat)
  deriving DecidableEq, Repr

def init : State := ⟨[], []⟩

/-- the object of a variable -/
def State.lookup (s : State) (x : Nat) : Option Nat := (s.vars.find? fun p => p.1 == x).map (·.2)

/-- an object lives while a variable refers to it -/
def State.alive (s : State) (o : Nat) : Bool := s.vars.any fun p => p.2 == o

/-- `x = …`: the variable no longer refers to its old object -/
def State.bind (s : State) (x o : Nat) : State := { s with vars := (x, o) :: s.vars.filter fun p => !(p.1 == x) }

/-- a new object -/
def State.new (s : State) (x : Nat) (o : Obj) : State := State.bind { s with objs := s.objs ++ [o] } x s.objs.length

inductive Stmt where
  | coords (x : Nat)
  | mesh (x coords : Nat)
  | manifold (x mesh coords : Nat)
  | integrator (x manifold : Nat)
  | field (x : Nat)
  | integrate (integrator field : Nat)
  /-- `x = y` -/
  | assign (x y : Nat)
  /-- `del x`, or the end of the scope of `x` -/
  | delete (x : Nat)
  deriving DecidableEq, Repr

inductive Outcome where
  | ok (s : State)
  /-- a `NameError` or a `TypeError`, on which the program ends -/
  | raised
  | undefined
  deriving DecidableEq, Repr

/-- reading the cells of a manifold and their volumes, lib/mito/manifolds/Manifold.h:76-84 and 118-139, when `live` tells the living objects: the mesh and the coordinate
system are touched -/
def touchManifold (live : Nat → Bool) (s : State) (m : Nat) : Bool :=
  match s.objs[m]? with
  | some (.manifold mesh coords) => live mesh && live coords
  | _ => false

/-- a statement.  `live` tells the living objects: `State.alive` for the bindings as they are -/
def step (live : State → Nat → Bool) (s : State) : Stmt → Outcome
  | .coords x => .ok (s.new x .coords)
  | .field x => .ok (s.new x .field)
  | .mesh x c =>
    match (s.lookup c).bind fun c => s.objs[c]? with
    | some .coords => .ok (s.new x .mesh)
    | _ => .raised
  | .manifold x m c =>
    match s.lookup m, s.lookup c with
    | some m, some c =>
      match s.objs[m]?, s.objs[c]? with
      | some .mesh, some .coords => .ok (s.new x (.manifold m c))
      | _, _ => .raised
    | _, _ => .raised
  -- the constructor computes the coordinates of the quadrature points, lib/mito/quadrature/Integrator.h:34-58
  | .integrator x m =>
    match s.lookup m with
    | some m =>
      match s.objs[m]? with
      | some (.manifold _ _) => if touchManifold (live s) s m then .ok (s.new x (.integrator m)) else .undefined
      | _ => .raised
    | none => .raised
  -- lib/mito/quadrature/Integrator.h:60-72
  | .integrate i f =>
    match s.lookup i, s.lookup f with
    | some i, some f =>
      match s.objs[i]?, s.objs[f]? with
      | some (.integrator m), some .field => if live s m && touchManifold (live s) s m then .ok s else .undefined
      | _, _ => .raised
    | _, _ => .raised
  | .assign x y =>
    match s.lookup y with
    | some o => .ok (s.bind x o)
    | none => .raised
  | .delete x =>
    match s.lookup x with
    | some _ => .ok { s with vars := s.vars.filter fun p => !(p.1 == x) }
    | none => .raised

/-- a program -/
def run (live : State → Nat → Bool) (s : State) : List Stmt → Outcome
  | [] => .ok s
  | c :: p =>
    match step live s c with
    | .ok s => run live s p
    | .raised => .raised
    | .undefined => .undefined

/-- the objects that an object refers to -/
def Obj.refs : Obj → List Nat
  | .manifold m c => [m, c]
  | .integrator m => [m]
  | _ => []

/-- The living objects if the bindings declared `py::keep_alive<1, 2>` and `py::keep_alive<1, 3>` on the constructors: those of the variables, and what they refer to, which is at most two
steps away. -/
def kept (s : State) (o : Nat) : Bool :=
  s.alive o || (List.range s.objs.length).any fun p => s.alive p && ((s.objs[p]?.map Obj.refs).getD []).any fun q =>
    q == o || ((s.objs[q]?.map Obj.refs).getD []).contains o

/-- tests/mito.ext/integrate_2D.py:14-27 (the variables in the order of the file: `field`, `coord_system`, `mesh`, `manifold`, `integrator`) -/
def integrateTest : List Stmt := [.field 0, .coords 1, .mesh 2 1, .manifold 3 2 1, .integrator 4 3, .integrate 4 0]

end Mito.Python
