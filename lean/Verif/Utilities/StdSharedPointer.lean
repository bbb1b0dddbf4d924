import Mathlib.Data.List.Basic

/-!
# Model of `StdSharedPointer`, lib/mito/utilities/StdSharedPointer.h

Nodes of meshes and nodes of discretizations are handles of this class (lib/mito/geometry/api.h:29-30, lib/mito/discrete/api.h:12-13).  Of
`std::shared_ptr` is assumed what the standard says: a resource lives as long as a handle refers to it, so the state needs no counts.  Where a
new resource is placed is up to the allocator: the address is part of the operation, and may be that of a resource that is gone.
-/

namespace Mito.StdSharedPointer

/-- a variable of the program -/
abbrev Var := Nat

/-- a resource: where it lives, and which call of `make_shared` made it -/
structure Resource where
  address : Nat
  birth : Nat
  deriving DecidableEq

/-- the variables in scope, what they refer to, and the number of resources made so far -/
structure State where
  scope : List Var
  held : Var → Option Resource
  made : Nat

/-- before the program -/
def State.init : State := ⟨[], fun _ => none, 0⟩

/-- the operations of handles, lib/mito/utilities/StdSharedPointer.h:32-50; the constructor with arguments is constrained to those of the
resource, so it does not take the place of the copy constructor -/
inductive Op where
  /-- the constructor with arguments of the resource, lib/mito/utilities/StdSharedPointer.icc:19-24 -/
  | make (x : Var) (address : Nat)
  | copy (x y : Var)
  | move (x y : Var)
  | assign (x y : Var)
  | moveAssign (x y : Var)
  /-- the end of the scope of a variable -/
  | drop (x : Var)

/-- does a resource live at the address? -/
def State.occupied (s : State) (a : Nat) : Bool := s.scope.any fun x => (s.held x).any fun r => r.address == a

/-- let the variable refer to something else -/
def State.put (s : State) (x : Var) (r : Option Resource) : State := { s with held := fun z => if z = x then r else s.held z }

/-- one operation; `none`: not a program, as it uses a variable out of scope or declares one twice, or not an allocator, as the address is null or
taken.  A handle that is moved from is null, also by `shared_ptr(std::move(y)).swap(x)` in the assignment, by which a variable assigned to itself
keeps its resource. -/
def step (s : State) : Op → Option State
  | .make x a =>
    if x ∈ s.scope ∨ a = 0 ∨ s.occupied a = true then none
    else some ⟨x :: s.scope, fun z => if z = x then some ⟨a, s.made⟩ else s.held z, s.made + 1⟩
  | .copy x y =>
    if x ∈ s.scope ∨ y ∉ s.scope then none else some { s.put x (s.held y) with scope := x :: s.scope }
  | .move x y =>
    if x ∈ s.scope ∨ y ∉ s.scope then none else some { (s.put y none).put x (s.held y) with scope := x :: s.scope }
  | .assign x y => if x ∉ s.scope ∨ y ∉ s.scope then none else some (s.put x (s.held y))
  | .moveAssign x y => if x ∉ s.scope ∨ y ∉ s.scope then none else some ((s.put y none).put x (s.held y))
  | .drop x => if x ∉ s.scope then none else some { s with scope := s.scope.erase x }

/-- a program -/
def run (s : State) : List Op → Option State
  | [] => some s
  | o :: l => (step s o).bind fun s' => run s' l

/-- `id`, lib/mito/utilities/StdSharedPointer.icc:11-17 -/
def State.id (s : State) (x : Var) : Nat := ((s.held x).map Resource.address).getD 0

/-- `operator==`, lib/mito/utilities/StdSharedPointer.h:57-62 -/
def State.eq (s : State) (x y : Var) : Bool := s.id x == s.id y

/-- `operator->`, lib/mito/utilities/StdSharedPointer.icc:26-34; `none`: the null pointer -/
def State.arrow (s : State) (x : Var) : Option Resource := s.held x

end Mito.StdSharedPointer
