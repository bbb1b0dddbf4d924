import Verif.Utilities.SegmentedAllocator
import Verif.Utilities.SharedPointer

/-!
# Model of `mito::utilities::Repository`

A repository is a segmented allocator plus the pointers to its resources.  A resource is only its
reference count (as in `SharedPointer.lean`); `alive` is the set of addresses where a resource has
been constructed and not destroyed.

Simplifications: the memory of a destroyed resource keeps its reference count (the code reads and
writes it: `reset()` after the destructor call in `erase`, `is_valid()` during iteration; formally
this is undefined behaviour in C++ and the model takes the benign reading).  Destroying a dead
resource or constructing over a live one is undefined behaviour (`none`).
-/

namespace Mito.Repo

open Mito.Alloc
open Mito.SharedPointer (Var Op)

/-- lib/mito/utilities/Repository.h:158 and the pointers handed out -/
structure Repo where
  alloc : Alloc.State
  ptrs : SharedPointer.State
  alive : Finset Addr

/-- constructor, lib/mito/utilities/Repository.h:68 -/
def Repo.init (n : Nat) : Repo := ⟨.init n, .init, ∅⟩

/-- `auto v = repository.emplace(...)`, lib/mito/utilities/Repository.h:82-98; `b` is what
`operator new` would return.  The constructor of `Shareable` sets the count to zero
(Shareable.icc:23), the pointer then acquires it. -/
def emplace (s : Repo) (v : Var) (b : Addr) : Option (Repo × Addr) :=
  let r := locationForPlacement s.alloc b
  let loc := r.2.1
  if loc ∈ s.alive then none
  else
    let p0 : SharedPointer.State :=
      { s.ptrs with count := fun x => if x = loc then 0 else s.ptrs.count x }
    match SharedPointer.step p0 (.ofHandle v loc) with
    | .ub => none
    | .ok p => some (⟨Alloc.insert r.1, p, Insert.insert loc s.alive⟩, loc)

/-- `repository.erase(v)`, lib/mito/utilities/Repository.h:103-119. -/
def erase (s : Repo) (v : Var) : Option (Repo × Bool) :=
  if v ∉ s.ptrs.live then none
  else
    match s.ptrs.handle v with
    | none => some (s, false)
    | some a =>
      if a ∉ s.alive then none
      else
        match SharedPointer.step s.ptrs (.reset v) with
        | .ub => none
        | .ok p => some (⟨Alloc.erase s.alloc a, p, s.alive.erase a⟩, true)

/-- an operation on the pointers (copy, move, assignment, reset, destruction) -/
def pointerOp (s : Repo) (op : Op) : Option Repo :=
  match SharedPointer.step s.ptrs op with
  | .ub => none
  | .ok p => some { s with ptrs := p }

/-- `references()` of a pointer, lib/mito/utilities/SharedPointer.icc:37-43 -/
def references (s : Repo) (v : Var) : Option Int := SharedPointer.references s.ptrs v

/-- `size`, lib/mito/utilities/Repository.h:130-134 -/
def size (s : Repo) : Int := Alloc.size s.alloc

/-- resources visited by `for (auto & r : repository)`, lib/mito/utilities/Repository.h:146-156:
those that are valid, i.e. have a positive count (Shareable.icc:12-17) -/
def elements (s : Repo) (fuel : Nat) : Option (List Addr) :=
  visitValid s.alloc (SharedPointer.isValid s.ptrs) fuel

/-- destroy the resources at a list of addresses one after the other -/
def destroyAll (alive : Finset Addr) : List Addr → Option (Finset Addr)
  | [] => some alive
  | a :: as => if a ∈ alive then destroyAll (alive.erase a) as else none

/-- the destructor, lib/mito/utilities/Repository.h:71-77: calls the destructor on every slot of the
allocator, erased or not -/
def destructor (s : Repo) (fuel : Nat) : Option (Finset Addr) :=
  match visit s.alloc fuel (itBegin s.alloc) with
  | none => none
  | some l => destroyAll s.alive l

end Mito.Repo
