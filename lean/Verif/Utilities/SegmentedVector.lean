import Verif.Utilities.SegmentedAllocator

/-!
# Model of `mito::utilities::SegmentedVector`

On top of the allocator the vector has memory: at each address either no object, or an object with
its value and its `Invalidatable` flag (lib/mito/utilities/Invalidatable.icc).  Destroying an
address without an object, constructing over an object and reading the flag of an address without an
object are undefined behaviour (`none`).
-/

namespace Mito.SegVec

open Mito.Alloc

/-- the vector: its allocator (lib/mito/utilities/SegmentedVector.h:143) and the memory -/
structure SVec (α : Type) where
  alloc : Alloc.State
  mem : Addr → Option (α × Bool)

/-- constructor, lib/mito/utilities/SegmentedVector.h:43 -/
def SVec.init {α : Type} (n : Nat) : SVec α := ⟨.init n, fun _ => none⟩

variable {α : Type}

/-- end of lifetime of the object at `a` -/
def destroyAt (mem : Addr → Option (α × Bool)) (a : Addr) : Option (Addr → Option (α × Bool)) :=
  match mem a with
  | none => none
  | some _ => some fun x => if x = a then none else mem x

/-- placement new of an object at `a` -/
def constructAt (mem : Addr → Option (α × Bool)) (a : Addr) (o : α × Bool) :
    Option (Addr → Option (α × Bool)) :=
  match mem a with
  | some _ => none
  | none => some fun x => if x = a then some o else mem x

/-- `emplace`, lib/mito/utilities/SegmentedVector.h:73-93.  `o` is the constructed object: its value
and its validity flag (`true` for the default constructor of `Invalidatable`,
Invalidatable.icc:31; the implicit copy constructor copies the flag of the source).  `b` is what
`operator new` would return.  Returns the new vector and the address of the element. -/
def emplace (v : SVec α) (o : α × Bool) (b : Addr) : Option (SVec α × Addr) :=
  let r := locationForPlacement v.alloc b
  let loc := r.2.1
  let mem1 := if r.2.2 then destroyAt v.mem loc else some v.mem
  match mem1 with
  | none => none
  | some m1 =>
    match constructAt m1 loc o with
    | none => none
    | some m2 => some (⟨Alloc.insert r.1, m2⟩, loc)

/-- `erase`, lib/mito/utilities/SegmentedVector.h:96-111. -/
def erase (v : SVec α) (a : Addr) : Option (SVec α × Bool) :=
  match v.mem a with
  | none => none
  | some (x, valid) =>
    if !valid then some (v, false)
    else
      some (⟨Alloc.erase v.alloc a, fun y => if y = a then some (x, false) else v.mem y⟩, true)

/-- `size`, lib/mito/utilities/SegmentedVector.h:113-117. -/
def size (v : SVec α) : Int := Alloc.size v.alloc

/-- `capacity`, lib/mito/utilities/SegmentedVector.h:119-123. -/
def capacity (v : SVec α) : Nat := Alloc.capacity v.alloc

/-- `is_valid()` of the object at an address (an address without an object is never asked in the
code paths below; it counts as invalid) -/
def isValidAt (v : SVec α) (a : Addr) : Bool :=
  match v.mem a with
  | some (_, b) => b
  | none => false

/-- addresses visited by `for (auto & x : vector)`, lib/mito/utilities/SegmentedVector.h:129-139 -/
def elements (v : SVec α) (fuel : Nat) : Option (List Addr) :=
  visitValid v.alloc (isValidAt v) fuel

/-- destroy a list of addresses one after the other -/
def destroyAll (mem : Addr → Option (α × Bool)) :
    List Addr → Option (Addr → Option (α × Bool))
  | [] => some mem
  | a :: as =>
    match destroyAt mem a with
    | none => none
    | some m => destroyAll m as

/-- the destructor, lib/mito/utilities/SegmentedVector.h:49-55: destroys the object in every slot of
the allocator, valid or not -/
def destructor (v : SVec α) (fuel : Nat) : Option (Addr → Option (α × Bool)) :=
  match visit v.alloc fuel (itBegin v.alloc) with
  | none => none
  | some l => destroyAll v.mem l

end Mito.SegVec
