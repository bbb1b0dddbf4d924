import Mathlib.Data.Finset.Card
import Mathlib.Data.Finset.Basic

/-!
# Model of `mito::utilities::SharedPointer` and `Shareable`

A program state is a set of live pointer variables, the handle each of them stores, and the
reference count stored inside each resource.  Variables and resources are named by naturals.

Simplifications: a resource is only its reference count (`Shareable::_reference_count`), counts are
unbounded integers (`int` in the code), and resources themselves are never destroyed here (this is
the business of the repository, see `Repository.lean`).
-/

namespace Mito.SharedPointer

/-- name of a pointer variable -/
abbrev Var := Nat
/-- address of a resource -/
abbrev Res := Nat

/-- The program state.  `live` are the constructed, not yet destroyed pointer objects; `handle v` is
the `_handle` member of `v` (`none` is `nullptr`), lib/mito/utilities/SharedPointer.h; `count r` is
`_reference_count` of resource `r`, lib/mito/utilities/Shareable.icc:23. -/
structure State where
  live : Finset Var
  handle : Var → Option Res
  count : Res → Int

/-- No pointers; every resource is constructed with count zero
(lib/mito/utilities/Shareable.icc:23). -/
def State.init : State := ⟨∅, fun _ => none, fun _ => 0⟩

/-- Outcome of an operation: a new state, or undefined behaviour (dereferencing `nullptr`, using an
object outside its lifetime, constructing over a live object). -/
inductive Outcome where
  | ok (s : State)
  | ub

/-- operations on pointer objects -/
inductive Op where
  /-- `SharedPointer v;` -/
  | default (v : Var)
  /-- `SharedPointer v(resource);` -/
  | ofHandle (v : Var) (r : Res)
  /-- `SharedPointer v(w);` -/
  | copy (v w : Var)
  /-- `SharedPointer v(std::move(w));` -/
  | move (v w : Var)
  /-- `v = w;` -/
  | copyAssign (v w : Var)
  /-- `v = std::move(w);` -/
  | moveAssign (v w : Var)
  /-- `v.reset();` -/
  | reset (v : Var)
  /-- end of lifetime of `v` -/
  | destroy (v : Var)

/-- `Shareable::_acquire`, lib/mito/utilities/Shareable.icc:32-37. -/
def acquireRes (s : State) (r : Res) : State :=
  { s with count := fun x => if x = r then s.count x + 1 else s.count x }

/-- `Shareable::_release`, lib/mito/utilities/Shareable.icc:39-44. -/
def releaseRes (s : State) (r : Res) : State :=
  { s with count := fun x => if x = r then s.count x - 1 else s.count x }

/-- `SharedPointer::_acquire` for a pointer with this handle,
lib/mito/utilities/SharedPointer.icc:171-179: dereferences the handle without a check. -/
def acquire (s : State) : Option Res → Outcome
  | none => .ub
  | some r => .ok (acquireRes s r)

/-- `SharedPointer::_release`, lib/mito/utilities/SharedPointer.icc:181-196. -/
def release (s : State) : Option Res → State
  | none => s
  | some r => releaseRes s r

/-- write the `_handle` member of `v` -/
def setHandle (s : State) (v : Var) (h : Option Res) : State :=
  { s with handle := fun x => if x = v then h else s.handle x }

/-- begin the lifetime of `v` with this handle -/
def construct (s : State) (v : Var) (h : Option Res) : State :=
  setHandle { s with live := insert v s.live } v h

/-- One operation. -/
def step (s : State) : Op → Outcome
  -- lib/mito/utilities/SharedPointer.icc:96-98
  | .default v => if v ∈ s.live then .ub else .ok (construct s v none)
  -- lib/mito/utilities/SharedPointer.icc:101-107
  | .ofHandle v r => if v ∈ s.live then .ub else acquire (construct s v (some r)) (some r)
  -- lib/mito/utilities/SharedPointer.icc:110-117
  | .copy v w =>
    if v ∈ s.live ∨ w ∉ s.live then .ub
    else acquire (construct s v (s.handle w)) (s.handle w)
  -- lib/mito/utilities/SharedPointer.icc:120-127
  | .move v w =>
    if v ∈ s.live ∨ w ∉ s.live then .ub
    else .ok (setHandle (construct s v (s.handle w)) w none)
  -- lib/mito/utilities/SharedPointer.icc:130-147
  | .copyAssign v w =>
    if v ∉ s.live ∨ w ∉ s.live then .ub
    else if s.handle w ≠ s.handle v then
      acquire (setHandle (release s (s.handle v)) v (s.handle w)) (s.handle w)
    else .ok s
  -- lib/mito/utilities/SharedPointer.icc:150-168
  | .moveAssign v w =>
    if v ∉ s.live ∨ w ∉ s.live then .ub
    else
      let s' := if s.handle w ≠ s.handle v then
          setHandle (release s (s.handle v)) v (s.handle w) else s
      .ok (setHandle s' w none)
  -- lib/mito/utilities/SharedPointer.icc:45-57
  | .reset v =>
    if v ∉ s.live then .ub else .ok (setHandle (release s (s.handle v)) v none)
  -- lib/mito/utilities/SharedPointer.icc:88-93
  | .destroy v =>
    if v ∉ s.live then .ub
    else .ok { release s (s.handle v) with live := s.live.erase v }

/-- Run a list of operations; undefined behaviour is final. -/
def run (s : State) : List Op → Outcome
  | [] => .ok s
  | op :: ops =>
    match step s op with
    | .ok s' => run s' ops
    | .ub => .ub

/-- `SharedPointer::references`, lib/mito/utilities/SharedPointer.icc:37-43: dereferences the
handle; `none` here is undefined behaviour. -/
def references (s : State) (v : Var) : Option Int :=
  if v ∈ s.live then (s.handle v).map s.count else none

/-- `Shareable::is_valid`, lib/mito/utilities/Shareable.icc:12-17. -/
def isValid (s : State) (r : Res) : Bool := s.count r > 0

/-- `SharedPointer::is_nullptr`, lib/mito/utilities/SharedPointer.icc:59-65. -/
def isNullptr (s : State) (v : Var) : Bool := (s.handle v).isNone

end Mito.SharedPointer
