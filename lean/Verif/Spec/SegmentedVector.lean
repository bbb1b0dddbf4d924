import Verif.Utilities.SegmentedVector
import Verif.Spec.SegmentedAllocator

/-!
# Specification of the segmented vector (C03, C04, C07, C10, C67)

What a user knows about a segmented vector is a finite map from the addresses of its live elements
to their values.
-/

namespace Mito.SegVec

open Mito.Alloc

variable {α : Type}

/-- the abstract state: live address ↦ value -/
abbrev Abs (α : Type) := Addr → Option α

/-- the effect of inserting `x`, when the address `a` was returned -/
def Abs.add (m : Abs α) (a : Addr) (x : α) : Abs α := fun y => if y = a then some x else m y

/-- the effect of erasing the element at `a` -/
def Abs.remove (m : Abs α) (a : Addr) : Abs α := fun y => if y = a then none else m y

/-- All pairs (vector, abstract map) reachable by histories of insertions of valid elements and of
erasures of elements that were inserted before (live, or erased before but not overwritten);
`known` is the set of addresses returned so far. -/
inductive Reachable (n : Nat) : SVec α → Abs α → Finset Addr → Prop
  | init : Reachable n (SVec.init n) (fun _ => none) ∅
  | emplace {v v' : SVec α} {m : Abs α} {known : Finset Addr} {a : Addr} (x : α) (b : Addr) :
      Reachable n v m known → FreshBlock v.alloc b → emplace v (x, true) b = some (v', a) →
      Reachable n v' (m.add a x) (insert a known)
  | erase {v v' : SVec α} {m : Abs α} {known : Finset Addr} {r : Bool} (a : Addr) :
      Reachable n v m known → a ∈ known → erase v a = some (v', r) →
      Reachable n v' (m.remove a) known

end Mito.SegVec
