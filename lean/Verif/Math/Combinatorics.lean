import Mathlib.Data.List.Basic
import Mathlib.Data.List.Sort

/-!
# Model of lib/mito/math/combinatorics.h

Arrays are lists.  Undefined behaviour (empty array, reference element not found) is `none`.
-/

namespace Mito.Combinatorics

variable {α : Type*} [DecidableEq α]

/-- `std::swap(*first, *ref)` where `ref` is the first occurrence of `r` in the tail: puts `x` where
`r` was.  `none` if `r` does not occur (`ref == last`, dereferencing the end iterator). -/
def putBack (x r : α) : List α → Option (List α)
  | [] => none
  | y :: ys => if r = y then some (x :: ys) else (putBack x r ys).map (y :: ·)

/-- `swap_sort`, lib/mito/math/combinatorics.h:15-48: the number of swaps.  The part of the array
left of `first` is never looked at again, so the loop is modelled on the range `first … last`. -/
def swapSort : List α → List α → Option Nat
  -- `last - 1` of an empty range
  | [], _ => none
  -- `first == last - 1`
  | [_], _ => some 0
  -- reading past the end of the reference
  | _ :: _ :: _, [] => none
  | x :: y :: t, r :: rs =>
    if r = x then swapSort (y :: t) rs
    else
      match putBack x r (y :: t) with
      | none => none
      | some t' => (swapSort t' rs).map (· + 1)
termination_by structural _ b => b

/-- `same_elements`, lib/mito/math/combinatorics.h:52-61: equality after sorting, that is, equality
of the multisets of elements.  (Simplified: `std::ranges::sort` with the order of the elements is
replaced by its meaning.) -/
def sameElements (a b : List α) : Bool := a.isPerm b

/-- `permutation_sign`, lib/mito/math/combinatorics.h:65-79; `none` is a failed assertion or
undefined behaviour. -/
def permutationSign (data reference : List α) : Option Int :=
  if !sameElements data reference then none
  else (swapSort data reference).map fun k => if k % 2 = 0 then 1 else -1

end Mito.Combinatorics
