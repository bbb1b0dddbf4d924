import Verif.Utilities.SegmentedVector

/-!
# Programs that use a segmented vector

The elements are integers, as in the tests in tests/mito.lib/utilities.  A program keeps the references that `emplace`
returns, in the order of the calls, and erases through them.  Each call of `emplace` has its own address that
`operator new` would return if it were called.
-/

namespace Mito.SegVec

open Mito.Alloc

/-- a call of the user, lib/mito/utilities/SegmentedVector.h:72-111 -/
inductive VCall where
  /-- `auto & r = collection.emplace(x)`; `b` is what `operator new` would return -/
  | emplace (x : Int) (b : Nat)
  /-- `collection.erase(r)`, the `k`-th reference -/
  | erase (k : Nat)
  deriving DecidableEq, Repr

/-- the vector and the references -/
structure VMachine where
  vec : SVec Int
  refs : List Nat

/-- an empty vector with segments of `n` elements -/
def VMachine.init (n : Nat) : VMachine := ⟨.init n, []⟩

/-- One call.  `none`: there is no such reference, or undefined behaviour. -/
def vexec (M : VMachine) : VCall → Option VMachine
  | .emplace x b =>
    match emplace M.vec (x, true) b with
    | some (v, a) => some ⟨v, M.refs ++ [a]⟩
    | none => none
  | .erase k =>
    match M.refs[k]? with
    | none => none
    | some a =>
      match erase M.vec a with
      | some (v, _) => some ⟨v, M.refs⟩
      | none => none

/-- a question of the user -/
inductive VQuery where
  /-- `std::size(collection)` -/
  | size
  /-- `collection.capacity()` -/
  | capacity
  /-- the values met by `for (const auto & el : collection)` -/
  | values
  /-- `collection[i].foo()` -/
  | at (i : Nat)
  /-- `collection[i].is_valid()` -/
  | valid (i : Nat)
  deriving DecidableEq, Repr

/-- The answer, as a list of numbers.  `none`: an exception or undefined behaviour. -/
def vask (v : SVec Int) : VQuery → Option (List Int)
  | .size => some [size v]
  | .capacity => some [(capacity v : Int)]
  | .values => (elements v (capacity v)).map fun l => l.filterMap fun a => (v.mem a).map (·.1)
  | .at i =>
    match index v.alloc i with
    | none => none
    | some a => (v.mem a).map fun o => [o.1]
  | .valid i =>
    match index v.alloc i with
    | none => none
    | some a => (v.mem a).map fun o => [if o.2 then 1 else 0]

/-- a program: calls, and questions with the answer that is expected -/
inductive VItem where
  | call (c : VCall)
  | expect (q : VQuery) (a : List Int)
  deriving DecidableEq, Repr

/-- Does the program meet its expectations?  `none`: a call failed. -/
def vtest (M : VMachine) : List VItem → Option Bool
  | [] => some true
  | .call c :: l =>
    match vexec M c with
    | none => none
    | some M' => vtest M' l
  | .expect q a :: l => if vask M.vec q = some a then vtest M l else some false

end Mito.SegVec
