import Verif.Utilities.VectorPrograms

/-!
# Programs with several segmented vectors, and moves between them

A program has a list of vectors.  Each has the memory of its own blocks, and the references that its `emplace` returned.
The blocks of different vectors do not overlap, so that a memory for each of them says the same as one for all.
-/

namespace Mito.SegVec

open Mito.Alloc

/-- the vector that the move constructor makes, lib/mito/utilities/SegmentedVector.h:46 and
lib/mito/utilities/SegmentedAllocator.h:74-90: the blocks are the same, so the references are good for it -/
def VMachine.moved (M : VMachine) : VMachine := ⟨⟨(State.moveFrom M.vec.alloc).1, M.vec.mem⟩, M.refs⟩

/-- the vector that was moved from, lib/mito/utilities/SegmentedAllocator.h:84-89 -/
def VMachine.left (M : VMachine) : VMachine := ⟨⟨(State.moveFrom M.vec.alloc).2, fun _ => none⟩, []⟩

/-- a call of the user, lib/mito/utilities/SegmentedVector.h:43-111 -/
inductive MCall where
  /-- a call for the `i`-th vector; erased are only references of that vector -/
  | on (i : Nat) (c : VCall)
  /-- `segmented_vector_t<resource_t> next(std::move(v))` for the `i`-th vector `v` -/
  | move (i : Nat)
  deriving DecidableEq, Repr

/-- One call.  `none`: there is no such vector or reference, or undefined behaviour. -/
def mexec (Ms : List VMachine) : MCall → Option (List VMachine)
  | .on i c =>
    match Ms[i]? with
    | none => none
    | some M => (vexec M c).map (Ms.set i ·)
  | .move i =>
    match Ms[i]? with
    | none => none
    | some M => some (Ms.set i M.left ++ [M.moved])

/-- calls, and questions to the `i`-th vector with the answer that is expected -/
inductive MItem where
  | call (c : MCall)
  | expect (i : Nat) (q : VQuery) (a : List Int)
  deriving DecidableEq, Repr

/-- Does the program meet its expectations?  `none`: a call failed. -/
def mtest (Ms : List VMachine) : List MItem → Option Bool
  | [] => some true
  | .call c :: l =>
    match mexec Ms c with
    | none => none
    | some Ms' => mtest Ms' l
  | .expect i q a :: l => if (Ms[i]?).bind (fun M => vask M.vec q) = some a then mtest Ms l else some false

/-- tests/mito.lib/utilities/segmented_vector_move.cc:20-44; `B i` is what `operator new` would return in the `i`-th call of `emplace` -/
def moveTest (B : Nat → Nat) : List MItem :=
  [.call (.on 0 (.emplace 0 (B 0))), .call (.on 0 (.emplace 1 (B 1))), .call (.on 0 (.emplace 2 (B 2))), .call (.on 0 (.emplace 3 (B 3))),
   .expect 0 .size [4], .expect 0 .capacity [6],
   .call (.move 0),
   .expect 1 .size [4], .expect 1 .capacity [6],
   .expect 0 .size [0], .expect 0 .capacity [0]]

/-- `source.erase(r)`, lib/mito/utilities/SegmentedVector.h:96-111 and lib/mito/utilities/SegmentedAllocator.h:258-271, where the
element is in the memory of another vector `v`: the flag is written there, the location goes to the allocator of the source.  Without the assertion
(SegmentedAllocator.h:267). -/
def eraseThrough (source : Alloc.State) (v : SVec Int) (a : Nat) : Option (Alloc.State × SVec Int) :=
  match v.mem a with
  | none => none
  | some (x, valid) =>
    if !valid then some (source, v)
    else some (Alloc.erase source a, ⟨v.alloc, fun y => if y = a then some (x, false) else v.mem y⟩)

end Mito.SegVec
