import Mathlib.Data.Finset.Card
import Mathlib.Data.Finset.Basic

/-!
# Model of `mito::utilities::SegmentedAllocator` and its iterators

Memory addresses are naturals; one unit is the size of one element, and `0` is `nullptr`.  A segment
allocated at `b` by `operator new` occupies the cells `b, …, b + segSize` (the last one holds the
pointer to the next segment).  What `operator new` returns is an argument of the operation: the
theorems quantify over every behaviour of the memory allocator that returns fresh blocks.
Counters are unbounded.
-/

namespace Mito.Alloc

/- addresses; `0` is `nullptr` -/
scoped macro "Addr" : term => `(Nat)

/-- Data members, lib/mito/utilities/SegmentedAllocator.h:333-348.  `starts` is the map
`_start_of_segment`; `tails` is the memory cell right after each segment, where the address of the
next segment is stored (SegmentedAllocator.h:149-152). -/
structure State where
  segSize : Nat
  begin : Addr
  endp : Addr
  endAlloc : Addr
  nSegs : Nat
  nElems : Int
  queue : List Addr
  starts : Nat → Option Addr
  tails : Addr → Option Addr

/-- The constructor, lib/mito/utilities/SegmentedAllocator.h:64-71. -/
def State.init (n : Nat) : State := ⟨n, 0, 0, 0, 0, 0, [], fun _ => none, fun _ => none⟩

/-- The move constructor, lib/mito/utilities/SegmentedAllocator.h:74-90: returns the new object and
the source.  The moved-from standard containers are assumed empty (as all implementations leave
them); the memory (`tails`) now belongs to the new object. -/
def State.moveFrom (other : State) : State × State :=
  (other, { other with begin := 0, endp := 0, endAlloc := 0, nSegs := 0, nElems := 0,
                       queue := [], starts := fun _ => none, tails := fun _ => none })

/-- `capacity`, lib/mito/utilities/SegmentedAllocator.h:123-127. -/
def capacity (s : State) : Nat := s.nSegs * s.segSize

/-- `size`, lib/mito/utilities/SegmentedAllocator.h:129. -/
def size (s : State) : Int := s.nElems

/-- `_allocate_new_segment`, lib/mito/utilities/SegmentedAllocator.h:134-164; `b` is the address
returned by `operator new`. -/
def allocSegment (s : State) (b : Addr) : State :=
  let s1 : State :=
    if s.begin = s.endp then
      { s with begin := b, starts := fun i => if i = s.nSegs then some b else s.starts i }
    else
      { s with tails := fun a => if a = s.endAlloc then some b else s.tails a,
               starts := fun i => if i = s.nSegs then some b else s.starts i }
  { s1 with nSegs := s1.nSegs + 1, endp := b, endAlloc := b + s1.segSize }

/-- `_next_available_location`, lib/mito/utilities/SegmentedAllocator.h:166-193. -/
def nextAvailable (s : State) : Addr × Bool :=
  match s.queue with
  | a :: _ => (a, true)
  | [] => if s.endp = s.endAlloc then (0, false) else (s.endp, false)

/-- `location_for_placement`, lib/mito/utilities/SegmentedAllocator.h:213-233. -/
def locationForPlacement (s : State) (b : Addr) : State × Addr × Bool :=
  let r := nextAvailable s
  let s1 := if r.1 = 0 then allocSegment s b else s
  let loc := if r.1 = 0 then b else r.1
  let s2 := if loc = s1.endp then { s1 with endp := s1.endp + 1 } else s1
  (s2, loc, r.2)

/-- `insert`, lib/mito/utilities/SegmentedAllocator.h:238-253 (the assertion is `insertAssert`). -/
def insert (s : State) : State :=
  { s with nElems := s.nElems + 1, queue := s.queue.tail }

/-- The assertion in `insert`, lib/mito/utilities/SegmentedAllocator.h:246. -/
def insertAssert (s : State) (element : Addr) : Prop := ∀ a q, s.queue = a :: q → element = a

/-- `erase`, lib/mito/utilities/SegmentedAllocator.h:258-271 (the assertion is `eraseCheck`). -/
def erase (s : State) (a : Addr) : State :=
  { s with nElems := s.nElems - 1, queue := s.queue ++ [a] }

/-- `_erase_check`, lib/mito/utilities/SegmentedAllocator.h:195-210: is the address inside one of
the first `_n_segments` segments?  (`.at` on a missing key throws; modelled as `false`.) -/
def eraseCheck (s : State) (a : Addr) : Bool :=
  (List.range s.nSegs).any fun i =>
    match s.starts i with
    | some b => b ≤ a && a < b + s.segSize
    | none => false

/-- `operator[]`, lib/mito/utilities/SegmentedAllocator.h:295-306; `none` is the exception thrown by
`.at`. -/
def index (s : State) (i : Nat) : Option Addr :=
  (s.starts (i / s.segSize)).map (· + i % s.segSize)

/-- The segments freed by the destructor, in order,
lib/mito/utilities/SegmentedAllocator.h:93-120.  `fuel` bounds the loop; `none` means that the loop
reads a missing tail pointer or does not terminate within `fuel` rounds. -/
def freedFrom (s : State) : Nat → Addr → Option (List Addr)
  | 0, _ => none
  | fuel + 1, ptr =>
    if ptr + s.segSize = s.endAlloc then some [ptr]
    else
      match s.tails (ptr + s.segSize) with
      | none => none
      | some next => (freedFrom s fuel next).map (ptr :: ·)

/-- The destructor, lib/mito/utilities/SegmentedAllocator.h:93-120. -/
def freed (s : State) (fuel : Nat) : Option (List Addr) :=
  if s.begin = 0 then some [] else freedFrom s fuel s.begin

/-! ### Iterators -/

/-- `SegmentedAllocatorIterator`, lib/mito/utilities/SegmentedAllocatorIterator.h:104-114. -/
structure It where
  ptr : Addr
  segEnd : Addr
  end_ : Addr
deriving DecidableEq, Repr

/-- `begin()`, lib/mito/utilities/SegmentedAllocator.h:277-283. -/
def itBegin (s : State) : It := ⟨s.begin, s.begin + s.segSize, s.endp⟩

/-- `end()`, lib/mito/utilities/SegmentedAllocator.h:285-292. -/
def itEnd (s : State) : It := ⟨s.endp, s.endAlloc, s.endp⟩

/-- `operator++`, lib/mito/utilities/SegmentedAllocatorIterator.h:68-90; `none` is reading a tail
pointer that was never written. -/
def It.next (s : State) (it : It) : Option It :=
  let p := it.ptr + 1
  if p = it.end_ then some { it with ptr := p }
  else if p = it.segEnd then
    (s.tails p).map fun q => { it with ptr := q, segEnd := q + s.segSize }
  else some { it with ptr := p }

/-- `for (it = begin; it != end; ++it) visit(*it)` over all slots, valid or not
(equality of iterators: lib/mito/utilities/SegmentedAllocatorIterator.h:131-138). -/
def visit (s : State) : Nat → It → Option (List Addr)
  | fuel, it =>
    if it.ptr = (itEnd s).ptr then some []
    else
      match fuel with
      | 0 => none
      | fuel + 1 =>
        match It.next s it with
        | none => none
        | some it' => (visit s fuel it').map (it.ptr :: ·)

/-- Prefix `operator++` of the container iterator, which skips invalid elements,
lib/mito/utilities/SegmentedContainerIterator.h:82-99.  `valid a` is `is_valid()` of the element at
`a`.  The code recurses; here with fuel. -/
def nextValid (s : State) (valid : Addr → Bool) : Nat → It → Option It
  | 0, _ => none
  | fuel + 1, it =>
    match It.next s it with
    | none => none
    | some it' =>
      if it'.ptr = it'.end_ then some it'
      else if !valid it'.ptr then nextValid s valid fuel it'
      else some it'

/-- Postfix `operator++` of the container iterator: position after the call,
lib/mito/utilities/SegmentedContainerIterator.h:102-110.  It increments the underlying allocator
iterator once and does not skip invalid elements. -/
def postNext (s : State) (it : It) : Option It := It.next s it

/-- Constructor of the container iterator,
lib/mito/utilities/SegmentedContainerIterator.h:44-55. -/
def mkContainerIt (s : State) (valid : Addr → Bool) (fuel : Nat) (it : It) : Option It :=
  if it.ptr ≠ it.end_ then
    if !valid it.ptr then nextValid s valid fuel it else some it
  else some it

/-- the loop `while (it != end) { visit(*it); ++it; }` with the container iterator -/
def visitValidFrom (s : State) (valid : Addr → Bool) : Nat → It → Option (List Addr)
  | fuel, it =>
    if it.ptr = (itEnd s).ptr then some []
    else
      match fuel with
      | 0 => none
      | fuel + 1 =>
        match nextValid s valid (fuel + 1) it with
        | none => none
        | some it' => (visitValidFrom s valid fuel it').map (it.ptr :: ·)

/-- `for (auto & x : container)`: `begin()` and `end()` of the containers
(lib/mito/utilities/SegmentedVector.h:129-139) and the loop. -/
def visitValid (s : State) (valid : Addr → Bool) (fuel : Nat) : Option (List Addr) :=
  match mkContainerIt s valid fuel (itBegin s) with
  | none => none
  | some it => visitValidFrom s valid fuel it

end Mito.Alloc
