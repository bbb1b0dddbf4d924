import Verif.Utilities.SegmentedAllocator

/-!
# Specification of the segmented allocator (C03–C06, C09)

The specification only remembers which addresses were handed out and not yet erased (`live`), the
addresses erased and not handed out again, oldest first (`pending`), and every address ever handed
out for the first time, in order (`slots`).
-/

namespace Mito.Alloc

/-- The allocator together with what an observer of the calls knows. -/
structure World where
  alloc : State
  live : Finset Addr
  pending : List Addr
  slots : List Addr

/-- Is the block of memory at `b` disjoint from every segment of the allocator and not `nullptr`? -/
def FreshBlock (s : State) (b : Addr) : Prop :=
  b ≠ 0 ∧ ∀ i a, s.starts i = some a → a + s.segSize < b ∨ b + s.segSize < a

/-- the address handed out by the next insertion, when `operator new` would return `b` -/
def World.loc (w : World) (b : Addr) : Addr := (locationForPlacement w.alloc b).2.1

/-- insertion of an element: `location_for_placement` followed by `insert`
(lib/mito/utilities/SegmentedVector.h:73-93, lib/mito/utilities/Repository.h:82-98) -/
def World.insert (w : World) (b : Addr) : World where
  alloc := Alloc.insert (locationForPlacement w.alloc b).1
  live := Insert.insert (w.loc b) w.live
  pending := w.pending.tail
  slots := if w.pending = [] then w.slots ++ [w.loc b] else w.slots

/-- erasure of an element -/
def World.erase (w : World) (a : Addr) : World where
  alloc := Alloc.erase w.alloc a
  live := w.live.erase a
  pending := w.pending ++ [a]
  slots := w.slots

/-- All states reachable by histories that erase live elements only, with segments of `n`
elements, whatever fresh blocks `operator new` returns. -/
inductive Reachable (n : Nat) : World → Prop
  | init : Reachable n ⟨.init n, ∅, [], []⟩
  | insert (w : World) (b : Addr) : Reachable n w → FreshBlock w.alloc b → Reachable n (w.insert b)
  | erase (w : World) (a : Addr) : Reachable n w → a ∈ w.live → Reachable n (w.erase a)

/-- address `a` lies inside the `i`-th allocated segment -/
def InSegment (s : State) (i : Nat) (a : Addr) : Prop :=
  ∃ b, s.starts i = some b ∧ b ≤ a ∧ a < b + s.segSize

end Mito.Alloc
