import Verif.Utilities.VectorPrograms
import Verif.Spec.SegmentedAllocator

/-!
# A segmented vector as a list of slots (C118)

There are no addresses here: a slot is its position, a reference is the position of a slot.
-/

namespace Mito.SegVec

/-- the slots with their values and whether they hold an element, the positions of those that wait for reuse, and the references -/
structure Slots where
  cells : List (Int × Bool)
  free : List Nat
  refs : List Nat
  deriving DecidableEq, Repr

/-- put an element in the slot that waits longest, or in a new one -/
def Slots.emplace (S : Slots) (x : Int) : Slots :=
  match S.free with
  | i :: f => ⟨S.cells.set i (x, true), f, S.refs ++ [i]⟩
  | [] => ⟨S.cells ++ [(x, true)], [], S.refs ++ [S.cells.length]⟩

/-- empty the slot of a reference, unless it is empty -/
def Slots.erase (S : Slots) (k : Nat) : Option Slots :=
  match S.refs[k]? with
  | none => none
  | some i =>
    match S.cells[i]? with
    | some (x, true) => some ⟨S.cells.set i (x, false), S.free ++ [i], S.refs⟩
    | some (_, false) => some S
    | none => none

/-- a call -/
def Slots.exec (S : Slots) : VCall → Option Slots
  | .emplace x _ => some (S.emplace x)
  | .erase k => S.erase k

/-- the answers, with segments of `n` elements -/
def Slots.ask (n : Nat) (S : Slots) : VQuery → Option (List Int)
  | .size => some [((S.cells.filter (·.2)).length : Int)]
  | .capacity => some [(((S.cells.length + n - 1) / n * n : Nat) : Int)]
  | .values => some ((S.cells.filter (·.2)).map (·.1))
  | .at i => (S.cells[i]?).map fun o => [o.1]
  | .valid i => (S.cells[i]?).map fun o => [if o.2 then 1 else 0]

/-- the run of a program on slots -/
def Slots.test (n : Nat) (S : Slots) : List VItem → Option Bool
  | [] => some true
  | .call c :: l =>
    match S.exec c with
    | none => none
    | some S' => S'.test n l
  | .expect q a :: l => if S.ask n q = some a then S.test n l else some false

/-- whenever the program asks for memory it gets a new block -/
def FreshMemory (M : VMachine) : List VItem → Prop
  | [] => True
  | .call c :: l =>
    (∀ x b, c = .emplace x b → Alloc.FreshBlock M.vec.alloc b) ∧ ∀ M', vexec M c = some M' → FreshMemory M' l
  | .expect _ _ :: l => FreshMemory M l

/-- a program without the addresses that it gets -/
def VItem.forget : VItem → VItem
  | .call (.emplace x _) => .call (.emplace x 0)
  | i => i

end Mito.SegVec
