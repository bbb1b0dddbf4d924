import Verif.Utilities.MovedVectors
import Verif.Spec.Slots

/-!
# Vectors that are moved from, as lists of slots (C157)

A vector is its segment size and its slots.  A move takes the slots away and leaves none.
-/

namespace Mito.SegVec

/-- a call -/
def Slots.mexec (Ss : List (Nat × Slots)) : MCall → Option (List (Nat × Slots))
  | .on i c =>
    match Ss[i]? with
    | none => none
    | some (n, S) => (S.exec c).map fun S' => Ss.set i (n, S')
  | .move i =>
    match Ss[i]? with
    | none => none
    | some (n, S) => some (Ss.set i (n, ⟨[], [], []⟩) ++ [(n, S)])

/-- the run of a program on slots -/
def Slots.mtest (Ss : List (Nat × Slots)) : List MItem → Option Bool
  | [] => some true
  | .call c :: l =>
    match Slots.mexec Ss c with
    | none => none
    | some Ss' => Slots.mtest Ss' l
  | .expect i q a :: l => if (Ss[i]?).bind (fun p => p.2.ask p.1 q) = some a then Slots.mtest Ss l else some false

/-- whenever the program asks for memory it gets a new block -/
def MFreshMemory (Ms : List VMachine) : List MItem → Prop
  | [] => True
  | .call c :: l =>
    (∀ i x b M, c = .on i (.emplace x b) → Ms[i]? = some M → Alloc.FreshBlock M.vec.alloc b) ∧
      ∀ Ms', mexec Ms c = some Ms' → MFreshMemory Ms' l
  | .expect _ _ _ :: l => MFreshMemory Ms l

/-- a program without the addresses that it gets -/
def MItem.forget : MItem → MItem
  | .call (.on i (.emplace x _)) => .call (.on i (.emplace x 0))
  | i => i

end Mito.SegVec
