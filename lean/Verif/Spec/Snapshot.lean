import Verif.Mesh.Snapshot
import Verif.Spec.Mesh

/-! # Specification vocabulary for objects made before a mesh was changed -/

namespace Mito.Snapshot

open Mito.Alloc Mito.SegVec Mito.Meshes

variable {α : Type}

/-- what happens to a mesh -/
inductive Event (α : Type) where
  | inserted (a : Nat) (c : α)
  | erased (a : Nat)

/-- The meshes that a mesh may become by insertions of valid cells and erasures of cells inserted before, with
what happened, in order. -/
inductive Later (fac : α → List (Nat × Int)) (m : Mesh α) (s : Abs α) (known : Finset Nat) :
    Mesh α → Abs α → Finset Nat → List (Event α) → Prop
  | refl : Later fac m s known m s known []
  | insert {m₁ m₂ : Mesh α} {s₁ : Abs α} {known₁ : Finset Nat} {log : List (Event α)} {a : Nat} (c : α) (b : Nat) :
      Later fac m s known m₁ s₁ known₁ log → FreshBlock m₁.cells.alloc b → m₁.insert fac c true b = some (m₂, a) →
      Later fac m s known m₂ (s₁.add a c) (insert a known₁) (log ++ [.inserted a c])
  | erase {m₁ m₂ : Mesh α} {s₁ : Abs α} {known₁ : Finset Nat} {log : List (Event α)} (a : Nat) :
      Later fac m s known m₁ s₁ known₁ log → a ∈ known₁ → m₁.erase fac a = some m₂ →
      Later fac m s known m₂ (s₁.remove a) known₁ (log ++ [.erased a])

/-- the last cell inserted at the address `a` -/
def lastInserted (a : Nat) (log : List (Event α)) : Option α :=
  log.foldl (fun r e => match e with
    | .inserted a' c => if a' = a then some c else r
    | .erased _ => r) none

/-- no erased cell waits for its slot to be reused -/
def Compact (s : Abs α) (known : Finset Nat) : Prop := ∀ a ∈ known, s a ≠ none

end Mito.Snapshot
