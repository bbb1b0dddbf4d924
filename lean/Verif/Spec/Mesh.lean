import Verif.Mesh.Mesh
import Verif.Spec.SegmentedVector

/-! # Specification vocabulary for meshes (C23, C24, C27) -/

namespace Mito.Meshes

open Mito.Alloc Mito.SegVec

variable {α : Type}

/-- The meshes reachable by histories of insertions of valid cells and of erasures of cells that were
inserted before (live, or erased before).  The map is the abstract content of the container: address
↦ live cell. -/
inductive Reachable (fac : α → List (Nat × Int)) : Mesh α → Abs α → Finset Nat → Prop
  | init : Reachable fac Mesh.init (fun _ => none) ∅
  | insert {m m' : Mesh α} {s : Abs α} {known : Finset Nat} {a : Nat} (c : α) (b : Nat) :
      Reachable fac m s known → FreshBlock m.cells.alloc b → m.insert fac c true b = some (m', a) →
      Reachable fac m' (s.add a c) (insert a known)
  | erase {m m' : Mesh α} {s : Abs α} {known : Finset Nat} (a : Nat) :
      Reachable fac m s known → a ∈ known → m.erase fac a = some m' →
      Reachable fac m' (s.remove a) known

/-- how often the facet with footprint `k` occurs in `F` with orientation `+1` and with the other
one; `none` if it does not occur -/
def recount (F : List (Nat × Int)) (k : Nat) : Option (Int × Int) :=
  if F.countP (fun f => f.1 = k) = 0 then none
  else some (F.countP (fun f => f.1 = k ∧ f.2 = 1), F.countP (fun f => f.1 = k ∧ f.2 ≠ 1))

/-- `operator new` returns fresh blocks while the cells of a list are inserted one after the other -/
def FreshBlocks (fac : α → List (Nat × Int)) : Mesh α → List α → List Nat → Prop
  | _, [], _ => True
  | _, _ :: _, [] => False
  | m, c :: cs, b :: bs =>
    FreshBlock m.cells.alloc b ∧
      ∀ m1 a, m.insertNodes fac c b = some (m1, a) → FreshBlocks fac m1 cs bs

/-- keep the first element for every key -/
def keepFirst {κ : Type} [DecidableEq κ] (key : α → κ) : List κ → List α → List α
  | _, [] => []
  | seen, c :: cs =>
    if key c ∈ seen then keepFirst key seen cs else c :: keepFirst key (key c :: seen) cs

end Mito.Meshes
