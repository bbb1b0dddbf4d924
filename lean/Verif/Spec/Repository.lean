import Verif.Utilities.Repository
import Verif.Spec.SegmentedAllocator
import Verif.Spec.SharedPointer

/-! # Specification of repositories (C11) -/

namespace Mito.Repo

open Mito.Alloc
open Mito.SharedPointer (Var Op holders)

/-- operations on pointers a client can write: everything except wrapping a raw handle -/
def ClientOp : Op → Prop
  | .ofHandle _ _ => False
  | _ => True

/-- All states reachable by clients that ask `references() == 1` before they erase, as the simplex
factories do (lib/mito/topology/SimplexFactory.h:113, OrientedSimplexFactory.h:199). -/
inductive Careful (n : Nat) : Repo → Prop
  | init : Careful n (.init n)
  | emplace {s s' : Repo} {a : Addr} (v : Var) (b : Addr) : Careful n s → FreshBlock s.alloc b →
      emplace s v b = some (s', a) → Careful n s'
  | pointerOp {s s' : Repo} (op : Op) : Careful n s → ClientOp op →
      pointerOp s op = some s' → Careful n s'
  | erase {s s' : Repo} {r : Bool} (v : Var) : Careful n s → references s v = some 1 →
      erase s v = some (s', r) → Careful n s'

/-- All states reachable by arbitrary clients. -/
inductive Any (n : Nat) : Repo → Prop
  | init : Any n (.init n)
  | emplace {s s' : Repo} {a : Addr} (v : Var) (b : Addr) : Any n s → FreshBlock s.alloc b →
      emplace s v b = some (s', a) → Any n s'
  | pointerOp {s s' : Repo} (op : Op) : Any n s → ClientOp op →
      pointerOp s op = some s' → Any n s'
  | erase {s s' : Repo} {r : Bool} (v : Var) : Any n s → erase s v = some (s', r) → Any n s'

/-- no live pointer dangles -/
def NoDangling (s : Repo) : Prop :=
  ∀ v ∈ s.ptrs.live, ∀ a, s.ptrs.handle v = some a → a ∈ s.alive

end Mito.Repo
