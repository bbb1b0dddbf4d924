import Verif.Fem.Lifetimes

/-!
# Two disciplines for programs with references

Both are about the text of the program: which variables a statement names, and when variables go out
of scope.
-/

namespace Mito.Lifetimes

/-- the variables named by a statement -/
def Op.names : Op → List Nat
  | .make o => o.refs
  | .space _ m k => [m, k]
  | .addMatrix w b => [w, b]
  | .addSource w b => [w, b]
  | .solve x => [x]
  | .norm p y f => [p, y, f]
  | .integrate i f => [i, f]
  | .write x => [x]
  | .test x => [x]
  | .destroy x => [x]

/-- the blocks of a weak form -/
def blocks (s : State) (w : Nat) : List Nat :=
  match s.objs[w]? with
  | some (.weakform lhs rhs) => lhs ++ rhs
  | _ => []

/-- What has to outlive an object: what it refers to.  A weak form on its own does not need its blocks;
a discrete system needs the blocks of its weak form. -/
def needs (s : State) (x : Nat) : List Nat :=
  match s.objs[x]? with
  | some (.weakform _ _) => []
  | some (.system p w) => p :: w :: blocks s w
  | some o => o.refs
  | none => []

/-- First discipline: only living objects are named, a discrete system is made from a weak form with
living blocks, and an object is destroyed only when no living object needs it. -/
def Supported (s : State) : Op → Prop
  | .make (.system p w) => p ∈ s.alive ∧ w ∈ s.alive ∧ ∀ b ∈ blocks s w, b ∈ s.alive
  | .destroy x => x ∈ s.alive ∧ ∀ y ∈ s.alive, x ∉ needs s y
  | op => ∀ x ∈ op.names, x ∈ s.alive

/-- no living discrete system refers to the weak form -/
def Free (s : State) (w : Nat) : Prop := ∀ y ∈ s.alive, ∀ p, s.objs[y]? ≠ some (.system p w)

/-- Second discipline, that of variables in nested scopes: the newest living object is the one that is
destroyed, and blocks are added to a weak form before a discrete system is made from it. -/
def Scoped (s : State) : Op → Prop
  | .make (.system p w) => p ∈ s.alive ∧ w ∈ s.alive ∧ ∀ b ∈ blocks s w, b ∈ s.alive
  | .addMatrix w b => w ∈ s.alive ∧ b ∈ s.alive ∧ Free s w
  | .addSource w b => w ∈ s.alive ∧ b ∈ s.alive ∧ Free s w
  | .destroy x => s.alive.head? = some x
  | op => ∀ x ∈ op.names, x ∈ s.alive

/-- each statement of a program is as `P` says, in the state in which it is executed -/
def Always (P : State → Op → Prop) : State → List Op → Prop
  | _, [] => True
  | s, op :: ops => P s op ∧ ∀ s', step s op = some s' → Always P s' ops

end Mito.Lifetimes
