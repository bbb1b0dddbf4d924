import Verif.Fem.DiscreteSystem
import Mathlib.Algebra.BigOperators.Group.Finset.Basic
import Mathlib.LinearAlgebra.Matrix.NonsingularInverse

/-! # Specification vocabulary for discrete systems (C53 to C57) -/

namespace Mito.DiscreteSystem

open Mito.Assoc

/-- `eq` numbers the unconstrained nodes from `0` to `n - 1` -/
structure Numbers {R : Type} (V : FunctionSpace R) (eq : Nat → Option Nat) (n : Nat) : Prop where
  isSome : ∀ x, (eq x).isSome = true ↔ x ∈ V.elements.flatten ∧ x ∉ V.constrained
  lt : ∀ x i, eq x = some i → i < n
  inj : ∀ x y i, eq x = some i → eq y = some i → x = y
  surj : ∀ i < n, ∃ x, eq x = some i

/-- the equation of a node according to the map: none for `-1` and for absent nodes -/
def equationOf (m : List (Nat × Int)) (x : Nat) : Option Nat :=
  match get m x with
  | some e => if e = -1 then none else some e.toNat
  | none => none

variable {R : Type} [CommRing R]

/-- what the element with nodes `c` and matrix `A` contributes to the entry `(i, j)` of the matrix: the sum of
`A a b` over the places `a`, `b` whose nodes have the equations `i`, `j` -/
def matrixContribution (eq : Nat → Option Nat) (c : Conn) (A : Nat → Nat → R) (i j : Nat) : R :=
  ∑ a : Fin c.length, ∑ b : Fin c.length,
    if eq c[a] = some i ∧ eq c[b] = some j then A a b else 0

/-- what it contributes to the entry `i` of the right-hand side -/
def rhsContribution (eq : Nat → Option Nat) (c : Conn) (v : Nat → R) (i : Nat) : R :=
  ∑ a : Fin c.length, if eq c[a] = some i then v a else 0

/-- the sum over the elements of the contributions to an entry of the matrix -/
def K (V : FunctionSpace R) (blocks : Nat → Blocks R) (i j : Nat) : R :=
  ∑ e : Fin V.elements.length, matrixContribution (equationOf (buildEquationMap V).1) V.elements[e]
    (blocks e).matrix i j

/-- the sum over the elements of the contributions to an entry of the right-hand side -/
def F (V : FunctionSpace R) (blocks : Nat → Blocks R) (i : Nat) : R :=
  ∑ e : Fin V.elements.length, rhsContribution (equationOf (buildEquationMap V).1) V.elements[e]
    (blocks e).vector i

/-- the matrix of the equations -/
def asMatrix (n : Nat) (K : Nat → Nat → R) : Matrix (Fin n) (Fin n) R := fun i j => K i j

/-- the solver returns a solution whenever the matrix is invertible -/
def Exact (solver : Nat → (Nat → Nat → R) → (Nat → R) → Nat → R) : Prop :=
  ∀ (n : Nat) (K : Nat → Nat → R) (f : Nat → R), IsUnit (asMatrix n K).det →
    (asMatrix n K).mulVec (fun j : Fin n => solver n K f j) = fun i : Fin n => f i

end Mito.DiscreteSystem
