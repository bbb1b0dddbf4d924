import Verif.Spec.DiscreteSystem
import Mathlib.Data.Real.Basic
import Mathlib.Logic.Relation

/-! # Specification vocabulary for elliptic discrete systems (C78) -/

namespace Mito.DiscreteSystem

/-- two nodes of one element -/
def Adjacent {R : Type} (V : FunctionSpace R) (x y : Nat) : Prop := ∃ c ∈ V.elements, x ∈ c ∧ y ∈ c

/-- every node is joined to a constrained node by a chain of elements -/
def Anchored {R : Type} (V : FunctionSpace R) : Prop :=
  ∀ x ∈ V.elements.flatten, ∃ y ∈ V.constrained, Relation.ReflTransGen (Adjacent V) x y

/-- the elementary form of the `e`-th element, for values at the nodes -/
def elementForm (V : FunctionSpace ℝ) (blocks : Nat → Blocks ℝ) (e : Fin V.elements.length) (w u : Nat → ℝ) : ℝ :=
  ∑ a : Fin V.elements[e].length, ∑ b : Fin V.elements[e].length, w V.elements[e][a] * (blocks e).matrix a b * u V.elements[e][b]

/-- the elementary load of the `e`-th element -/
def elementLoad (V : FunctionSpace ℝ) (blocks : Nat → Blocks ℝ) (e : Fin V.elements.length) (w : Nat → ℝ) : ℝ :=
  ∑ a : Fin V.elements[e].length, w V.elements[e][a] * (blocks e).vector a

/-- the form and the load of the whole space -/
def form (V : FunctionSpace ℝ) (blocks : Nat → Blocks ℝ) (w u : Nat → ℝ) : ℝ := ∑ e, elementForm V blocks e w u
@[inherit_doc form]
def load (V : FunctionSpace ℝ) (blocks : Nat → Blocks ℝ) (w : Nat → ℝ) : ℝ := ∑ e, elementLoad V blocks e w

/-- the elementary matrices have nonnegative energy, which is zero exactly for constants -/
structure Elliptic (V : FunctionSpace ℝ) (blocks : Nat → Blocks ℝ) : Prop where
  nonneg : ∀ (e : Fin V.elements.length) (u : Nat → ℝ), 0 ≤ elementForm V blocks e u u
  definite : ∀ (e : Fin V.elements.length) (u : Nat → ℝ), elementForm V blocks e u u = 0 →
    ∀ x ∈ V.elements[e], ∀ y ∈ V.elements[e], u x = u y
  constants : ∀ (e : Fin V.elements.length) (a : Fin V.elements[e].length), ∑ b : Fin V.elements[e].length, (blocks e).matrix a b = 0

/-- `u` vanishes at the constrained nodes -/
def Admissible (V : FunctionSpace ℝ) (u : Nat → ℝ) : Prop := ∀ x ∈ V.constrained, u x = 0

/-- the discrete weak form: `u` vanishes at the constrained nodes and the equation holds for all such test functions -/
def Galerkin (V : FunctionSpace ℝ) (blocks : Nat → Blocks ℝ) (u : Nat → ℝ) : Prop :=
  Admissible V u ∧ ∀ w, Admissible V w → form V blocks w u = load V blocks w

end Mito.DiscreteSystem
