import Verif.Spec.Elements
import Verif.Spec.Poisson

/-! # Specification vocabulary for stiffness matrices, the maximum principle and the patch test (C81, C82) -/

namespace Mito.Fem

open Mito.Functions

/-- the edge opposite to a node of a triangle -/
def edge (x : Fin 3 → Val (.vec 2)) (a : Fin 3) : Val (.vec 2) := x (a + 2) - x (a + 1)

/-- no angle of the triangle is obtuse: the two edges that start at a node have a nonnegative product -/
def NonObtuse (x : Fin 3 → Val (.vec 2)) : Prop :=
  ∀ a : Fin 3, 0 ≤ ∑ k : Fin 2, (x (a + 1) k - x a k) * (x (a + 2) k - x a k)

end Mito.Fem

namespace Mito.DiscreteSystem

/-- the entries of the elementary matrices off the diagonal are not positive -/
def OffDiagonal (V : FunctionSpace ℝ) (blocks : Nat → Blocks ℝ) : Prop :=
  ∀ (e : Fin V.elements.length) (a b : Fin V.elements[e].length), a ≠ b → (blocks e).matrix a b ≤ 0

/-- the elementary matrices are symmetric -/
def Symmetric (V : FunctionSpace ℝ) (blocks : Nat → Blocks ℝ) : Prop :=
  ∀ (e : Fin V.elements.length) (a b : Fin V.elements[e].length), (blocks e).matrix a b = (blocks e).matrix b a

/-- the loads are not negative -/
def Pushing (V : FunctionSpace ℝ) (blocks : Nat → Blocks ℝ) : Prop :=
  ∀ (e : Fin V.elements.length) (a : Fin V.elements[e].length), 0 ≤ (blocks e).vector a

end Mito.DiscreteSystem
