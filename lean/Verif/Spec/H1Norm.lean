import Verif.Spec.Blocks
import Verif.Spec.Integrator

/-! # What the H1 norm of the code measures (C99) -/

namespace Mito.Fem

open Mito.Functions Mito.Geometry MeasureTheory

variable {d n : Nat}

/-- the square of the L2 norm of the difference of two finite element fields: integrals, not quadrature -/
noncomputable def l2Integral {κ : Type} (space : Space κ d n) (u v : κ → ℝ) : ℝ :=
  (space.map fun ec => ∫ ξ in Simplex d 1, ec.1.detJ ξ * (∑ a, (ec.1.shape a).eval ξ () * (u (ec.2 a) - v (ec.2 a))) ^ 2).sum

/-- the elements of mito with positive length or area, and differences of the coordinates of nodes that are `h` at most -/
inductive Sized (h : ℝ) : {d n : Nat} → Element d n → Prop where
  | seg1 (x : Fin 2 → Val (.vec 1)) : 0 < length x → (∀ a b k, |x a k - x b k| ≤ h) → Sized h (segP1 x)
  | tri1 (x : Fin 3 → Val (.vec 2)) : 0 < triangleArea x → (∀ a b k, |x a k - x b k| ≤ h) → Sized h (triP1 x)
  | tri2 (x : Fin 3 → Val (.vec 2)) : 0 < triangleArea x → (∀ a b k, |x a k - x b k| ≤ h) → Sized h (triP2 x)

/-- `N` linear segments of equal length on the interval from zero to one -/
noncomputable def unitSegments (N : Nat) : Space Nat 1 2 :=
  (List.range N).map fun i : Nat => (segP1 fun a => ![((i + a : Nat) : ℝ) / N], fun a => i + a)

/-- the values 0 and 1 in turn -/
def zigzag : Localizable Nat 1 := .fem fun i => if i % 2 = 0 then 0 else 1

end Mito.Fem
