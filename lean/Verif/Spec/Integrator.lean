import Verif.Quadrature.Integrator
import Verif.Spec.Coordinates
import Verif.Spec.Quadrature
import Mathlib.Analysis.Convex.Combination
import Mathlib.Algebra.MvPolynomial.Monad
import Mathlib.MeasureTheory.Constructions.Pi

/-! # Specification of parametrizations and of integration on meshes (C43, C49, C74, C85) -/

namespace Mito.Geometry

/-- the reference simplex: `x ≥ 0` and `x_0 + ... ≤ t` with `t = 1` -/
def Simplex (n : Nat) (t : ℝ) : Set (Fin n → ℝ) := {ξ | (∀ i, 0 ≤ ξ i) ∧ ∑ i, ξ i ≤ t}

/-- the vertices of the reference simplex, the origin last -/
def refVertex (n : Nat) (a : Fin (n + 1)) : Fin n → ℝ := fun i => if a = i.castSucc then 1 else 0

/-- the barycentric coordinates of a point of the reference simplex -/
def barycentric {n : Nat} (ξ : Fin n → ℝ) : Fin (n + 1) → ℝ := Fin.snoc ξ (1 - ∑ i, ξ i)

end Mito.Geometry

namespace Mito.Quadrature

open Mito.Functions Mito.Geometry

variable {n d : Nat}

/-- the sum that the integrator should return -/
noncomputable def quadratureSum (t : Table (n + 1)) (volume : Cell n d → ℝ) (cells : List (Cell n d)) (f : Val (.vec d) → ℝ) : ℝ :=
  (cells.map fun c => volume c * apply t fun ξ => f ((parametrization c.nodes).eval ξ)).sum

/-- the set of points of a cell -/
def Cell.hull (c : Cell n d) : Set (Val (.vec d)) := convexHull ℝ (Set.range c.nodes)

/-- the oriented volume of a cell that has the dimension of the space -/
noncomputable def Cell.volume (c : Cell n (n + 1)) : ℝ := simplexVolume c.nodes

/-- the polynomial `p` in the parametric coordinates of the cell -/
noncomputable def Cell.pullback (c : Cell n d) (p : MvPolynomial (Fin d) ℝ) : MvPolynomial (Fin (n + 1)) ℝ :=
  MvPolynomial.bind₁ (fun i => MvPolynomial.C (c.nodes (Fin.last (n + 1)) i) +
    ∑ a : Fin (n + 1), MvPolynomial.C (c.nodes a.castSucc i - c.nodes (Fin.last (n + 1)) i) * MvPolynomial.X a) p

/-- the mean over the reference simplex -/
noncomputable def meanOver (n : Nat) (f : (Fin n → ℝ) → ℝ) : ℝ := n.factorial * ∫ ξ in Simplex n 1, f ξ

/-- the barycentric coordinates of a point of a table -/
def bary {n : Nat} (ξ : Fin n → ℚ) : Fin (n + 1) → ℚ := Fin.snoc ξ (1 - ∑ i, ξ i)

/-- renumbering the vertices of the reference simplex only reorders the table -/
def Symmetric {n : Nat} (t : Table n) : Prop :=
  ∀ σ : Equiv.Perm (Fin (n + 1)), (t.map fun p => (bary p.1 ∘ σ, p.2)).Perm (t.map fun p => (bary p.1, p.2))

instance {n : Nat} (t : Table n) : Decidable (Symmetric t) := by
  unfold Symmetric; infer_instance

/-- the cell with the id `key` whose nodes are those of `c` in another order -/
def Cell.renumber (c : Cell n d) (key : Nat) (σ : Equiv.Perm (Fin (n + 2))) : Cell n d := ⟨key, fun a => c.nodes (σ a)⟩

end Mito.Quadrature
