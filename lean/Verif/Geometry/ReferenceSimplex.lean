import Verif.Functions.Derivative

/-!
# Model of reference simplices and of the parametrization of geometric simplices,
lib/mito/geometry/ReferenceSimplex.h and lib/mito/geometry/GeometricSimplex.h

The coordinates are Cartesian and the origin is zero: the position vector of a node is the list of its coordinates.  Nodes (simplices
of order 0) are left out.
-/

namespace Mito.Geometry

open Mito.Functions

/-- `ReferenceSimplex::area`, lib/mito/geometry/ReferenceSimplex.h:19-20 -/
noncomputable def area (n : Nat) : ℝ := 1 / (Nat.factorial n : ℝ)

/-- `1 - xi<0> - ... - xi<n>` on the simplex of order `n + 1`, lib/mito/geometry/ReferenceSimplex.h:23-28 -/
noncomputable def lastXi (n : Nat) : Expr (.vec (n + 1)) .scalar :=
  (List.finRange n).foldl (fun e i => e.sub (.component (a := .vec (n + 1)) i.succ))
    (Expr.constSub (sc 1) (.component (a := .vec (n + 1)) (0 : Fin (n + 1))))

/-- `xi<a>` on the simplex of order `n + 1`, lib/mito/geometry/ReferenceSimplex.h:34-44 -/
noncomputable def xi (n : Nat) (a : Fin (n + 2)) : Expr (.vec (n + 1)) .scalar :=
  if h : (a : Nat) < n + 1 then .component (a := .vec (n + 1)) ⟨a, h⟩ else lastXi n

/-- `parametrization` of a simplex of order `n + 1` with the given nodes in a space of dimension `d`,
lib/mito/geometry/GeometricSimplex.h:136-158 -/
noncomputable def parametrization {n d : Nat} (x : Fin (n + 2) → Val (.vec d)) : Expr (.vec (n + 1)) (.vec d) :=
  sumList ((List.finRange (n + 2)).map fun a => .timesConst (.scale _) (xi n a) (x a))

end Mito.Geometry
