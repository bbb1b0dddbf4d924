import Verif.Spec.Stiffness

/-! # Specification vocabulary for element matrices (C120): the matrices of textbooks -/

namespace Mito.Fem

open Mito.Functions

/-- the stiffness matrix of the linear triangle: products of opposite edges over four areas -/
noncomputable def stiffness1 (x : Fin 3 → Val (.vec 2)) (i j : Fin 3) : ℝ :=
  (∑ k : Fin 2, edge x i k * edge x j k) / (4 * triangleArea x)

/-- the mass matrix of the linear segment of length one -/
def massSeg (a b : Fin 2) : ℚ := if a = b then 1 / 3 else 1 / 6

/-- the mass matrix of the linear triangle of area one -/
def mass1 (a b : Fin 3) : ℚ := if a = b then 1 / 6 else 1 / 12

/-- the mass matrix of the quadratic triangle of area one: 1/30 and -1/180 among vertices, 8/45 and 4/45 among middles, and -1/45
between a vertex and the middle of the opposite edge -/
def mass2 (a b : Fin 6) : ℚ :=
  if a.val < 3 then
    if b.val < 3 then (if a = b then 1 / 30 else -1 / 180)
    else if (a.val + 1) % 3 + 3 = b.val then -1 / 45 else 0
  else if b.val < 3 then (if (b.val + 1) % 3 + 3 = a.val then -1 / 45 else 0)
  else if a = b then 8 / 45 else 4 / 45

/-- the stiffness matrix of the quadratic triangle in terms of that of the linear triangle -/
noncomputable def stiffness2 (k : Fin 3 → Fin 3 → ℝ) : Fin 6 → Fin 6 → ℝ :=
  ![![k 0 0, -k 0 1 / 3, -k 0 2 / 3, 4 / 3 * k 0 1, 0, 4 / 3 * k 0 2],
    ![-k 0 1 / 3, k 1 1, -k 1 2 / 3, 4 / 3 * k 0 1, 4 / 3 * k 1 2, 0],
    ![-k 0 2 / 3, -k 1 2 / 3, k 2 2, 0, 4 / 3 * k 1 2, 4 / 3 * k 0 2],
    ![4 / 3 * k 0 1, 4 / 3 * k 0 1, 0, 4 / 3 * (k 0 0 + k 1 1 + k 2 2), 8 / 3 * k 0 2, 8 / 3 * k 1 2],
    ![0, 4 / 3 * k 1 2, 4 / 3 * k 1 2, 8 / 3 * k 0 2, 4 / 3 * (k 0 0 + k 1 1 + k 2 2), 8 / 3 * k 0 1],
    ![4 / 3 * k 0 2, 0, 4 / 3 * k 0 2, 8 / 3 * k 1 2, 8 / 3 * k 0 1, 4 / 3 * (k 0 0 + k 1 1 + k 2 2)]]

end Mito.Fem
