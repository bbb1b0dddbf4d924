import Verif.Fem.Poisson
import Verif.Fem.Discretizer
import Verif.Mesh.Boundary

/-!
# Model of function spaces on meshes with homogeneous Dirichlet conditions

`FunctionSpace`, lib/mito/fem/FunctionSpace.h:52-60, calls the discretizer of the element with the cells of the manifold and the domain
of the constraint.  The elements hold the positions of the nodes of their cell (in Cartesian coordinates); `p` gives the positions of
the vertices, which is enough if there is one node at each vertex.
-/

namespace Mito.Fem

open Mito.Functions Mito.Discretizer Mito.Meshes

variable {d n : Nat}

/-- the ids of the nodes of a cell -/
def ids (c : GCell) : List Nat := c.nodes.map (·.id)

/-- the ids of the nodes of a triangle -/
def triple (c : GCell) : Cell :=
  match ids c with
  | [x, y, z] => (x, y, z)
  | _ => (0, 0, 0)

/-- the ids of the nodes of a segment -/
def pair (c : GCell) : Nat × Nat :=
  match ids c with
  | [x, y] => (x, y)
  | _ => (0, 0)

/-- the positions of the nodes of a cell, lib/mito/fem/elements/IsoparametricTriangle.h:35-42 -/
def positions (n : Nat) (p : Nat → Val (.vec d)) (c : GCell) : Fin n → Val (.vec d) :=
  fun a => p ((c.nodes.map (·.vertex)).getD a 0)

/-- the elements with their nodes, `elements.emplace`, lib/mito/fem/elements/tri1/DiscretizerCG.h:49 -/
def spaceOf (mk : GCell → Element d n) (cells : List GCell) (conn : List (List Nat)) : Space Nat d n :=
  List.zipWith (fun c e => (mk c, fun a : Fin n => e.getD a 0)) cells conn

/-- the elements and the constrained nodes, if collecting these succeeds -/
def collect (space : Space Nat d n) : Outcome (List Nat) → Outcome (Space Nat d n × List Nat)
  | .ok l => .ok (space, l)
  | .throws => .throws
  | .undefined => .undefined

/-- lib/mito/fem/elements/seg1/DiscretizerCG.h:18-62; `B` are the boundary cells, of which the domain is the set of nodes -/
noncomputable def discretizeSeg1 (alloc : List Nat → Nat) (other : List Nat) (p : Nat → Val (.vec 1)) (cells B : List GCell) :
    Outcome (Space Nat 1 2 × List Nat) :=
  let r := elementsP1 alloc other [] (cells.map ids)
  collect (spaceOf (fun c => segP1 (positions 2 p c)) cells r.2) (constrainedP1 r.1 (B.flatMap ids))

/-- lib/mito/fem/elements/tri1/DiscretizerCG.h:18-64; `B` are the boundary cells -/
noncomputable def discretizeTri1 (alloc : List Nat → Nat) (other : List Nat) (p : Nat → Val (.vec 2)) (cells B : List GCell) :
    Outcome (Space Nat 2 3 × List Nat) :=
  let r := elementsP1 alloc other [] (cells.map ids)
  collect (spaceOf (fun c => triP1 (positions 3 p c)) cells r.2) (constrainedP1 r.1 (B.flatMap ids))

/-- lib/mito/fem/elements/tri2/DiscretizerCG.h:18-105; `B` are the boundary cells -/
noncomputable def discretizeTri2 (alloc : List Nat → Nat) (other : List Nat) (p : Nat → Val (.vec 2)) (cells B : List GCell) :
    Outcome (Space Nat 2 6 × List Nat) :=
  let r := elementsP2 alloc other ⟨[], []⟩ (cells.map triple)
  collect (spaceOf (fun c => triP2 (positions 3 p c)) cells r.2) (constrainedP2 r.1 (B.map pair))

end Mito.Fem
