import Verif.Mesh.Mesh
import Verif.Fem.Blocks
import Verif.Quadrature.Integrator
import Verif.IO.Summit

/-!
# Model of objects that were made from a mesh before the mesh was changed

Function spaces, integrators and Summit writers visit the cells of a mesh when they are made and keep part
of what they saw.
-/

namespace Mito.Snapshot

open Mito.Alloc Mito.SegVec Mito.Meshes Mito.Functions

variable {α : Type}

/-- an element of a function space: the slot of the mesh its reference `_cell` is bound to, and the cell
from which the coordinates of its nodes were copied, lib/mito/fem/elements/IsoparametricTriangle.h:35-42 -/
structure Element (α : Type) where
  slot : Nat
  made : α

/-- the elements made by the loop over the cells, lib/mito/fem/elements/tri1/DiscretizerCG.h:34-50; `none`: the
loop has undefined behaviour (it has not, C23) -/
def elements (m : Mesh α) : Option (List (Element α)) :=
  match SegVec.elements m.cells (SegVec.capacity m.cells) with
  | none => none
  | some l =>
    match readAll m.cells.mem l with
    | none => none
    | some cs => some (List.zipWith Element.mk l cs)

/-- the cell an element finds through its reference; `none`: the slot holds no object -/
def Element.now (m : Mesh α) (e : Element α) : Option α := (m.cells.mem e.slot).map Prod.fst

/-- the element with what it copied from a cell with nodes at `x` and a reference that leads to a cell with
nodes at `y`: the jacobian uses the copies, lib/mito/fem/elements/tri1/IsoparametricTriangleP1.h:77-95, the
parametrization uses the reference, lib/mito/fem/elements/IsoparametricTriangle.h:64 -/
noncomputable def hybrid (x y : Fin 3 → Val (.vec 2)) : Fem.Element 2 3 :=
  { Fem.triP1 x with parametrization := (Fem.triP1 y).parametrization }

/-- an integrator made when the mesh had the cells `before`, used when it has the cells `after`,
lib/mito/quadrature/Integrator.h:53-72 -/
noncomputable def integrateLater {n d : Nat} (debug : Bool) (t : Quadrature.Table (n + 1)) (volume : Quadrature.Cell n d → ℝ)
    (before after : List (Quadrature.Cell n d)) (f : Val (.vec d) → ℝ) : Quadrature.Outcome :=
  match Quadrature.coordinatesField debug t before with
  | none => .aborts
  | some field => Quadrature.integrateLoop field t volume f after 0

/-- a writer made when the mesh had the cells `before`, used when it has the cells `after`,
lib/mito/io/summit/MeshSummitWriter.h:35-109; `none`: a null point is followed, or `_points.at` throws -/
def writeLater (D type : Nat) (coords : Nat → List ℚ) (printed : ℚ → ℚ) (elementType : List Summit.Token)
    (order : List (Nat × Nat)) (before after : List Summit.Cell) : Option (List Summit.Token) :=
  match Numbering.allSome (Summit.pointsVector (Summit.points before).length order) with
  | none => none
  | some pts =>
    match Numbering.allSome (after.map (Summit.writeCell type (Summit.points before) elementType)) with
    | none => none
    | some lines =>
      some ([.num D, .num (Summit.points before).length, .num after.length, .num 1] ++
        pts.flatMap (fun p => (coords p).map fun x => .num (printed x)) ++ lines.flatten)

end Mito.Snapshot
