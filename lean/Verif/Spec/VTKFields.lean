import Verif.IO.VTKFields
import Verif.Spec.Coordinates

/-! # Specification vocabulary for VTK files with fields (C114) -/

namespace Mito.VTK

open Mito.Numbering Mito.Tensor Mito.Geometry

/-- the position of a point of the line or plane in space -/
noncomputable def padded {d : Nat} (x : Vec d) : Vec 3 := fun i => if h : i.val < d then x ⟨i.val, h⟩ else 0

variable {κ C R : Type} [DecidableEq κ]

/-- the field has a value at each node of the grid -/
def Covers (w : FieldWriter κ C R) (field : NamedField κ R) : Prop := ∀ e ∈ w.nodes, ∃ v, DiscreteField.read field.values e.1 = some v

/-- the array shows the field: as many tuples as points, and at the point of each node the value of the field at that node -/
structure Shows (w : FieldWriter κ C R) (field : NamedField κ R) (c : Column R) : Prop where
  count : c.tuples.length = w.grid.points.length
  set : ∀ t ∈ c.tuples, t.isSome
  values : ∀ k i, (k, i) ∈ w.nodes → c.tuples[i]? = some (DiscreteField.read field.values k)

/-- a writer as the constructors make it: its nodes are numbered like the points, and each array has its own name -/
structure Sound (w : FieldWriter κ C R) : Prop where
  nodes : w.nodes.map (·.2) = List.range w.grid.points.length
  distinct : (w.nodes.map (·.1)).Nodup
  names : (w.columns.map (·.name)).Nodup

/-- each visit of the map in the program visits each entry once -/
def Visits (w : FieldWriter κ C R) (l : List (Event κ R)) : Prop := ∀ f name order, Event.record f name order ∈ l → order.Perm w.nodes

/-- what is drawn at a place of a cell: VTK interpolates linearly with the barycentric coordinates of the place -/
def drawn {V : Type} [AddCommGroup V] [Module ℝ V] (ids : List Nat) (bary : List ℝ) (values : Nat → V) : V :=
  ((ids.zip bary).map fun e => e.2 • values e.1).sum

/-- an arrow drawn at the place of `x` with the components `v` ends at the place of the point `x + v` of the code -/
def ArrowRight {d : Nat} (S : System d) (place : Vec d → Vec 3) (x v : Vec d) : Prop := place x + padded v = place (S.add x v)

end Mito.VTK
