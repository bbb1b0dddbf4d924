import Verif.Fem.Blocks
import Verif.Fem.DiscreteField
import Verif.Fem.Discretizer

/-!
# Model of finite element fields that are set from a field at the nodes, tests/mito.lib/fem/fem_field.cc

The mesh nodes, the discretization nodes and their ids are as in `Verif/Fem/Discretizer.lean`.  The cells are lists of nodes, in the order
of the elements, and `g` is the value of the continuous field at the coordinates of a node.
-/

namespace Mito.Fem

open Mito.Functions Mito.Numbering Mito.Discretizer

variable {d n : Nat}

/-- the loop on the nodes of the elements, tests/mito.lib/fem/fem_field.cc:60-69, with `FemField::operator()`,
lib/mito/fem/FemField.h:60; `none`: `std::out_of_range` of the map or of the field -/
noncomputable def assignNodes (map : Map Nat) (g : Nat → ℝ) : DiscreteField.Field Nat ℝ → List Nat → Option (DiscreteField.Field Nat ℝ)
  | F, [] => some F
  | F, k :: ks =>
    match lookup map k with
    | none => none
    | some v =>
      match DiscreteField.step false F (.write v (g k)) with
      | (.done, F') => assignNodes map g F' ks
      | _ => none

/-- `FemField::localize`, lib/mito/fem/FemField.h:65-78; `none`: `std::out_of_range` -/
noncomputable def localizeNodes (F : DiscreteField.Field Nat ℝ) (e : Element d n) (connectivity : List Nat) : Option (Expr (.vec d) .scalar) :=
  if connectivity.all fun v => (DiscreteField.read F v).isSome then
    some (localize e (fun a => connectivity.getD a 0) (.fem fun v => (DiscreteField.read F v).getD 0))
  else none

/-- a field on the discretization nodes, set at the nodes of the cells and localized on every element,
tests/mito.lib/fem/fem_field.cc:50-80.  `order` is the order of the unordered set in `FunctionSpace::fem_field`,
lib/mito/fem/FunctionSpace.h:97-111; `debug`: assertions are compiled in. -/
noncomputable def fieldProgram (debug : Bool) (order : List Nat) (map : Map Nat) (conn : List (List Nat)) (g : Nat → ℝ)
    (elements : List (Element d n)) (cells : List (List Nat)) : Option (List (Expr (.vec d) .scalar)) :=
  match DiscreteField.ofKeys debug 0 order with
  | none => none
  | some F =>
    match assignNodes map g F cells.flatten with
    | none => none
    | some F' => (elements.zip conn).mapM fun ec => localizeNodes F' ec.1 ec.2

/-- the three nodes of a triangle as a list -/
def nodesOf (c : Discretizer.Cell) : List Nat := [c.1, c.2.1, c.2.2]

end Mito.Fem
