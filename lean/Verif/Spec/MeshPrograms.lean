import Verif.Mesh.Programs
import Verif.Spec.Mesh
import Verif.Spec.Addresses

/-! # Programs that use the topology and a mesh as they should be used (C121) -/

namespace Mito.MeshPrograms

open Mito.Topology Mito.Meshes

/-- the flag of the cell of a reference -/
def flag (s : State) (k : Nat) : Option Bool :=
  match s.refs[k]? with
  | none => none
  | some i => (s.slots[i]?).map Prod.snd

/-- A call is careful if it does not erase the simplex of a cell that is in the mesh, and does not insert a cell that
was erased. -/
def Call.careful (s : State) : Call → Prop
  | .eraseSimplex k => flag s k ≠ some true
  | .insertAgain k => flag s k ≠ some false
  | _ => True

/-- a program all of whose calls are careful -/
def MProg.careful : MProg → State → Prop
  | .done _, _ => True
  | .call c p, s => c.careful s ∧ ∀ s', mexec s c = some s' → p.careful s'
  | .ask q k, s => (k (mask s q)).careful s

/-- two states that differ in their addresses only -/
structure MSame (s s' : State) : Prop where
  base : SameUpToAddresses s.base s'.base
  order : s'.order = s.order
  slots : s'.slots = s.slots
  free : s'.free = s.free
  refs : s'.refs = s.refs
  count : s'.count = s.count

/-- a state that a careful program can reach -/
def MReach (s : State) : Prop :=
  ∃ supply n p m, MProg.careful p (mstart supply n) ∧ MProg.run p (mstart supply n) = some (s, m)

/-- the facets of the cells in the mesh -/
def facetList (s : State) : List (Nat × Int) := (cells s).flatMap fun v => (facetsOf s.base s.order v).getD []

end Mito.MeshPrograms
