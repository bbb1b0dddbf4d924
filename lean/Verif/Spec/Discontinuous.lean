import Verif.Mesh.Discontinuous
import Verif.Spec.Load
import Verif.Spec.Boundary
import Verif.Spec.Dirichlet

/-! # Specification vocabulary for discontinuous meshes (C101) -/

namespace Mito.Meshes

open Mito.Topology

/-- no node is used twice -/
def Private (cells : List GCell) : Prop := (cells.flatMap fun c => c.nodes.map (·.id)).Nodup

/-- some facet of the cell is on the boundary of the mesh -/
def Touches (t : Topo) (N : Nat) (cells : List GCell) (c : GCell) : Prop := ∃ x ∈ t.composition (N + 1) c.simplex, Unpaired t N cells x

end Mito.Meshes

namespace Mito.Load

open Mito.Meshes

/-- the cell on the same simplex and vertices with nodes at other addresses -/
def renewed (as : List Nat) (c : GCell) : GCell := ⟨c.simplex, List.zipWith (fun a n => ⟨a, n.vertex⟩) as c.nodes⟩

/-- some edge of the triangle is on the boundary -/
def Outermost (cells : List (List Nat)) (c : List Nat) : Prop := ∃ e ∈ edges c, (e.2, e.1) ∉ cells.flatMap edges

instance (cells : List (List Nat)) (c : List Nat) : Decidable (Outermost cells c) := by unfold Outermost; infer_instance

end Mito.Load

namespace Mito.Fem

open Mito.Functions Mito.Discretizer Mito.DiscreteSystem

/-- the discretizer succeeds; for every source the matrix of the system is invertible if `P`, and singular otherwise -/
def SolvableIff (P : Prop) {d n : Nat} (rule : Rule d) (o : Outcome (Space Nat d n × List Nat)) : Prop :=
  ∃ space l, o = .ok (space, l) ∧ ∀ f : Val (.vec d) → ℝ,
    IsUnit (asMatrix (buildEquationMap (functionSpace space l)).2 (K (functionSpace space l) (poisson rule f space))).det ↔ P

end Mito.Fem
