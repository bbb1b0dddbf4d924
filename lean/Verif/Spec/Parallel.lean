import Verif.Mesh.Parallel
import Verif.Spec.Boundary
import Verif.Spec.Partition
import Verif.Topology.ValidLemmas

/-! # Specification vocabulary for computations on several tasks (C103) -/

namespace Mito.Parallel

open Mito.Functions Mito.Geometry Mito.Tensor Mito.Meshes Mito.Topology Mito.Load Mito.Quadrature

/-- The colors do not depend on the numbers of the vertices: whenever two connectivities number the same mesh, with numbers less than that of
the vertices, the colors are the same.  `METIS_PartMeshDual` looks only at which elements have vertices in common. -/
def LabelFree (paint : List Nat → Nat → Nat → Int → List Int) : Prop :=
  ∀ (conn conn' : List Nat) (nv ne : Nat) (n : Int), conn.length = conn'.length → (∀ i ∈ conn, i < nv) → (∀ i ∈ conn', i < nv) →
    (∀ i j : Nat, conn[i]? = conn[j]? ↔ conn'[i]? = conn'[j]?) → paint conn nv ne n = paint conn' nv ne n

/-- The colors that METIS may return: one for each element, less than the number of partitions. -/
def Paints (paint : List Nat → Nat → Nat → Int → List Int) : Prop :=
  ∀ (conn : List Nat) (nv ne n : Nat), 2 ≤ n → (paint conn nv ne n).length = ne ∧ ∀ p ∈ paint conn nv ne n, 0 ≤ p ∧ p < n

/-- `cells` are the cells that the file describes by the lists `desc` of the indices of their nodes: equal indices are equal vertices -/
structure Describes (t : Topo) (N : Nat) (cells : List GCell) (desc : List (List Nat)) : Prop where
  ok : ∀ c ∈ cells, CellOk t N c
  vertices : ∃ v : Nat → Id, (∀ i ∈ desc.flatten, ∀ j ∈ desc.flatten, v i = v j → i = j) ∧
    cells.map (fun c => c.nodes.map (·.vertex)) = desc.map (·.map v)

/-- the positions of the nodes of a triangle of the file -/
noncomputable def corners (coords : List (List ℚ)) (index : List Nat) : Fin 3 → Val (.vec 2) :=
  fun a k => (coordinate coords (index.getD a 0) k : ℝ)

/-- the quadrature over the triangles of the file -/
noncomputable def fileSum (rule : Table 2) (coords : List (List ℚ)) (cells : List (List Nat)) (f : Val (.vec 2) → ℝ) : ℝ :=
  (cells.map fun index => simplexVolume (corners coords index) * apply rule fun ξ => f ((parametrization (corners coords index)).eval ξ)).sum

/-- the process is in a state in which it can read the file and copy the mesh -/
def Task.Ready (k : Task) (coords : List (List ℚ)) (cells : List (List Nat)) : Prop :=
  VReachable k.topo ∧ k.addresses.length = coords.length ∧ Fresh k.topo (coords.length + 116 * cells.length)

end Mito.Parallel
