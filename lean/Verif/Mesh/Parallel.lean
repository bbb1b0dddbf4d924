import Verif.Mesh.Load
import Verif.Mesh.Partition
import Verif.Quadrature.DivergenceProgram
import Verif.Spec.Load

/-!
# Integrals on several tasks

The program of tests/mito.lib/integration/quadrature_load_mesh_2D_mpi.cc:24-66: every task reads the same file, gives METIS its own
numbering of the vertices, integrates on its part of the mesh, and the results are added up.  The tasks are processes of their own, so their
simplices and nodes have addresses of their own.  The dimension of the space is two, floating point numbers are reals, and the function
integrated is a function of positions; reading the file is `load` of `Verif/Mesh/Load.lean`.
-/

namespace Mito.Parallel

open Mito.Functions Mito.Geometry Mito.Meshes Mito.Topology Mito.Load Mito.Quadrature

/-- one of the processes before it reads the mesh -/
structure Task where
  topo : Topo
  /-- the addresses its nodes will get -/
  addresses : List Nat

/-- what a task does up to `local_result`, tests/mito.lib/integration/quadrature_load_mesh_2D_mpi.cc:35-57; `none` is an exception, undefined behaviour
or no memory -/
noncomputable def Task.local (debug : Bool) (paint : List Nat → Nat → Nat → Int → List Int) (rule : Table 2) (k : Task) (coords : List (List ℚ))
    (cells : List (List Nat)) (f : Val (.vec 2) → ℝ) (nTasks rank : Int) : Option ℝ :=
  match load k.topo k.addresses cells with
  | none => none
  | some (t, nodes, cs) =>
    match partition paint t 2 cs nTasks rank with
    | none => none
    | some (_, part) =>
      match integrate debug rule (fun c => (cartesian 2).volume c.nodes) (part.map (cellOf (n := 1) (place coords nodes))) f with
      | .value r => some r
      | _ => none

/-- `MPI_Reduce` with `MPI_SUM`, tests/mito.lib/integration/quadrature_load_mesh_2D_mpi.cc:59-60: the sum, if every task arrives there -/
noncomputable def reduce : List (Option ℝ) → Option ℝ
  | [] => some 0
  | none :: _ => none
  | some r :: later => (reduce later).map (r + ·)

/-- `global_result` of the task 0, with as many tasks as the list has -/
noncomputable def globalResult (debug : Bool) (paint : List Nat → Nat → Nat → Int → List Int) (rule : Table 2) (tasks : List Task)
    (coords : List (List ℚ)) (cells : List (List Nat)) (f : Val (.vec 2) → ℝ) : Option ℝ :=
  reduce (tasks.mapIdx fun rank k => k.local debug paint rule coords cells f tasks.length rank)

end Mito.Parallel
