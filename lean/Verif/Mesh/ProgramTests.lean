import Verif.Mesh.Programs

/-!
# The tests of meshes in the repository that insert and erase cells

The number beside a call is that of the variable or of the reference it makes.  The coordinates of the nodes play no role.
Left out: the objects that go out of scope at the end of a test, and in tests/mito.lib/mesh/build_mesh.cc the boundary mesh itself, of which only the size is
asked.
-/

namespace Mito.MeshPrograms

open Mito.Topology

/-- `n` nodes -/
def nodes (n : Nat) : List MItem := List.replicate n (.call (.topology .vertex))

/-- `mesh.insert({ a, b, c })` -/
def put (a b c : Nat) : MItem := .call (.insert (.triangle a b c))

/-- `topology.exists({ a, b })` -/
def exists2 (a b : Nat) : MQuery := .topology (.existsSegment a b)

/-- the four triangles of a square with a node in the middle, tests/mito.lib/mesh/build_mesh.cc:38-51 -/
def fourTriangles : List MItem := nodes 5 ++ [put 0 1 3, put 1 2 3, put 2 4 3, put 4 0 3]

/-- tests/mito.lib/mesh/build_mesh.cc:14-63 -/
def buildMeshTest : List MItem := fourTriangles ++ [.expect .nCells 4, .expect .boundarySize 4]

/-- tests/mito.lib/mesh/erase_duplicates.cc:14-71 -/
def eraseDuplicatesTest : List MItem :=
  nodes 3 ++
  [put 0 1 2, put 0 1 2, .expect .nCells 2,
   .call (.eraseDuplicates false), .expect .nCells 1,
   put 0 1 2, .expect .nCells 2,
   .call (.eraseDuplicates true), .expect .nCells 1,
   put 1 0 2, .call (.eraseDuplicates false), .expect .nCells 2,
   .call (.eraseDuplicates true), .expect .nCells 1]

/-- tests/mito.lib/mesh/erase_element.cc:14-85 -/
def eraseElementTest : List MItem :=
  fourTriangles ++
  [.expect .nCells 4, .expect .boundarySize 4,
   .expect (exists2 0 1) 1, .expect (exists2 1 3) 1, .expect (exists2 3 0) 1,
   .call (.erase 0), .call (.eraseSimplex 0),
   .expect .nCells 3, .expect .boundarySize 5,
   .expect (exists2 0 1) 0, .expect (exists2 1 3) 0, .expect (exists2 3 0) 0,
   .call (.erase 0), .call (.eraseSimplex 0),
   .call (.erase 1), .call (.eraseSimplex 1),
   .expect .nCells 2, .expect .boundarySize 4,
   .expect (exists2 1 2) 0, .expect (exists2 2 3) 0, .expect (exists2 3 1) 0]

/-- these tests -/
def meshTests : List (List MItem) := [buildMeshTest, eraseDuplicatesTest, eraseElementTest]

end Mito.MeshPrograms
