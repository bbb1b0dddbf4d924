import Verif.Topology.Programs

/-!
# The tests of the topology in the repository

Each is a list of calls and expectations.  A variable that is assigned again is a new variable and the
old one is dropped after the call; the result of a call that is not kept is dropped.  The number beside a
call is that of the variable it makes.

Left out: the variables that go out of scope at the end of a test, tests/mito.lib/topology/flip_diagonal.cc.
-/

namespace Mito.Topology

/-- an expectation of `true` -/
def yes (q : Query) : Item := .expect q 1

/-- an expectation of `false` -/
def no (q : Query) : Item := .expect q 0

/-- `n` calls of `vertex()` -/
def makeVertices (n : Nat) : List Item := List.replicate n (.call .vertex)

/-- tests/mito.lib/topology/segment.cc:10-27 -/
def segmentTest : List Item :=
  makeVertices 2 ++
  [.call (.segment 0 1), -- 2
   .expect (.arranged 2 [0, 1]) 1,
   .call (.segment 1 0), .call (.drop 2), -- 3
   .expect (.arranged 3 [1, 0]) 1]

/-- build a triangle from the vertices listed and assign it to the variable that holds the `n`-th result:
tests/mito.lib/topology/triangle.cc:24-29 -/
def rebuildTriangle (old a b c : Nat) : List Item :=
  [.call (.triangle a b c), .call (.drop old), .expect (.arranged (old + 1) [a, b, c]) 1]

/-- tests/mito.lib/topology/triangle.cc:10-52 -/
def triangleTest : List Item :=
  makeVertices 3 ++
  [.call (.triangle 0 1 2), -- 3
   .expect (.arranged 3 [0, 1, 2]) 1] ++
  rebuildTriangle 3 1 2 0 ++
  rebuildTriangle 4 2 0 1 ++
  rebuildTriangle 5 0 2 1 ++
  rebuildTriangle 6 1 0 2 ++
  rebuildTriangle 7 2 1 0

/-- build a tetrahedron and assign it to the variable that held the one before:
tests/mito.lib/topology/tetrahedron.cc:25-30 -/
def rebuildTetrahedron (old a b c d : Nat) : List Item :=
  [.call (.tetrahedron a b c d), .call (.drop old), .expect (.arranged (old + 1) [a, b, c, d]) 1]

/-- tests/mito.lib/topology/tetrahedron.cc:10-185; the vertices, numbered from 1 there, are numbered from 0 -/
def tetrahedronTest : List Item :=
  makeVertices 4 ++
  [.call (.tetrahedron 0 1 2 3), -- 4
   .expect (.arranged 4 [0, 1, 2, 3]) 1] ++
  rebuildTetrahedron 4 0 2 3 1 ++
  rebuildTetrahedron 5 0 3 1 2 ++
  rebuildTetrahedron 6 1 0 3 2 ++
  rebuildTetrahedron 7 1 2 0 3 ++
  rebuildTetrahedron 8 1 3 2 0 ++
  rebuildTetrahedron 9 2 0 1 3 ++
  rebuildTetrahedron 10 2 1 3 0 ++
  rebuildTetrahedron 11 2 3 0 1 ++
  rebuildTetrahedron 12 3 0 2 1 ++
  rebuildTetrahedron 13 3 1 0 2 ++
  rebuildTetrahedron 14 3 2 1 0 ++
  rebuildTetrahedron 15 0 1 3 2 ++
  rebuildTetrahedron 16 0 2 1 3 ++
  rebuildTetrahedron 17 0 3 2 1 ++
  rebuildTetrahedron 18 1 0 2 3 ++
  rebuildTetrahedron 19 1 2 3 0 ++
  rebuildTetrahedron 20 1 3 0 2 ++
  rebuildTetrahedron 21 2 0 3 1 ++
  rebuildTetrahedron 22 2 1 0 3 ++
  rebuildTetrahedron 23 2 3 1 0 ++
  rebuildTetrahedron 24 3 0 1 2 ++
  rebuildTetrahedron 25 3 1 2 0 ++
  rebuildTetrahedron 26 3 2 0 1

/-- tests/mito.lib/topology/oriented_simplex_segment.cc:10-39 -/
def orientedSegmentTest : List Item :=
  makeVertices 2 ++
  [.call (.segment 0 1), -- 2
   no (.existsFlipped 2),
   .call (.segment 0 1), -- 3
   yes (.same 2 3),
   no (.existsFlipped 2),
   .call (.flip 3), .call (.flip 4), -- 4, 5
   yes (.same 5 3),
   .call (.drop 5), .call (.drop 4),
   .call (.segment 1 0), -- 6
   yes (.existsFlipped 2),
   .call (.flip 6), -- 7
   yes (.same 7 3),
   .call (.drop 7)]

/-- tests/mito.lib/topology/oriented_simplex_triangle.cc:10-45 -/
def orientedTriangleTest : List Item :=
  makeVertices 3 ++
  [.call (.segment 0 1), .call (.segment 1 2), .call (.segment 2 0), -- 3, 4, 5
   .call (.simplex [3, 4, 5]), -- 6
   .call (.simplex [4, 5, 3]), -- 7
   yes (.same 6 7),
   .call (.flip 3), .call (.flip 4), .call (.flip 5), -- 8, 9, 10
   .call (.simplex [8, 10, 9]), -- 11
   no (.same 6 11),
   .call (.flip 6), -- 12
   yes (.same 12 11)]

/-- tests/mito.lib/topology/simplices.cc:14-122 -/
def simplicesTest : List Item :=
  makeVertices 4 ++
  [.call (.segment 0 1), -- 4
   no (.existsFlipped 4), .expect (.references 4) 1,
   .call (.segment 1 3), -- 5
   no (.existsFlipped 5), .expect (.references 5) 1,
   .call (.flip 5), -- 6
   yes (.existsFlipped 5), yes (.existsFlipped 6), .expect (.references 5) 1, .expect (.references 6) 1,
   .call (.segment 3 0), -- 7
   no (.existsFlipped 7), .expect (.references 7) 1,
   .call (.segment 1 2), -- 8
   no (.existsFlipped 8), .expect (.references 8) 1,
   .call (.segment 2 3), -- 9
   no (.existsFlipped 9), .expect (.references 9) 1,
   .call (.simplex [4, 5, 7]), -- 10
   .expect (.references 4) 2, .expect (.references 5) 2, .expect (.references 6) 1, .expect (.references 7) 2,
   no (.existsFlipped 10), .expect (.references 10) 1,
   .call (.simplex [8, 9, 6]), -- 11
   .expect (.references 8) 2, .expect (.references 9) 2, .expect (.references 6) 2,
   no (.existsFlipped 11), .expect (.references 11) 1,
   yes (.sanityCheck 10), yes (.sanityCheck 11)]

/-- tests/mito.lib/topology/erase_element_check_segments.cc:10-76 -/
def eraseSegmentsTest : List Item :=
  makeVertices 5 ++
  [.call (.segment 0 1), .call (.segment 1 3), .call (.segment 3 0), -- 5, 6, 7
   .call (.simplex [5, 6, 7]), -- 8
   .call (.segment 1 2), .call (.segment 2 3), .call (.segment 3 1), -- 9, 10, 11
   .call (.simplex [9, 10, 11]), -- 12
   .expect (.count 2) 2,
   yes (.existsComp [5, 6, 7]),
   yes (.existsComp [9, 10, 11]),
   .call (.erase 8),
   .expect (.count 2) 1,
   no (.existsComp [5, 6, 7]),
   .call (.erase 12),
   .expect (.count 2) 0,
   no (.existsComp [9, 10, 11]),
   .call (.erase 12)]

/-- tests/mito.lib/topology/erase_element_check_vertices.cc:10-88 -/
def eraseVerticesTest : List Item :=
  makeVertices 5 ++
  [.call (.triangle 0 1 3), .call (.triangle 1 2 3), -- 5, 6
   .call (.triangle 2 4 3), .call (.drop 7), -- 7
   .call (.triangle 4 0 3), .call (.drop 8), -- 8
   yes (.existsSegment 0 1), yes (.existsSegment 1 3), yes (.existsSegment 3 0), yes (.existsSegment 2 3),
   .expect (.count 2) 4,
   .call (.erase 5),
   .expect (.count 2) 3,
   no (.existsSegment 0 1), no (.existsSegment 1 3), no (.existsSegment 3 0),
   .call (.erase 6),
   .expect (.count 2) 2,
   no (.existsSegment 1 2), no (.existsSegment 3 1), no (.existsSegment 2 3),
   .call (.erase 6)]

/-- tests/mito.lib/topology/cell_edges.cc:12-37; the variable 99 does not exist: the number of edges is asked for.
Two sets of edges are equal if they have as many elements, and the elements of one are in the other. -/
def triangleEdgesTest : List Item :=
  makeVertices 3 ++
  [.call (.triangle 0 1 2), -- 3
   .call (.segment 0 1), .call (.segment 1 2), .call (.segment 2 0), -- 4, 5, 6
   yes (.edges 3 4), yes (.edges 3 5), yes (.edges 3 6),
   no (.same 4 5), no (.same 4 6), no (.same 5 6),
   .expect (.edges 3 99) 3]

/-- tests/mito.lib/topology/cell_edges.cc:39-74; the twelve segments differ because they go from different vertices
or to different ones -/
def tetrahedronEdgesTest : List Item :=
  makeVertices 4 ++
  [.call (.tetrahedron 0 1 2 3), -- 4
   .call (.segment 0 1), .call (.segment 1 3), .call (.segment 3 0), .call (.segment 1 2), -- 5, 6, 7, 8
   .call (.segment 2 0), .call (.segment 2 3), .call (.segment 3 1), .call (.segment 0 3), -- 9, 10, 11, 12
   .call (.segment 3 2), .call (.segment 0 2), .call (.segment 2 1), .call (.segment 1 0)] ++ -- 13, 14, 15, 16
  (List.range 12).map (fun i => yes (.edges 4 (i + 5))) ++
  (List.range 12).flatMap (fun i => (List.range i).map fun j => no (.same (i + 5) (j + 5))) ++
  [.expect (.edges 4 99) 12]

/-- the tests above -/
def topologyTests : List (List Item) :=
  [segmentTest, triangleTest, tetrahedronTest, orientedSegmentTest, orientedTriangleTest, simplicesTest, eraseSegmentsTest,
   eraseVerticesTest, triangleEdgesTest, tetrahedronEdgesTest]

end Mito.Topology
