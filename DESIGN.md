# Formal model of mito in Lean 4: design

The code in `/repo` is C++ (header templates).  Nothing in it is executed here: the
model is written by reading the source, function by function, and every definition
cites the file and lines it models.

## Trusted base

* **Lean 4.33.0 kernel**; the only axioms any theorem may use are `propext`,
  `Classical.choice` and `Quot.sound` (no axioms of our own, no `sorry`, no
  `native_decide`/`bv_decide`).  `lean/Verif/Audit.lean` (generated) checks this for each
  theorem of the manifest: `assert_standard_axioms` fails the build otherwise.
* **The reading of the source**: the theorems are about the model.
* **C++ semantics, standard library**: `std::map`, `std::set`, `std::queue`,
  `std::vector`, `std::sort`, `std::find` are modelled by finite maps, sorted duplicate
  free lists, FIFO lists, lists.  Assertions (`assert`) are modelled either as
  hypotheses or as an explicit failing outcome; the text says which.
* **Numbers**: `int` counters are unbounded integers (no overflow), `double` is the
  ordered field `ℝ` (or exact rationals for literal tables).  Rounding is modelled for
  refinement and integration only (C95).
* **External libraries** (pyre tensors/grids, METIS, PETSc, VTK, MPI): parameters with
  stated assumptions.  In particular a default constructed pyre tensor/matrix is
  assumed to be zero, a PETSc solve to return the solution of the linear system it
  is handed, and a METIS painting to be an arbitrary function of the cells.

## Layout

* `Verif/<Area>/X.lean` – model definitions, each with the file and lines it models;
* `Verif/<Area>/XLemmas.lean` – helper lemmas;
* `Verif/Spec/X.lean` – the small specifications the properties are stated against (they do not use the
  helpers of the model);
* `Verif/Props/X.lean` – the property theorems, with non-vacuity examples;
* `tools/claims.py` – property → status, theorems, note; `tools/gen.py` generates `MANIFEST.json` and
  `Verif/Audit.lean` from it; `tools/check_citations.py` checks that every cited file and line exists;
* `seeded/LOG.jsonl` – mutation log (wrong programs the theorems were tested against).  Each change was made in a copy of `lean` and built there.
  "killed": a theorem failed, and is named, with the claims that rest on it; a build that only ran out of memory or failed elsewhere does not count,
  and five such lines say how the change was shown to break the claim instead.  A proof that fails does not by itself show that its statement became
  false: this was not looked into for every line.  Where it was found that only the text of a proof, or an example, failed, the outcome or the comment says so
  and names the theorem added since.  "not decided": the build took too long.

## What is modelled

| part of the code | model | properties |
|------------------|-------|------------|
| `utilities`: `SharedPointer`, `Shareable` | `Utilities/SharedPointer` | C01, C02 |
| `utilities`: `SegmentedAllocator`, `SegmentedVector`, iterators, `Repository`, `Invalidatable`, `NamedClass`, `StdSharedPointer` | `Utilities/*` | C03–C11, C67–C69, C118, C119, C153, C154, C157 |
| `math/combinatorics.h` | `Math/Combinatorics` | C12, C13 |
| `topology`: simplices, factories, `Topology`, `utilities.h`, `FlipDiagonal`; `utilities`: `Singleton` | `Topology/*`, `Mesh/FlipDiagonal` | C14–C22, C32, C33, C83, C102, C115–C117 |
| `mesh`: `Mesh`, `Boundary`, `Filter`, `tetra.h`, `metis/Partitioner` | `Mesh/*` | C23–C31, C77, C84, C86, C87, C89, C92, C103, C121, C131, C132, C134, C135, C150 |
| `coordinates`, `geometry`: coordinates, algebras, metrics, bases, coordinate systems, reference simplices, parametrizations; `manifolds` | `Geometry/*` | C34–C43, C72, C73, C75, C128, C142, C148, C156 |
| `tensor`: forms, wedge products, contraction with placeholders | `Tensor/*` | C44, C45, C125, C158 |
| `io`: `summit`, `vtk`; `geometry`: `PointCloud` | `IO/*`, `Mesh/Load`, `Mesh/Discontinuous` | C46, C47, C91, C98, C101, C105, C106, C113, C114, C137–C141 |
| `quadrature` | `Quadrature/*` | C48, C49, C74, C85, C88, C96, C122, C129, C149, C151, C152 |
| `fem`: elements, discretizers, function spaces, blocks, weak forms, discrete systems, norms, `discrete` | `Fem/*` | C50–C59, C65, C70, C71, C78–C82, C90, C93, C97–C100, C107–C109, C120, C123, C133, C143, C144, C147 |
| `functions`, `fields` | `Functions/*`, `Geometry/Gradient` | C60–C62, C111, C112, C123, C124, C126, C130, C136, C155 |
| `extensions`: the Python module | `Extension/*` | C127 |
| `materials` | `Materials/*` | C63, C64, C76, C145, C146 |
| `matrix_solvers`: options, lifetime of handles, sessions; the linear system as matrix and vectors; `simulation` | `Solvers/*`, `Fem/DiscreteSystem` | C53–C57, C66, C94, C104, C110 |

**Not modelled**: `journal`,
printing; the parts of `benchmarks`/`tests` that are not cited in the model (C98, C129 and C130 model the benchmarks, C113–C144 many of the tests); the library code of
pyre, PETSc, METIS and VTK; memory layout, allocation failure, threads, integer overflow, rounding outside C95, C122–C124, C136, C137, C142, C143, C147, C148, C155, C156 and C158, over- and underflow; C++
template machinery (concepts, type lists) other than through the values it computes.

## Plan per property

| id | what is modelled | how it is proved |
|----|------------------|------------------|
| C01, C02 | `SharedPointer` as a state machine over a store of pointer variables and a count per resource; null copy = UB outcome | invariant count = number of holders by induction over op lists; witness for same-resource move |
| C03–C06, C09 | `SegmentedAllocator` (segments, `_end`, `_end_allocation`, FIFO of erased slots) | invariant + refinement to abstract (live set, free queue, watermark) |
| C07, C08, C10 | `SegmentedVector` and both iterators on top of it | iterator run = filter of the slot sequence; witness for postfix |
| C11 | `Repository` + pointer counts; factory `erase` | witness traces for the repository, invariant for the factories |
| C12, C13 | `swap_sort`, `permutation_sign` on lists | = parity of inversions / `Equiv.Perm.sign` |
| C14, C15 | `isValid<N>` | map sums commute with permutations; case analysis |
| C16–C22 | topology as a state machine: repositories of footprints and oriented simplices per order, composition map and orientation map, user handles; reference counts = number of holders (justified by C01) | invariants by induction over histories |
| C23–C27 | mesh: segmented vector of cells + orientation map | invariant: map = recount |
| C28 | filter | induction on order and cells |
| C29 | partitioner with arbitrary painting | list partition |
| C30, C31 | `tetra` subdivision on node coordinates in ℝ^D | ring identities, induction on depth; witness |
| C32, C33 | `flip_diagonal` | directed-edge multisets |
| C34–C38 | coordinate algebras over ℝ | algebra, trigonometry, `Complex.arg` for atan2 |
| C39–C45 | forms, metric, volume, wedge | algebra over ℝ |
| C46 | Summit writer/reader on token streams | parser/printer round trip |
| C47 | VTK writers' index maps | invariant over cells |
| C48, C49 | quadrature tables as exact rationals, integrator | exact integrals of monomials, bounds by `norm_num` |
| C50–C52 | shape functions, jacobians, element matrices | polynomial identities, `HasDerivAt` |
| C53–C57 | discrete system: equation map, assembly, read back, repeated solve | folds over elements |
| C58 | discretizers (node maps) | invariant over cells |
| C59 | `compute_h1_norm` | witness + identity when J orthogonal |
| C60–C62 | function expression trees, evaluation, symbolic derivative | structural induction, `HasDerivAt` / `HasFDerivAt` |
| C77 | boundaries, with positions of the vertices | paired facets cancel for every alternating function; determinant identities |
| C78 | elementary blocks, assembly and solution | energy is a sum of squares; zero energy spreads along chains of elements |
| C79 | Poisson problem on consecutive segments | uniqueness of the discrete solution; integration by parts and telescoping |
| C80 | boundary, discretizers, assembly and solution together | the weighted area of a cell-wise constant function is a boundary sum (C77), so positive cells force it to vanish; then C78 |
| C63, C64, C76 | material laws over 3×3 matrices, the consistency test | Fréchet derivatives; exactness of central differences of quadratics; continuity |
| C65 | discrete field | map semantics over histories |
| C66 | option prefixing on strings | position loop = splitting at spaces; read back |
| C67–C69 | destructors and moves of the segmented containers | counts of destructions per slot / frees per segment |
| C70, C71 | L2 norm, source terms, localization | algebra over ℝ |
| C72, C73 | bases, Gram metrics, volumes of submanifolds | derivatives of the coordinate maps, Gram determinants |
| C74 | integrator against the Lebesgue integral | Fubini on the reference simplex, change of variables |
| C75 | coordinate systems | map semantics over histories |
| C81 | stiffness blocks, assembly and solution | the negative part of the solution as a test function has no energy |
| C82 | boundary, discretizers and stiffness blocks together | the residual on a triangle is a sum of fluxes through its edges; discrete Stokes theorem (C77) |
| C83 | sanity check in the topology model | induction over subsimplices; pillow as witness; the twelve directed edges of four vertices determine the faces (finite table) |
| C84 | geometric simplices | both orientations of a footprint have vertices that differ by an odd permutation |
| C85 | integrator, tables, volumes of submanifolds | reindexing of the barycentric sum; determinant under swaps |
| C86 | `tetra` subdivision on node coordinates | induction on depth; for tetrahedra with the length of the inner diagonal as second quantity |
| C87 | `tetra` subdivision on node coordinates | induction on depth; a path of parts whose edges are Fibonacci combinations as witness |
| C88 | `tetra`, integrator, tables | parts fill their cell and have its volume, hence do not overlap; uniform continuity |
| C89 | `tetra` subdivision on node coordinates | refinement to a recursion on positions; witness by computation |
| C90 | the whole chain: mesh, boundary, discretizer, blocks, system, norms | divergence theorem on triangles, cancellation on interior edges (C77), Friedrichs' inequality, interpolation and quadrature errors |
| C91 | what the reader accepts is well formed (`reader_valid`); every way to cut a written file (`summit_truncated`, `summit_truncated_release`), more tokens at the end (`summit_trailing`), witness (`summit_damaged_fails`) | partial |
| C92 | `tetra` on node ids, mesh boundary, discretizer, system | each new node is in a facet that one cell only has, by induction on depth; C77 and C57 for the solution; partial |
| C93 | segment elements, discretizer, system, `tetra` | Galerkin orthogonality summed over segments, chord error and rule error, Friedrichs; the ends of the refined mesh are those of the coarse one (`boundary_once`, `refined_segments`) |
| C94 | handles, reference counts, programs as lists of operations | automaton of phases as specification; invariant: owners and counts of references; partial |
| C95 | every operation followed by an unknown function with relative error `u` | calculus of relative errors; relational induction on refinements; IEEE rounding as instance |
| C96 | mesh, boundary, manifolds and integrators together | volume of a boundary cell times the component along the normal is a flux, whatever its sign; divergence theorem on triangles and cancellation (C77, C90); partial |
| C97 | quadratic elements, their discretizer, rule, system, norms | consistency error of the quadratic interpolant by Taylor's formula of third order; the rule is exact for products of gradients and only the source contributes to the error of integration; rest as C90 |
| C98 | reader on top of the topology, functions of the benchmark, tokens of its mesh file | induction over nodes and cells: no footprint has the vertices of a cell still to come, so that every new triangle is positive; edges by their end points; conditions on the file decided by the kernel; rest as C97 |
| C99 | as C59, C70 | quadratic forms on the values at the nodes: the mass form on the reference element is definite, so that compactness of the sphere bounds every other form; jacobians of small elements are small; zigzag on n segments |
| C100 | as C78, C90; solvers return a vector whose residual is at most a multiple of the right-hand side | mass matrix of a triangle from the rule of degree two; Friedrichs' inequality of C90; energy of the error is the residual tested with the error; scaled inverse as the witness against convergence |
| C101 | reader with new nodes for each cell, handles on vertices counted; discretizers as C58, C80 | the nodes of a boundary facet are those of its cell; chains of elements stay in one cell; criterion of C78; unpaired edges as in C98 |
| C102 | members of the topology destroyed in reverse order, slots of erased simplices included; static objects in reverse order of construction | the pointers left in a slot point to slots handed out (induction over histories); counts by summation over slots; partial |
| C103 | tasks with addresses of their own read a file, partition it, integrate and reduce | connectivities of the tasks are injective relabellings of the index lists of the file; witness with opposite orders of addresses |
| C104 | states of MPI, PETSc and the simulation of a process, calls, end of the process | induction over the calls; the language of right programs as lists |
| C105 | the cloud as list of all points, coordinate systems as maps, histories; writers of clouds and fields that throw | induction over histories; writers reduced to look-ups |
| C106 | names of the files of serial, parallel and Summit writers | decimal digits contain no underscore and determine the number; case analysis |
| C107 | weak forms as lists of gradient, mass and source blocks on any space | the form as a sum of squares over quadrature points; kernel of the evaluation map by dimension; Pythagoras |
| C108 | objects with the references they keep, programs of constructions, uses and destructions | invariant: what a living object needs is alive; witnesses by evaluation |
| C109 | elements as slot and copied cell, over the mesh model; integrator and writer with the cells before and after | induction over histories; the allocator reuses slots in the order of erasures (C06); round trip of C46 with two meshes |
| C110 | rows split as `PETSC_DECIDE`, calls of the tasks as lists, values in rows of others sent at assembly only | rows have one owner; folds of adding calls are sums; one task reduces to the model of C54; scaling of exact solvers |
| C111 | as C60–C62 | smoothness near a point; expressions are twice differentiable, so that derivatives commute; induction on permutations; sums of partial derivatives |
| C112 | as C38–C41 and C60–C62; gradient form as sum of partial derivatives times coordinate forms | chain rule along the coordinate lines, whose tangents are the columns of the frame times the lengths; derivative of the frame |
| C113 | as C98 for cells of all orders; tokens of `cube.summit` and `sphere.summit` | new simplices are positive for all orders; facets of a cell are its faces up to even permutations; opposite faces are the other orientation of one footprint; C77 for the volume; conditions on the files decided by the kernel with codes of faces |
| C114 | writer with map, grid and arrays; programs of assignments and records; `AddArray` replaces by name | C47 for the map; the loop fills each tuple once; arrays persist until their name is recorded again; charts of C34–C42 for the arrows; witnesses |
| C115 | `edgesF` recursive on the order, over the compositions of footprints | the faces number 0–3 and the vertices 0–3 of a tetrahedron, then `decide` over the sixteen orientations of the faces; new triangles are positive; witnesses |
| C116 | machine: topology and variables; calls, questions, branching programs | a renaming of footprints and oriented simplices that commutes with every operation (`Iso`), extended at each allocation, restricted at each erasure; induction on the program |
| C117 | the tests as lists of calls and expectations | `decide +kernel` for one supply, C116 for the others |
| C118 | vector with the references handed out; calls and questions | a relation between slots and addresses kept by every call; the tests by `decide +kernel` on slots |
| C119 | the tests as lists of operations and expectations | `decide +kernel` |
| C120 | blocks and tables as in C48, C52; the expected matrices of the tests | reduction to rational numbers, affine invariance, `decide +kernel` on the tables |
| C121 | machine of C116 with the slots of a mesh, whose handles are variables of the machine | invariant: map = recount of the facets of live cells, whose handles keep them alive; renaming of addresses as in C116; one run per test |
| C122 | rounding of rational numbers as a computable function | equal to the rounding of C95 on casts; the checks and tests are evaluated in the kernel; induction on the weights for the error of the sum |
| C123 | expressions of C60 with a rounding after every operation | structural induction on relative errors; kernel evaluation of the tests; exact analysis of rounding near one |
| C124 | `derivative_impl` for all shapes, numbering of components; functions of the tests as expressions | entries by summation over unit matrices; partial derivatives from C61; evaluation of the expressions of the tests |
| C125 | forms as trees of operations; a call computes with numbers and forms and selects the overloads, `none` does not compile | induction over trees with the number of missing vectors as invariant; products and sums of partial results |
| C126 | functions of the tests as expressions | evaluation; C40, C111; witness across the cut of the angle |
| C127 | Python programs as lists of statements on objects that live while a variable refers to them | invariants of runs (references go to earlier objects of the right kind); witnesses |
| C128 | manifolds on lists of cells; the tokens of four mesh files | charts (C37, C40); rational sums by computation, bounds of π; witnesses |
| C129 | the programs of the tests on meshes given by indices; rational sums | Taylor polynomial of the cosine with a bound; 726 points by computation; C88, C103 |
| C130 | the versions of the benchmarks on arrays | unfolding to polynomials; adjugate; intervals |
| C131 | `filter` (C25) | places of the nodes in a cell are unique; subcells of subcells |
| C132 | `load` (C113), `boundary` (C25), the file of the ball | new facets have the orientation of their first cell; C26; 372 cells by computation |
| C133 | nodal fields and `localize` (C58, C70), the discretizers (C50, C52) | values at nodes by the numbering of the discretizer; partition of unity; chain rule for the parametrization |
| C134 | `load` (C113), `boundary` (C25), the file of the disk | C113 and C132; 780 cells by computation |
| C135 | `load` (C113), `boundary` (C25) | induction over the cells with the first orders as invariant; signs of permutations |
| C136 | `FunctionFromFunctor` and `Composition` (C44) with lambdas that round | numbers with 53 digits are a unit in the last place apart; the error of the square is less than half a unit after the root |
| C137 | Summit writer and reader (C46) with decimal and binary rounding | spacing of numbers with p digits to the base b; 10^15 < 2^53 / 2 |
| C138 | characters of `<<` with a precision of 15, words and numbers of `>>` | digits and their values; zeros at the end do not matter; parts that end with white space are split separately |
| C139 | characters of files (C138), reader (C91) | the words of a cut text are the first ones and a part of the next; cells take tokens, so a mesh is not read from too few; the first digits of an index are the quotient by a power of ten |
| C140 | `>>` to int, double and string on characters, the reader on characters | the first word of a text is what is read up to white space, and the rest has the other words |
| C141 | new nodes for each cell, the nodes counted by a mesh field | files depend on the points of the nodes only; the points of what was read are counted without repetition |
| C142 | `barycenter` and `midpoint` with a rounding after each operation | nearest rounding is monotone and fixes doubles; relative errors of at most four terms are less than the missing part of the mean; differences of close numbers are exact |
| C143 | blocks and assembly with a rounding after each operation | calculus of relative errors of C95 for the three nested sums; kernel evaluation of the witness |
| C144 | conversions, shape functions of three coordinates and their derivatives as function expressions | chain rule of the model; evaluation of the derivatives; the difference of both sides is a multiple of the defect of the sum |
| C145 | the model of C64 | eigenvalues of the right Cauchy-Green tensor; log x ≤ x − 1 with equality at 1 only, for each eigenvalue and for the argument of the logarithm |
| C146 | the models of C63 and C64 | the acoustic tensor as a sum of squares with coefficients that are positive where the material is defined |
| C147 | the two norms with a rounding after each operation, `none` for a NaN | sums of numbers that are not negative: powers of `1 - u` and `1 + u`; inequality of Bernoulli |
| C148 | directors and wedge products with a rounding after each operation | calculus of relative errors of C95; integers of bounded size times powers of two; kernel evaluation of the witnesses |
| C149 | the programs of C96 with one and two normals in space | determinants with the normal of the plane as a row; projection of points, polynomials by renaming variables |
| C150 | `flipDiagonal` of C32 on geometric triangles, volumes of C112 | the new triangles of C32 as signed areas; identities of areas |
| C151 | `integrate` of C49 on the refined meshes of C88; the program of the test | the rule is exact on cubics up to its decimals; Taylor polynomial at the second node of every cell; integral over the hull |
| C152 | the programs of the tests with `subVolume` of C73 and `integrate` of C49 | Gram-Schmidt in coordinates; cubics of C151; symmetry of the rule from C85 |
| C153 | overload resolution between the two constructor templates, over types of arguments | cases |
| C154 | programs over handles with addresses chosen by the allocator | invariant: addresses of living nodes agree exactly with the constructions that made them |
| C155 | the functions of the tests with a rounding after every operation | doubles are not changed by rounding; the rest computed |
| C156 | the operators of cartesian coordinates with a rounding after each operation | Sterbenz; rounding does not pass a double; kernel evaluation of the witnesses |
| C157 | a list of segmented vectors, each with its memory and references, and the move constructor | the relation of C118 holds for each vector; a vector that was moved from is a new one |
| C158 | the products of forms with a rounding after each operation | an odd rounding commutes with the change of sign; evaluation for basis vectors; kernel evaluation of the witness |

## Findings

Places where the English property, read naturally, is false of the code as modelled, or where the code relies on
something a caller may miss.  The theorem that shows it is named where there is one.

### Pointers and containers
* Moving a shared pointer onto a variable of the same resource (or onto itself) loses a count, so that the resource is
  destroyed early (C01, `SharedPointer`: witnesses beside `references_exact_partial`).
* The postfix increment of the container iterator visits erased elements (C08, `postfix_increment_visits_erased`).
* `Repository::erase` does not look at the reference count: it destroys a resource that is still referenced, twice if asked
  twice, and the slot is handed out again while old handles point to it (C11, `erase_destroys_referenced`,
  `erase_then_emplace_aliases`, `erase_twice_ub`); the destructor of a repository destroys erased elements once more (C67,
  `repository_destructor_destroys_twice`).  The factories check the count first and are not affected.
* Inserting an invalid copy into a `SegmentedVector` stores an element that is never visited (C10,
  `insert_invalid_copy_is_invisible`); in a mesh it is counted by `nCells` and by the orientation map (C23,
  `insert_erased_cell_invisible`).

### Topology and meshes
* `permutation_sign` of lists with repeated entries is not zero (C13, `permutationSign_repeated_witness`).
* `isValid` of tetrahedra accepts a "pillow" (C15, `isValid_tetrahedron_accepts_pillow`).
* `sanityCheck` of tetrahedra rejects a pillow of two disjoint triangles, which the factory builds (C83, `sanityCheck_fails`);
  with it the test for tetrahedra is exact (`sanityCheck_tetrahedron`), but nothing calls it when a simplex is made.
* Requesting a simplex by vertices leaves temporaries in the factories (C16, `request_vertices_leaves_temporaries`).
* A triangle first composed of segments that are not head-to-tail fails an assertion when asked for its vertices (C19,
  `fromVertices_vertices_fails`).
* `exists(v0, v1)` misses segments made by `flip` (C22, `existsSegment_misses`).
* The boundary depends on how the cells were made: negative cells contribute unflipped facets (C25,
  `boundary_depends_on_history`); the size of the boundary of a segment mesh counts merged nodes twice (C25,
  `boundarySize_counts_nodes_twice`); the boundary of a boundary may not be empty (C26, `boundary_boundary_not_empty`).
* The boundary of positive triangles has the induced orientation, the boundary of positive tetrahedra the opposite one: its
  faces point inwards (C77, `stokes_tetrahedra`, `boundary_points_inwards`).
* Quadratic triangles with the one-point rule, which `grad_grad_block` accepts, have stiffness matrices that vanish on functions other
  than constants; with the tables of degree 2, 3 and 4 they do not (C78, `tri2_underintegrated`, `rules_collinear`).
* Refinement makes new nodes for every cell, so that neighbours no longer share nodes (C31, `refine_not_conforming`);
  `subdivide` does not terminate for a negative number of refinements.
* Repeated refinement degenerates tetrahedra (C87, `refine_stretches`, `refine_degenerates`): the parts are passed on with
  their nodes in an order in which the diagonal chosen at the next level is a long one.  After `3 m + 1` refinements of the corner
  tetrahedron some cell has an edge that, relative to the size of a well-shaped cell, is the Fibonacci number `F (m + 1)`.  (In the
  order of Bey's refinement, with the same diagonal, there are finitely many shapes.)  The order differs between the cells that are
  inserted and those that are subdivided further; a computation suggests that using the first order throughout would not help.  One refinement need not make tetrahedra smaller, two
  halve them (C86, `refine_size_tight`, `refine_size_tetrahedra`).
* Refining tetrahedra once and then once more does not give the mesh refined twice (C89, `refine_steps_fails`): the fourth and
  the seventh part are subdivided with their nodes in another order than the one in which they are inserted.
* A partition into one part ignores the rank (C29, `partition_single`).
* The tasks of a parallel program number the vertices of the same mesh differently, because the partitioner takes them in the order of their
  addresses. Cells are lost or counted twice if the colors of METIS depend on the numbers (C103, `label_dependent_lost`,
  `label_dependent_twice`), and not otherwise (`tasks_agree`).
* `flip_diagonal` reverses the outline of triangles of orientation −1 (C32, `flip_outline_fails`) and fails an assertion
  for pairs it should reject with an exception (C33, `flip_throws_fails`).

### Geometry, tensors, quadrature
* The third Cartesian coordinate function returns the second coordinate (C38, `coordinateFunction_fails`).
* The conversion of vectors to forms uses the inverse metric, so that vectors do not round trip in polar and spherical
  coordinates (C41, `metric_equivalent_fails`).
* Polar and spherical algebra divide by r (and sin θ); `GeometricSimplex::parametrization` subtracts the origin, so that in
  these coordinates it divides by zero, and the integrator works in Cartesian coordinates only.
* The wedge product of a one-form and a two-form lacks a term and is alternating only if a form is zero (C45,
  `wedge12_fails`, `wedge12_alternating_iff`).
* Placing a point twice in a coordinate system is a firewall, ignored when that is not fatal (C75, `placeAll_strict`,
  `placeAll_release`).
* Two cells on the same simplex: the integrator fails an assertion, or uses the points of the first (C49,
  `integrate_aborts`, `integrate_release`).
* The weights of two of the triangle tables, as decimals, do not sum to exactly one (C48, `weights_sum`).
* The volume of a cell of a submanifold depends on which node comes first when the normal varies (C85,
  `subVolume_order_fails`).
* The parametrization of a geometric segment runs from its second node to its first, the one of the isoparametric segment the
  other way round.

### Input and output
* Summit files of two or more cells with an element type cannot be read back (C46, `summit_element_type_fails`); nodes that
  share a point are merged (C46, `summit_nodes_fail`).
* The Summit reader does not look at the state of the stream nor at the range of the indices: a file cut within the nodes of
  a cell makes it use node −1, and release builds read other cuts as meshes with fewer cells (C91, `summit_damaged_fails`,
  `summit_truncated`, `summit_truncated_release`).
* When the topology is destroyed at the end of the process, the slots of erased simplices release their pointers a second time, so that
  counts drop below the number of pointers left (C102, `teardown_counts_wrong`); no memory given back is touched (`teardown_safe`). A static
  mesh that is complete before the first call of `topology()` outlives it and touches memory given back (C102, `exit_safe_iff`).
* Meshes read as discontinuous ones are accepted by the (continuous) discretizers, which then share no nodes: the Poisson system is
  singular as soon as one cell has no facet on the boundary (C101, `discontinuous_poisson`, `square_discontinuous`). Nothing reports it.
* The Summit reader does not look at orientations: triangles in clockwise order are accepted and count with negative areas (C98,
  `clockwise_accepted`).  By reading: all triangles of `tests/input/rectangle.summit` are in clockwise order, and 23 of
  `tests/input/disk_polar.summit` are in the plane of the polar coordinates, across the branch cut of the angle.

### Finite elements
* Prescribed values other than zero are never imposed (C56, `prescribed_fails`).
* Solving again accumulates matrix and right hand side (C57: harmless for exact solvers, `solveTimes_eq`, and for solvers with a relative
  tolerance, C100 `relative_energy`).
* Without options the solver stops at a fixed relative tolerance, and then the discrete solutions need not converge under refinement
  (C100, `poisson_stagnates`); the tolerance has to follow the square of the size of the triangles (`poisson_order_inexact`).
* A constrained node that is not in the mesh dereferences the end iterator; a constrained segment that is no edge of the mesh
  throws (C58, `p2_constrained_throws`).
* Refined meshes of triangles and tetrahedra are torn along the edges: all their nodes are on the boundary, so the discrete
  Poisson solution with constrained boundary is zero for every source (C92, `refined_all_on_boundary`,
  `poisson_refined_zero`); `benchmarks/mito.lib/pdes/poisson.cc:54` notes that `tetra` does not work. On segments it does (C93,
  `segments_refined`).
* The H1 norm uses gradients in parametric coordinates (C59, `h1Norm_fails`). On every mesh it is the L2 norm up to a factor that depends
  only on the kind of element and the rule (C99, `h1Norm_le_l2`), so it is no measure for errors of gradients (`h1Norm_not_equivalent`).
* The L2 norm on inverted elements takes the root of a negative number (C70, `l2Norm_inverted`).
* The jacobian of quadratic triangles is the one of the linear triangle (C51, `jacobian_tri2`): right only for straight
  edges with nodes at the midpoints.
* Inserting a present key into a discrete field is an assertion, ignored in release builds (C65, `field_debug`,
  `field_release`).

### Functions, materials, solvers
* The derivative of a linear combination uses `std::get` by type and does not compile for repeated types.
* `fields::gradient` and `fields::divergence` take fields in polar and spherical coordinates and ignore the metric: the gradient is wrong
  wherever the field changes along a basis vector of a length other than one (C112, `fieldsGradient_iff`; `fieldsGradient_fails` for the field of
  `polar_gradient.cc`), and the divergence of the position in the plane is one in place of two (`fieldsDivergence_fails`).
* The linearisation of the Gent material at the identity does not depend on its bulk modulus (C64,
  `Gent.tangents_undeformed`: λ = 2μ/Jm).
* The consistency test of materials does not scale its residual: every stress passes for a small enough perturbation (C76,
  `testStress_vacuous`).  It also keeps references to the numbers it is given.
* Negative option values are prefixed like options (C66, `prefix_corrupts_values`), and only spaces separate options
  (`prefix_misses_tab`).
* MPI must be started through the simulation before PETSc is: in the other order `MPI_Init` is called twice, and PETSc can have one session only (C104,
  `order_matters`).
* The point cloud is that of the process: points are never removed, and a second coordinate system with nodes of its own makes the cloud unwritable in both
  (C105, `writer_fails`); a field made before further nodes cannot be recorded (`record_iff`).
* Tasks with serial writers overwrite each other's files, and a serial writer may overwrite a piece of a parallel one (C106, `no_clash_iff`).
* The mass matrix of a quadratic triangle is singular with the quadrature rule of degree 2, and that of a linear one with the rule of degree 1; nothing
  in the code relates the rule to the element (C107, `mass_tri2`, `reaction_tri1`, `unisolvent_tri2`).
* `Weakform::add_block`, `SourceTermBlock` and `MaterialConsistencyTest` keep the addresses of arguments taken by `const &`, so that temporaries are
  accepted and used after their end (C108, `temporary_block`, `temporary_field`, `temporary_tolerance`).
* Elements keep references to cells in the slots of the mesh: after cells of the mesh are erased and others inserted, source terms of an old function
  space use the area of the erased triangle and the points of the inserted one (C109, `exchange`, `hybrid_blocks`); files of writers made before
  an erasure keep points of no cell (`orphan_points`).
* `PETScLinearSystem::get_solution` copies as many entries as the system has equations from the rows of its task: with two or more tasks it reads
  beyond the end (C110, `getSolution_defined_iff`).  `assemble` assembles the matrix and not the right-hand side: values for rows of other
  tasks are lost, and `k` equal tasks compute the solution divided by `k` (`replicated_solution`).  Equations are numbered on each task
  from zero, in one system shared by all tasks (`numbering_mixes`, `parts_collide`).  Assumed of PETSc: rows split as for `PETSC_DECIDE`, values
  for rows of other tasks sent at assembly only.
* Nor are the orientations of the triangles of a surface compared with each other: two triangles with an edge in the same direction leave that
  edge in the boundary, twice (C113, `disagreeing_triangles`).
* The components of vectors are written to VTK files as they are, also in polar and spherical coordinates, where they belong to the local frame,
  while the points are written in cartesian coordinates: arrows and warped meshes are wrong (C114, `arrow_polar`, `arrow_spherical`).
* The VTK file of a function space of second order has the corners of the triangles only; values at the midsides do not show (C114,
  `p2_midsides_hidden`).
* A second field recorded under the same name silently replaces the first; fields have the name given to their factory, so a program that names
  two fields alike loses one (C114, `same_name_lost`).
* The full specialisations of `insert_vtk_point` in lib/mito/io/vtk/vtk_point.h are not `inline`: two translation units that include the header
  define them twice (by reading).
* `OrientedSimplex::edges` ignores the orientation: a triangle and its flip report the same oriented edges, so those of a negatively oriented
  triangle run against it (C115, `edges_run_backwards`).  A tetrahedron reports 12, 9 or 8 oriented edges depending on which of its faces
  existed when it was made (C115, `edges_tetrahedron_card`, `edges_depend_on_history`); the test expects 12.
* The order in which `Simplex::vertices()` lists the vertices is that of their addresses, so a loop over them goes differently in different runs
  (C116, `order_of_vertices_depends_on_addresses`); everything else a program can ask of the topology does not depend on addresses.
* A loop over indices up to `std::size(vector)`, as in tests/mito.lib/utilities/segmented_vector_print.cc:28-30, visits erased elements and misses live ones
  once something was erased (C118, `loop_over_indices_misses`).
* Nothing ties the degree of the rule of a `MassBlock` to the degree of the element: with quadratic triangles and the rule of degree two the mass matrix
  is singular (C120, `mass_quadratic_low_degree`).
* `topology.erase(cell.simplex())` for a cell that is still in a mesh destroys the simplex and resets the handle inside the mesh. Erasing the cell
  and walking over the boundary are undefined from then on, and the orientations of its facets stay in the map under addresses that new facets may
  get: whether an edge is on the boundary then depends on the allocator (C121, `erased_simplex_breaks_the_mesh`, `stale_orientations`).
* A cell that was erased from a mesh holds its simplex until its place is used again, so that `topology.erase` through another handle does nothing
  (C121, `erased_cell_keeps_its_simplex`, `erase_through_another_handle`).
* `mesh.insert(r)` for the reference to an erased cell whose place is the next to be used again destroys the cell before it is copied
  (C121, `insert_of_erased_cell_fails`).
* The `static_assert` that the weights of a quadrature rule add up to `1.0` compares doubles exactly.  It holds by rounding: the same rule of degree
  three on triangles with its rows in another order sums to `1 - 2⁻⁵³` and would not compile (C122, `checked_by_rounding`, `check_depends_on_order`).
* The test of isoparametric triangles asserts at compile time that quadratic shape functions add up to `1.0` at the points of the rule of degree four.
  With the rules of degree two or three it would not compile: the sum is `1 - 2⁻⁵²` at one of their points; linear shape functions add up to
  `1 - 2⁻⁵³` at `(0.1, 0.2)` (C123, `partition_fails`).
* `f / a` is `(1.0 / a) * f`, which is rounded twice: `f / 49.0` is `1 - 2⁻⁵³` where `f` is `49` (C124, `quotient_differs`).
* Not all contractions with placeholders compile: `wedge(a, w)(_, y, z)` for a one-form `a` and a two-form `w`, and three-forms with placeholders only (C125, `contraction_fails`).
* The polar algebra does not bring the angle back into the range of `std::atan2`: the middle of `(-1, 0)` and `(0, -1)` has other polar coordinates than its transformed cartesian
  coordinates, which tests/mito.lib/geometry/coordinate_transformation.cc compares for other points (C126, `transformation_fails`).
* The point of tests/mito.lib/fields/spherical_metric_field.cc is the south pole, where the metric is singular; the test passes because `std::numbers::pi` is not π (C126, `spherical_point_singular`).
* The Python classes of coordinates have `__getitem__` without a check of the index, and neither `__len__` nor `__iter__`: `zip(x, t)`, `list(x)` and `a, b = x` read past the
  array, also in the tests tests/mito.ext/coordinates_2D.py and coordinates_3D.py (C127, `zip_tests_undefined`, `iterate_undefined`).
* The Python classes of manifolds and integrators hold references to objects that Python may destroy; the bindings declare no `keep_alive` (C127, `lifetimes_fail`; the fix is
  `kept_defined`).
* The tests of the half ball and of the half sphere in spherical coordinates have cells that start at the pole, where the metric is singular and the algebra divides by zero. They pass
  only since `std::numbers::pi` is not `π`, so that the sine of the polar angle is about 1e-16 (C128, `halfBall_fails`, `halfSphere_fails`). The same holds for the point of
  tests/mito.lib/geometry/spherical_metric_space.cc.
* The wedge of a one-form with a two-form (C45) rebuilds the volume form in tests/mito.lib/geometry/euclidean_submanifold_metric_3D.cc only since the second component of the
  normal is zero there (C128, `rebuilt_form_iff`).
* The number 0.9460830607878437 that three tests and a benchmark call the exact integral of cos(xy) over the unit square is wrong in the eighth digit; the integral is
  0.94608307036… (C129, `exact_wrong`). The result on square.summit is closer to the wrong number than to the integral (`square_test`).
* `random_coordinate` in benchmarks/mito.lib/fields/laplacian.cc returns points on the diagonal only, where the two terms of the laplacian agree (C130, `laplacian_diagonal`).
* The reader accepts files in which a face occurs twice in the same direction; the boundary of such a mesh may have a boundary (C132, `fan_not_closed`).
* The map from the nodes of the mesh to discretization nodes has no midpoints, so on second-order triangles a field that is set node by node as in `fem_field.cc` is zero at the midpoints (C133, `quadratic_test_fails`).
* The reader of Summit files accepts a cell and its reverse: their integrals cancel and their boundaries do not (C135, `twice_boundary`).
* `pow2(sqrt)(x) == x` is asserted by `function_from_functor.cc` at 1.1 and is false at 2 in double arithmetic (C136, `square_of_sqrt_fails`).
* Summit files are written with 15 digits, and 17 are needed: coordinates change, and triangles may change their orientation (C137,
  `digits_lost`, `segment_lost`, `triangle_reversed`).
* a Summit file that lost its last characters is read without notice as another mesh if it was cut within the last index: the last node of the last
  cell is then another one (`digit_lost`, `chars_cut`);
* the Summit reader accepts damaged files in which numbers run into each other: `0.1.5-2` is read as three coordinates, and `1.5` in the header
  as the number of cell types and a coordinate (`glued`);
* a Summit file has the points of a mesh and not its nodes: a mesh some of whose cells share nodes while others share points only changes its
  number of nodes when it is written and read again, as a continuous mesh or as a discontinuous one (`nodes_lost`, `kept_iff`);
* `barycenter` and `midpoint` depend on the order of the nodes in the last digit: the midpoints of `0.1` and `0.5` (`order_matters`); refining a
  segment between neighbouring numbers gives a segment without length (`no_midpoint`); neither is reported;
* the stiffness and mass matrices are not symmetric in double arithmetic, since `factor * dphi_a * dphi_b` is evaluated from the left
  (`not_symmetric`, `entry_not_symmetric`); the Poisson benchmark asks for a Cholesky factorization,
  which takes the matrix for symmetric (benchmarks/mito.lib/pdes/poisson.cc:99);
* `ShapeTriangleConstuctionP2` looks only at the node `(1, 0, 0)`, where wrong derivatives pass (`test_misses`);
* `Gent` checks neither its parameters nor the stretch: with a negative `Jm` the energy is negative for some stretches
  (`Gent.negative_Jm`), and beyond the limit of the stretch, where the energy is a NaN, `stress` returns a compression (`Gent.stress_beyond`);
* `LinearElastic` takes every ratio of Poisson: above 1 the tangents are elliptic but the energy is negative for some strains
  (`LinearElastic.elliptic_unstable`); beyond the limit of the stretch `Gent::tangents` returns moduli that are not elliptic
  (`Gent.not_elliptic_beyond`);
* the computed volume of a flat triangle can have the wrong sign, and depends on which node comes first
  (`RoundedVolumes.sign_wrong`, `RoundedVolumes.rotation_matters`); the computed directors of a triangle that is not flat can be parallel
  (`RoundedVolumes.directors_parallel`);
* `geometry::flip_diagonal` does not check that the two triangles form a convex quadrilateral: otherwise one of the new cells
  has negative volume (`Mito.Meshes.flip_inverts`, C150); triangles of orientation `-1` are replaced by cells whose volume has
  the other sign (`Mito.Meshes.flip_negates`).
* the number called exact in tests/mito.lib/quadrature/quadrature_segment_3D.cc is off by 7e-16, most of the tolerance of 1e-15
  (`Mito.SpaceTests.segment_test`, C152).
* `NamedClass` loses the name if the class itself can be constructed with a string in front: the forwarding constructor is the better
  match for literals, temporaries and variables, and the object is `unnamed` (`Mito.NamedClass.name_fails`, C153).
* `f / a` is computed as `(1.0 / a) * f`: it is rounded twice and differs from the quotient of the value, so that the test of division
  would not compile with 0.7 in place of 0.1 (`Mito.Functions.divide_fails`, C155).
* `CoordinateSystem::midpoint` depends on the order of its arguments: in double arithmetic the two cells at an edge, which run through it in
  opposite directions, put its middle at different places (`Mito.RoundedMidpoint.rounded_fails`, `refined_apart`, C156).
* erasing an element through the `SegmentedVector` that it was moved away from is noticed by an assertion only: in a release build the old
  vector gets size -1 and puts its next element in memory of the new one (`Mito.SegVec.erased_through_source`, C157).
* in double arithmetic the wedge product of three one-forms is antisymmetric in the last two vectors only: with the first two equal it can differ from
  zero (`Mito.RoundedForms.first_two_fail`, C158).
* `PointCloud::begin/end` return references to temporaries; `L2NormBlock` keeps a reference to its function.
* PETSc objects are not released by destructors; a solver destroys its linear system, copies of linear systems share their
  objects, a solver does not notice that its linear system was created again (C94, `handles_fail`).
* `midpoint` computes `a + 0.5 (b - a)`, which with rounding depends on the end it starts from: for `-1` and `2^53` the two
  results differ by one, so that the nodes that neighbours create on their common edge need not even have the same coordinates
  (C95, `midpoint_asymmetric`).
* The divergence theorem fails with the boundary of a mesh of tetrahedra: the integral over the boundary has the opposite sign
  (C96, `divergence_theorem_tetrahedra`, `divergence_theorem_fails`).
* The volume of a cell of a submanifold is taken from the normal at its first node, where a boundary has a corner and no
  normal.  The sum of the normals of both sides, which the test and the tutorials use, gives wrong lengths unless the angle
  is right (C96, `corner_normals_fail`).
* By reading: `PETScLinearSystem::assemble` does not assemble the right hand side (`PETScLinearSystem.cc:71-84`), which
  PETSc asks for; errors of PETSc make the wrappers return early and are not reported to the caller (`PetscCallVoid`).
