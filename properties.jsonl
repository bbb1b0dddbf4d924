{"id": "C01", "title": "Reference counts are exact", "statement": "After any sequence of construct / copy / move / copy-assign / move-assign / reset / destroy on shared pointers that never moves a pointer onto a pointer to the same resource and never copies a null pointer, references() of every resource equals the number of live pointers that hold it. (The unrestricted statement is false: moving a pointer onto itself, or onto another pointer to the same resource, loses a pointer without releasing its count.)", "quantifier": "all finite sequences of pointer operations over any number of pointers and resources", "why_tests_cant": "the count depends on the whole history of operations; tests exercise a handful of short histories", "anchors": ["lib/mito/utilities/SharedPointer.icc", "lib/mito/utilities/SharedPointer.h", "lib/mito/utilities/Shareable.icc"]}
{"id": "C02", "title": "Moving a pointer transfers it, and null pointers are never counted", "statement": "Move construction and move assignment between pointers to different resources leave the source null and the target holding the source's resource with the total count unchanged; copy construction adds exactly one reference; reset and destruction remove exactly one if the pointer is non-null and nothing otherwise; copying a null pointer is undefined behaviour.", "quantifier": "every state of every set of pointers and resources", "why_tests_cant": "aliasing patterns between pointers are unbounded", "anchors": ["lib/mito/utilities/SharedPointer.icc"]}
{"id": "C03", "title": "Live elements never share a slot", "statement": "In a segmented container the locations of all live elements are pairwise distinct and lie inside allocated segments, after any interleaving of insertions and erasures of live elements.", "quantifier": "all segment sizes > 0 and all finite insert/erase histories", "why_tests_cant": "slot reuse only misbehaves under particular histories and segment-boundary positions", "anchors": ["lib/mito/utilities/SegmentedAllocator.h"]}
{"id": "C04", "title": "Addresses are stable", "statement": "Inserting into or erasing other elements from a segmented container never changes the location or the content of a live element.", "quantifier": "all histories and all live elements", "why_tests_cant": "depends on growth points and free-list state", "anchors": ["lib/mito/utilities/SegmentedAllocator.h", "lib/mito/utilities/SegmentedVector.h", "lib/mito/utilities/Repository.h"]}
{"id": "C05", "title": "size() and capacity() are exact", "statement": "size() is the number of live elements; capacity() is the number of segments times the segment size; size() <= capacity(); a new segment is only allocated when every slot of the existing ones is occupied.", "quantifier": "all histories, all segment sizes > 0", "why_tests_cant": "off-by-one at segment boundaries shows only at specific counts", "anchors": ["lib/mito/utilities/SegmentedAllocator.h"]}
{"id": "C06", "title": "Erased slots are reused first-in first-out before fresh ones", "statement": "An insertion after erasures reuses the slot erased longest ago; fresh slots are used only when no erased slot is pending.", "quantifier": "all histories", "why_tests_cant": "the queue discipline is a statement about all histories", "anchors": ["lib/mito/utilities/SegmentedAllocator.h"]}
{"id": "C07", "title": "Iterating a segmented vector visits exactly the live elements once", "statement": "Iteration with prefix ++ from begin() to end() of a segmented vector yields every live element exactly once, in slot order, and no erased element.", "quantifier": "all histories of emplace/erase and all segment sizes > 0", "why_tests_cant": "skipping logic depends on arbitrary patterns of erased slots, including the first and last ones and whole segments", "anchors": ["lib/mito/utilities/SegmentedContainerIterator.h", "lib/mito/utilities/SegmentedAllocatorIterator.h", "lib/mito/utilities/SegmentedVector.h"]}
{"id": "C08", "title": "Postfix and prefix increment agree on where the iterator ends up", "statement": "it++ leaves the iterator at the same position as ++it. (False: postfix ++ does not skip erased elements.)", "quantifier": "all container states and iterator positions", "why_tests_cant": "only fails after erasures in the middle", "anchors": ["lib/mito/utilities/SegmentedContainerIterator.h"]}
{"id": "C09", "title": "Indexing agrees with slot order", "statement": "operator[](i) on a segmented container addresses the i-th slot in iteration order, for every i below capacity.", "quantifier": "all segment sizes > 0, all i, all histories", "why_tests_cant": "index arithmetic across segments", "anchors": ["lib/mito/utilities/SegmentedAllocator.h"]}
{"id": "C10", "title": "SegmentedVector erase is idempotent and refuses dead elements", "statement": "Erasing an element of a segmented vector returns true exactly when it is live; erasing it twice changes nothing and returns false.", "quantifier": "all histories", "why_tests_cant": "double erase after reuse depends on history", "anchors": ["lib/mito/utilities/SegmentedVector.h"]}
{"id": "C11", "title": "Repository resources survive while referenced", "statement": "A resource still referenced by another pointer is not destroyed by erasing it through one pointer. (False for Repository::erase itself, which ignores the count although its comment promises otherwise, and erasing through two pointers makes two later resources share an address; true for the simplex factories, which check the count first.)", "quantifier": "all histories of emplace / copy / erase", "why_tests_cant": "needs all aliasing patterns", "anchors": ["lib/mito/utilities/Repository.h", "lib/mito/topology/SimplexFactory.h", "lib/mito/topology/OrientedSimplexFactory.h"]}
{"id": "C12", "title": "Permutation sign", "statement": "permutation_sign(a, b) of two arrangements of the same distinct elements is the mathematical sign of the permutation taking one to the other: multiplicative, symmetric, +1 on equal arrangements and negated by a swap.", "quantifier": "all lengths, all element types, all permutations", "why_tests_cant": "n! permutations for every n", "anchors": ["lib/mito/math/combinatorics.h"]}
{"id": "C13", "title": "Permutation sign on repeated elements", "statement": "For arrays with repeated elements the returned sign is not well defined: two arrays that are equal up to exchanging two equal entries get the same answer, hence antisymmetry fails.", "quantifier": "all arrays with a repeated element", "why_tests_cant": "a statement about all arrays", "anchors": ["lib/mito/math/combinatorics.h"]}
{"id": "C14", "title": "Composition validity does not depend on order", "statement": "isValid of a composition gives the same answer for every reordering of the composition (as the comment in the source asks to be tested).", "quantifier": "all orders N >= 1, all compositions and all permutations of them", "why_tests_cant": "all permutations of all compositions", "anchors": ["lib/mito/topology/utilities.h"]}
{"id": "C15", "title": "Valid triangle compositions are closed directed loops", "statement": "With assertions on, three segments pass isValid<2> exactly when they form a directed 3-cycle on three distinct vertices, given that each segment has two distinct end points.", "quantifier": "all triples of oriented segments", "why_tests_cant": "all vertex identification patterns", "anchors": ["lib/mito/topology/utilities.h"]}
{"id": "C16", "title": "Oriented simplices are unique", "statement": "At every moment there is at most one footprint per set of subsimplex footprints and at most one oriented simplex per footprint and orientation; asking for an existing one returns the same object and changes nothing.", "quantifier": "all histories of topology requests and erasures", "why_tests_cant": "identity of objects across arbitrary histories", "anchors": ["lib/mito/topology/SimplexFactory.h", "lib/mito/topology/OrientedSimplexFactory.h", "lib/mito/topology/Topology.icc"]}
{"id": "C17", "title": "Flip is an orientation-reversing involution", "statement": "flip(flip(s)) is s, flip(s) shares the footprint of s and has the opposite orientation, and exists_flipped(s) is true exactly when that object exists.", "quantifier": "all histories, all simplices of all orders", "why_tests_cant": "histories", "anchors": ["lib/mito/topology/Topology.icc"]}
{"id": "C18", "title": "Simplices from vertices: odd permutations flip", "statement": "In a topology whose simplices are built from vertices, simplex(v) for distinct vertices v yields the same object for every even permutation of v and its flip for every odd permutation, in any order of creation.", "quantifier": "all histories of vertex-based creation, erasure; N = 1, 2, 3; all permutations of the vertices", "why_tests_cant": "history-dependent choice of representative", "anchors": ["lib/mito/topology/Topology.icc", "lib/mito/topology/OrientedSimplexFactory.h", "lib/mito/topology/OrientedSimplex.h"]}
{"id": "C19", "title": "vertices() returns an even permutation of the defining vertices", "statement": "In a topology whose simplices are built from vertices, simplex(v)->vertices() is an even permutation of v (the assertion in segment/triangle/tetrahedron never fires). False when a triangle was first composed from segments listed in non head-to-tail order.", "quantifier": "all histories; N = 1, 2, 3", "why_tests_cant": "history-dependent", "anchors": ["lib/mito/topology/Topology.icc", "lib/mito/topology/Simplex.h", "lib/mito/topology/OrientedSimplex.h"]}
{"id": "C20", "title": "Erasing a simplex never destroys anything still in use", "statement": "Topology::erase of a simplex leaves alive every oriented simplex and footprint that is held by a user handle, or is a subsimplex of something that is; if the simplex itself is held elsewhere, the call changes nothing.", "quantifier": "all histories, all simplices", "why_tests_cant": "reference patterns are unbounded", "anchors": ["lib/mito/topology/Topology.icc", "lib/mito/topology/SimplexFactory.h", "lib/mito/topology/OrientedSimplexFactory.h"]}
{"id": "C21", "title": "Erasing frees exclusively owned subsimplices", "statement": "After erasing a simplex that nobody else holds it no longer exists; so does each of its subsimplices that no user handle and no surviving simplex refers to.", "quantifier": "all histories, all simplices", "why_tests_cant": "reference patterns are unbounded", "anchors": ["lib/mito/topology/Topology.icc"]}
{"id": "C22", "title": "exists() tells created and not erased", "statement": "exists(v0, v1) / exists(composition) is true exactly when the corresponding oriented simplex was created and has not been destroyed since; queries do not change the topology.", "quantifier": "all histories", "why_tests_cant": "histories", "anchors": ["lib/mito/topology/Topology.icc", "lib/mito/topology/OrientedSimplexFactory.h"]}
{"id": "C23", "title": "Mesh orientation counts are a recount", "statement": "After any sequence of insert / erase, the number of times the mesh reports a facet with each orientation equals the number of times it occurs in the composition of its live cells.", "quantifier": "all histories of insert and erase, all cell types", "why_tests_cant": "histories with repeated cells and erasures", "anchors": ["lib/mito/mesh/Mesh.h"]}
{"id": "C24", "title": "isOnBoundary means: the opposite facet never occurs", "statement": "isOnBoundary(f), for a facet f of some live cell, is true exactly when no live cell has the facet with the opposite orientation; for a facet that does not occur at all the call throws.", "quantifier": "all meshes and facets", "why_tests_cant": "all meshes", "anchors": ["lib/mito/mesh/Mesh.h"]}
{"id": "C25", "title": "boundary() collects exactly the boundary facets", "statement": "boundary_size(mesh) equals the number of cells of boundary(mesh), and each is a facet occurrence on the boundary, in cell order. When every cell has positive orientation and the mesh is a consistently oriented pseudo-manifold these are exactly the facets belonging to one cell. It is false in general: for a cell with orientation -1 the facets are not flipped, so the boundary depends on creation history.", "quantifier": "all meshes", "why_tests_cant": "history-dependent orientation", "anchors": ["lib/mito/mesh/Boundary.icc", "lib/mito/mesh/Mesh.h", "lib/mito/topology/OrientedSimplex.h"]}
{"id": "C26", "title": "The boundary of a boundary is empty", "statement": "For a mesh whose cells all have valid compositions, the facet orientations of its boundary chain cancel (the boundary operator squares to zero).", "quantifier": "all meshes of valid cells", "why_tests_cant": "all meshes", "anchors": ["lib/mito/topology/utilities.h", "lib/mito/mesh/Boundary.icc"]}
{"id": "C27", "title": "Erasing duplicates keeps one representative", "statement": "erase_topological_duplicates keeps exactly the first cell for every footprint, erase_geometrical_duplicates the first for every oriented simplex; the orientation counts stay a recount.", "quantifier": "all meshes", "why_tests_cant": "arbitrary duplicates", "anchors": ["lib/mito/mesh/Mesh.h"]}
{"id": "C28", "title": "Filtering extracts all subcells with multiplicity", "statement": "filter<I>(mesh) contains one cell for every chain of subcells: (N+1)!/(I+1)! cells per mesh cell.", "quantifier": "all meshes, all I < N", "why_tests_cant": "all meshes", "anchors": ["lib/mito/mesh/Filter.icc"]}
{"id": "C29", "title": "Partitions are a disjoint cover", "statement": "For every painting of the cells, the per-rank submeshes are disjoint, together contain every cell once, and preserve the order of the cells.", "quantifier": "all meshes, all numbers of ranks, all paintings", "why_tests_cant": "the painting is chosen by METIS", "anchors": ["lib/mito/mesh/metis/Partitioner.icc"]}
{"id": "C30", "title": "Uniform refinement: counts and volumes", "statement": "n subdivisions turn each segment / triangle / tetrahedron into 2^n / 4^n / 8^n children, each with signed volume equal to the parent's divided by 2^n / 4^n / 8^n; so total length/area/volume and orientation are preserved.", "quantifier": "all n, all meshes, all node positions (also degenerate)", "why_tests_cant": "all node positions and all depths", "anchors": ["lib/mito/mesh/tetra.h"]}
{"id": "C31", "title": "Uniform refinement is conforming", "statement": "Neighbouring cells that share an edge share the node at its middle after refinement. (False: each cell makes its own mid nodes.)", "quantifier": "all meshes", "why_tests_cant": "all meshes", "anchors": ["lib/mito/mesh/tetra.h"]}
{"id": "C32", "title": "Flipping a diagonal preserves the outline and is an involution", "statement": "flip_diagonal of two triangles sharing an edge produces two triangles covering the same directed outer boundary, and flipping again gives back the original pair.", "quantifier": "all pairs of adjacent triangles", "why_tests_cant": "all pairs", "anchors": ["lib/mito/topology/FlipDiagonal.icc", "lib/mito/geometry/utilities.h"]}
{"id": "C33", "title": "Flipping a diagonal of non-adjacent simplices throws", "statement": "flip_diagonal throws exactly when the two simplices have no subsimplex of opposite orientation in common; it never returns garbage.", "quantifier": "all pairs", "why_tests_cant": "all pairs", "anchors": ["lib/mito/topology/FlipDiagonal.icc"]}
{"id": "C34", "title": "Cartesian points form an affine space", "statement": "A + (B - A) = B, (A + v) - A = v, (A + u) + v = A + (u + v), midpoint(A,B) is equidistant, distance is a metric.", "quantifier": "all dimensions, all points and vectors", "why_tests_cant": "all reals", "anchors": ["lib/mito/geometry/CoordinateSystem.h", "lib/mito/geometry/cartesian/algebra.h"]}
{"id": "C35", "title": "Polar algebra agrees with the plane", "statement": "For r_A > 0, mapping polar coordinates to the plane turns A + v and B - A into vector addition and subtraction; A + (B - A) is the same point as B; midpoint and distance agree with the Cartesian ones.", "quantifier": "all points with positive radius, all vectors", "why_tests_cant": "all reals, angle wrap-around", "anchors": ["lib/mito/geometry/polar/algebra.h"]}
{"id": "C36", "title": "Spherical algebra agrees with space", "statement": "The same for spherical coordinates away from the origin and the axis.", "quantifier": "all points with r > 0 and sin(theta) != 0", "why_tests_cant": "all reals", "anchors": ["lib/mito/geometry/spherical/algebra.h"]}
{"id": "C37", "title": "Coordinate transformations round trip", "statement": "polar -> cartesian -> polar and cartesian -> polar -> cartesian (and the spherical ones) return the same point, up to 2 pi in the angle.", "quantifier": "all points away from the singular set", "why_tests_cant": "all reals, branch cuts", "anchors": ["lib/mito/geometry/coordinate_transformation.h"]}
{"id": "C38", "title": "Named cartesian coordinates", "statement": "The three named coordinate functions x_0, x_1, x_2 return the first, second and third coordinate. (False: x_2 returns the second.)", "quantifier": "all points", "why_tests_cant": "a typo that only one specific use exposes", "anchors": ["lib/mito/geometry/cartesian/api.h"]}
{"id": "C39", "title": "Coordinate one-forms are dual to the basis", "statement": "dx_I(e_J) is 1 if I = J and 0 otherwise, at every point where the metric is invertible, in Cartesian, polar and spherical coordinates.", "quantifier": "all points and all components", "why_tests_cant": "all reals", "anchors": ["lib/mito/geometry/metric_space.h", "lib/mito/tensor/factories.h"]}
{"id": "C40", "title": "Metric volume form measures volume", "statement": "w(v1..vN) is the Euclidean determinant of the vectors in the local orthonormal frame, in Cartesian, polar and spherical coordinates; hence the volume of a cell does not depend on the coordinate system used.", "quantifier": "all points away from singularities, all vectors", "why_tests_cant": "all reals", "anchors": ["lib/mito/geometry/metric_space.h", "lib/mito/manifolds/Manifold.h", "lib/mito/tensor/wedge.h"]}
{"id": "C41", "title": "Vector <-> form conversion round trips", "statement": "Converting a vector to its metric equivalent form and back returns the vector. True in Cartesian coordinates; false in polar coordinates (r != 1).", "quantifier": "all points and vectors", "why_tests_cant": "all reals", "anchors": ["lib/mito/geometry/metric_space.h"]}
{"id": "C42", "title": "Volume of a simplex from its nodes", "statement": "The volume reported for a cell is the oriented simplex volume: invariant under translation, multiplied by the sign of a node permutation, zero exactly for degenerate cells.", "quantifier": "all nodes", "why_tests_cant": "all reals", "anchors": ["lib/mito/manifolds/Manifold.h", "lib/mito/geometry/utilities.h"]}
{"id": "C43", "title": "The parametrization of a geometric simplex is its barycentric map", "statement": "It maps the reference vertices to the nodes, is affine, and the image of the reference simplex is the convex hull of the nodes.", "quantifier": "all nodes, all parametric points", "why_tests_cant": "all reals", "anchors": ["lib/mito/geometry/GeometricSimplex.h"]}
{"id": "C44", "title": "Wedge of two and three one-forms", "statement": "The wedge of two one-forms is alternating and bilinear; of three one-forms is the 3x3 determinant.", "quantifier": "all forms and vectors", "why_tests_cant": "all reals", "anchors": ["lib/mito/tensor/wedge.h"]}
{"id": "C45", "title": "Wedge of a one-form and a two-form is alternating", "statement": "(False for the code: one term of the alternating sum is missing.)", "quantifier": "all forms and vectors", "why_tests_cant": "all reals", "anchors": ["lib/mito/tensor/wedge.h"]}
{"id": "C46", "title": "Summit files round trip", "statement": "Reading a file written by the mesh writer yields the same number of cells and nodes, the same connectivity up to the node renumbering, and the same coordinates (as printed).", "quantifier": "all meshes with at least one cell", "why_tests_cant": "all meshes", "anchors": ["lib/mito/io/summit/reader.h", "lib/mito/io/summit/MeshSummitWriter.h"]}
{"id": "C47", "title": "VTK grids have consistent connectivity", "statement": "In the grid produced by the VTK writers, point ids are dense and distinct, every cell refers to existing points and the point behind the k-th id of a cell is the k-th node of that cell.", "quantifier": "all meshes", "why_tests_cant": "all meshes", "anchors": ["lib/mito/io/vtk/MeshVTKWriter.h", "lib/mito/io/vtk/NodeVTKWriter.h"]}
{"id": "C48", "title": "Quadrature rules integrate their degree", "statement": "Every quadrature table integrates every polynomial of its nominal degree over the reference simplex to within 1e-15 times the size of its coefficients, and the weights sum to one to the same accuracy.", "quantifier": "all polynomials of the given degree", "why_tests_cant": "infinitely many polynomials", "anchors": ["lib/mito/quadrature/quadrature_tables_segments.icc", "lib/mito/quadrature/quadrature_tables_triangles.icc", "lib/mito/quadrature/quadrature_tables_tetrahedra.icc"]}
{"id": "C49", "title": "Mesh integration is additive, linear and exact for constants", "statement": "integrate(f) is linear in f, additive over disjoint unions of cells, and gives c * total volume for f = c.", "quantifier": "all meshes and integrands", "why_tests_cant": "all functions", "anchors": ["lib/mito/quadrature/Integrator.h"]}
{"id": "C50", "title": "Shape functions", "statement": "The P1 and P2 shape functions on segment and triangle sum to one everywhere and are 1 at their own node and 0 at the others; P1 (P2) reproduces every affine (quadratic) function.", "quantifier": "all points, all functions of that degree", "why_tests_cant": "all reals", "anchors": ["lib/mito/fem/elements/seg1/ShapeSegmentP1.h", "lib/mito/fem/elements/tri1/ShapeTriangleP1.h", "lib/mito/fem/elements/tri2/ShapeTriangleP2.h"]}
{"id": "C51", "title": "Element jacobians and gradients", "statement": "The jacobian of an isoparametric element is the derivative of its parametrization; physical gradients of shape functions are the gradients of the shape functions on the physical element; they sum to zero.", "quantifier": "all non-degenerate elements, all points", "why_tests_cant": "all reals", "anchors": ["lib/mito/fem/elements/tri1/IsoparametricTriangleP1.h", "lib/mito/fem/elements/tri2/IsoparametricTriangleP2.h", "lib/mito/fem/elements/seg1/IsoparametricSegmentP1.h"]}
{"id": "C52", "title": "Element matrices", "statement": "Element mass and stiffness matrices are symmetric; the stiffness matrix annihilates constants and is positive semidefinite; entries of the mass matrix sum to the element volume (when the jacobian is positive).", "quantifier": "all elements, all quadrature rules with non-negative weights", "why_tests_cant": "all reals", "anchors": ["lib/mito/fem/blocks/GradGradBlock.h", "lib/mito/fem/blocks/MassBlock.h"]}
{"id": "C53", "title": "Equation numbering", "statement": "The discrete system numbers exactly the unconstrained nodes, with distinct consecutive numbers 0..n-1; constrained nodes get none.", "quantifier": "all function spaces and constraint sets", "why_tests_cant": "all node/constraint sets", "anchors": ["lib/mito/fem/DiscreteSystem.h"]}
{"id": "C54", "title": "Assembly is the sum of element contributions", "statement": "Each entry of the assembled matrix / right-hand side is the sum over elements of the contributions of the two nodes (one node) with those equation numbers; contributions involving a constrained node are dropped; a symmetric form gives a symmetric matrix.", "quantifier": "all meshes, all weak forms", "why_tests_cant": "all meshes", "anchors": ["lib/mito/fem/DiscreteSystem.h", "lib/mito/fem/Weakform.h"]}
{"id": "C55", "title": "Solution read-back", "statement": "After a solve, the field holds at every unconstrained node its own solution entry, and at constrained nodes the value is unchanged.", "quantifier": "all systems", "why_tests_cant": "all systems", "anchors": ["lib/mito/fem/DiscreteSystem.h"]}
{"id": "C56", "title": "Prescribed boundary values are imposed", "statement": "The solution takes the prescribed values on the constrained nodes. (False unless they are zero: the values of the constraint are never used.)", "quantifier": "all constraints", "why_tests_cant": "all prescribed functions", "anchors": ["lib/mito/fem/DiscreteSystem.h", "lib/mito/constraints/Dirichlet.h"]}
{"id": "C57", "title": "Solving twice gives the same solution", "statement": "Calling solve() again on a linear problem returns the same solution although the system is accumulated twice.", "quantifier": "all invertible systems, any number of repetitions", "why_tests_cant": "any number of solves", "anchors": ["lib/mito/solvers/LinearSolver.h", "lib/mito/matrix_solvers/backend/petsc/PETScLinearSystem.cc"]}
{"id": "C58", "title": "Discretization shares nodes exactly where the mesh does", "statement": "Two elements share a discretization node exactly when their cells share the mesh vertex (P1, P2) or the edge (P2 mid nodes).", "quantifier": "all meshes", "why_tests_cant": "all meshes", "anchors": ["lib/mito/fem/elements/tri1/DiscretizerCG.h", "lib/mito/fem/elements/tri2/DiscretizerCG.h", "lib/mito/fem/elements/seg1/DiscretizerCG.h"]}
{"id": "C59", "title": "H1 norm", "statement": "The H1 norm is computed with physical gradients. (False: parametric gradients are used, so it is wrong unless the jacobian is orthogonal.)", "quantifier": "all meshes", "why_tests_cant": "the reference element hides it", "anchors": ["lib/mito/fem/norms.h"]}
{"id": "C60", "title": "Symbolic derivatives are derivatives", "statement": "For every scalar function expression built from the library, derivative(f) evaluates to the mathematical derivative of f at every point where the expression is differentiable by its rules.", "quantifier": "all expressions, all points", "why_tests_cant": "infinitely many expressions", "anchors": ["lib/mito/functions/derivation_rules.h", "lib/mito/functions/library_derivatives.h", "lib/mito/functions/function.h"]}
{"id": "C61", "title": "Partial derivatives, gradient, divergence", "statement": "Symbolic partial derivatives of multivariate expressions are the mathematical ones; gradient and divergence of fields are assembled from them in Cartesian coordinates; the gradient is linear and satisfies the product rule.", "quantifier": "all expressions, all points", "why_tests_cant": "infinitely many expressions", "anchors": ["lib/mito/functions/partial_derivatives.h", "lib/mito/fields/differential.h"]}
{"id": "C62", "title": "Function algebra is pointwise", "statement": "Sums, products, scalings, reciprocals and compositions of functions evaluate pointwise, for every nesting.", "quantifier": "all expressions, all points", "why_tests_cant": "infinitely many expressions", "anchors": ["lib/mito/functions/algebra.h", "lib/mito/functions/function.h"]}
{"id": "C63", "title": "Linear elasticity: stress and tangents are derivatives of the energy", "statement": "stress is the gradient of the stored energy, the tangents are the gradient of the stress, they have major and minor symmetry and the energy is invariant under infinitesimal rotation.", "quantifier": "all deformation gradients and moduli", "why_tests_cant": "all reals", "anchors": ["lib/mito/materials/LinearElastic.h"]}
{"id": "C64", "title": "Gent material: stress and tangents are derivatives of the energy", "statement": "stress is the gradient of the stored energy and the tangents the gradient of the stress wherever the model is defined; the undeformed state is stress free; the energy is frame indifferent.", "quantifier": "all admissible deformation gradients and moduli", "why_tests_cant": "all reals", "anchors": ["lib/mito/materials/Gent.h"]}
{"id": "C65", "title": "Discrete fields are maps", "statement": "A discrete field returns at each key the value last written through operator(), inserting an existing key does not overwrite, and reading an absent key throws.", "quantifier": "all histories", "why_tests_cant": "histories", "anchors": ["lib/mito/discrete/DiscreteField.h"]}
{"id": "C66", "title": "Solver options are prefixed word by word", "statement": "Every option word starting with '-' gets the solver prefix and nothing else changes. (Negative numbers are prefixed too, which corrupts them.)", "quantifier": "all option strings", "why_tests_cant": "all strings", "anchors": ["lib/mito/matrix_solvers/backend/petsc/PETScKrylovSolver.cc"]}
{"id": "C67", "title": "Elements are constructed and destroyed exactly once", "statement": "Over the whole life of a segmented container, including its destruction, every element that was constructed is destroyed exactly once and nothing else is destroyed. (True for SegmentedVector; false for Repository, whose destructor also destroys erased elements a second time.)", "quantifier": "all histories of insertion and erasure followed by destruction", "why_tests_cant": "histories", "anchors": ["lib/mito/utilities/SegmentedVector.h", "lib/mito/utilities/Repository.h"]}
{"id": "C68", "title": "Destroying a container frees each segment exactly once", "statement": "The destructor of a segmented container returns every memory segment it allocated exactly once.", "quantifier": "all histories", "why_tests_cant": "histories", "anchors": ["lib/mito/utilities/SegmentedAllocator.h"]}
{"id": "C69", "title": "Moved-from containers are empty and reusable", "statement": "Moving a segmented container hands over all elements and leaves the source as if newly constructed.", "quantifier": "all states", "why_tests_cant": "states", "anchors": ["lib/mito/utilities/SegmentedAllocator.h"]}
{"id": "C70", "title": "L2 norm", "statement": "The L2 norm of the difference of two fields on a function space is non-negative, zero for equal fields, symmetric and satisfies the triangle inequality, if no element is inverted and no weight is negative.", "quantifier": "all function spaces without inverted elements, all fields, all rules with non-negative weights", "why_tests_cant": "all reals", "anchors": ["lib/mito/fem/norms.h", "lib/mito/fem/blocks/L2NormBlock.h"]}
{"id": "C71", "title": "Source terms and localization", "statement": "The element source vector is linear in the source and its entries sum to the integral of the source by the quadrature rule; a finite element field on an element is the sum of its nodal values times the shape functions, and so is its gradient.", "quantifier": "all elements, sources, rules and nodal values", "why_tests_cant": "all reals", "anchors": ["lib/mito/fem/blocks/SourceTermBlock.h", "lib/mito/fem/localize.h"]}
{"id": "C72", "title": "Coordinate bases and metrics", "statement": "In Cartesian, polar and spherical coordinates the basis vectors are the partial derivatives of the position with respect to the coordinates, and the metric is the matrix of their scalar products.", "quantifier": "all points", "why_tests_cant": "all reals", "anchors": ["lib/mito/geometry/polar/metric.h", "lib/mito/geometry/spherical/metric.h"]}
{"id": "C73", "title": "Volumes of lines and surfaces", "statement": "The volume of a cell of a submanifold with orthonormal normal fields orthogonal to the cell is, up to the sign, the length of the segment or the area of the triangle.", "quantifier": "all cells of order 1 and 2 in 2D and 3D, all orthonormal normals, all three kinds of coordinates", "why_tests_cant": "all reals", "anchors": ["lib/mito/manifolds/factories.h", "lib/mito/manifolds/Manifold.h"]}
{"id": "C74", "title": "Mesh integration is the integral", "statement": "For a polynomial of at most the degree of the rule the value of the integrator is the Lebesgue integral over the domain that the cells fill, up to the accuracy of the decimals of the rule; the volume of a cell is its Lebesgue measure.", "quantifier": "all meshes of non-inverted cells in 1D, 2D, 3D that overlap in null sets, all polynomials", "why_tests_cant": "all meshes and polynomials", "anchors": ["lib/mito/quadrature/Integrator.h", "lib/mito/manifolds/Manifold.h"]}
{"id": "C75", "title": "Coordinate systems map points to coordinates", "statement": "A point has the coordinates at which it was placed first; placing it again is rejected; a change of coordinates keeps the points, transforms their coordinates, round trips, and keeps distances, midpoints and volumes.", "quantifier": "all sequences of placements, all coordinate maps away from the singularities", "why_tests_cant": "all reals, all maps", "anchors": ["lib/mito/geometry/CoordinateSystem.h", "lib/mito/geometry/coordinate_transformation.h"]}
{"id": "C76", "title": "The consistency test of materials accepts consistent materials, and more", "statement": "A linear elastic material passes the test at every perturbation iff the tolerance is positive. The residual is not divided by the perturbation: a material with a stress off by D passes iff the norm of 2hD is less than the tolerance, and any material with continuous energy passes for all small enough perturbations whatever its stress.", "quantifier": "all deformation gradients, perturbations and tolerances", "why_tests_cant": "the test itself is under test: it has no test with a wrong material", "anchors": ["lib/mito/materials/MaterialConsistencyTest.h"]}
{"id": "C77", "title": "Discrete Stokes theorem on meshes", "statement": "The sum over the boundary cells of any alternating function of vertices is the sum over the cells of the sum over their facets: with the induced orientation for segments and triangles, with the opposite one for tetrahedra. Hence the flux of an affine field through the boundary is its divergence times the area (minus the volume, for tetrahedra), and area and volume are determined by the boundary. The boundary of a positive tetrahedron points inwards.", "quantifier": "all histories of requests by vertices, all meshes in which no oriented facet occurs twice, all alternating functions, all positions of the nodes, all affine fields", "why_tests_cant": "the divergence theorem test has one mesh of four triangles and hardcodes the normals", "anchors": ["lib/mito/mesh/Boundary.icc", "lib/mito/topology/Topology.icc", "lib/mito/topology/OrientedSimplex.h"]}
{"id": "C78", "title": "Elliptic discrete systems are solvable exactly when they are anchored", "statement": "If the elementary matrices of a discrete system have nonnegative energy that vanishes exactly for constants, the assembled matrix is invertible iff every node is joined by a chain of elements to a constrained node. Solving then stores, at every node, the unique solution of the discrete weak form, which also minimises the energy; solving again changes nothing. The stiffness blocks of linear segments and triangles are of this kind for every rule with nonnegative weights, one of them positive. Those of quadratic triangles are iff the quadrature points of positive weight are not collinear, which holds for the tables of degree 2, 3 and 4 and fails for degree 1.", "quantifier": "all meshes of non-inverted elements, sets of constrained nodes, sources, rules with nonnegative weights, exact solvers and numbers of solves", "why_tests_cant": "The tests solve one problem on one square; solvability for every connectivity and every constraint set, and uniqueness among all discrete functions, are not observable by running an example.", "anchors": ["lib/mito/fem/DiscreteSystem.h", "lib/mito/fem/Weakform.h", "lib/mito/fem/blocks/GradGradBlock.h", "lib/mito/fem/blocks/SourceTermBlock.h", "benchmarks/mito.lib/pdes/poisson.cc"]}
{"id": "C79", "title": "On a line the Poisson problem is solved exactly at the nodes", "statement": "For linear segments on a line with constrained end nodes, and loads integrated exactly, the computed value at every node is that of the exact solution of -U'' = f with zero boundary values, on every mesh. For constant f this holds for every rule whose weights sum up to one and whose centroid is the midpoint, in particular for both tables of mito.", "quantifier": "all strictly increasing nodes, all twice differentiable exact solutions with continuous source, all exact solvers", "why_tests_cant": "A statement about all meshes and all sources, with an exact equality that floating-point tests can only check up to a tolerance.", "anchors": ["lib/mito/fem/DiscreteSystem.h", "lib/mito/fem/blocks/GradGradBlock.h", "lib/mito/fem/blocks/SourceTermBlock.h", "lib/mito/fem/elements/seg1/IsoparametricSegmentP1.h"]}
{"id": "C80", "title": "The Poisson problem with the boundary of the mesh constrained is always solvable", "statement": "On every mesh of segments or triangles of positive length or area and orientation +1, with one node per vertex and no oriented facet twice, discretizing with the boundary of the mesh as the domain of the constraints succeeds, the assembled matrix is invertible for every source, and solving (any number of times) stores the only solution of the discrete weak form. For quadratic triangles if the quadrature points are not collinear. In particular a function that is constant on each cell of such a mesh and zero on the vertices of its boundary is zero: no connected component is without boundary.", "quantifier": "all histories of requests by vertices, all meshes (connected or not, with holes), all positions of the vertices, all allocators of nodes, all sources, all rules with nonnegative weights, all exact solvers", "why_tests_cant": "it connects orientation bookkeeping, boundary extraction, discretization and assembly on all meshes; tests run single examples of each", "anchors": ["lib/mito/fem/FunctionSpace.h", "lib/mito/fem/elements/seg1/DiscretizerCG.h", "lib/mito/fem/elements/tri1/DiscretizerCG.h", "lib/mito/fem/elements/tri2/DiscretizerCG.h", "lib/mito/mesh/Boundary.icc", "lib/mito/fem/DiscreteSystem.h"]}
{"id": "C81", "title": "Discrete maximum principle", "statement": "The stiffness matrix of a linear triangle is the product of opposite edges over four times the area (times the sum of the weights). Its entries off the diagonal are nonpositive iff no angle is obtuse; those of segments always are. If all elements are of this kind and the system is anchored, a nonnegative source gives a computed solution that is nonnegative at every node.", "quantifier": "all spaces of linear segments and non-obtuse triangles, anchored constraints, nonnegative sources, rules with nonnegative weights and points in the reference element, exact solvers, numbers of solves", "why_tests_cant": "a sign property of the solution for every mesh and source; and the exact class of triangles for which the matrix has the right signs", "anchors": ["lib/mito/fem/blocks/GradGradBlock.h", "lib/mito/fem/blocks/SourceTermBlock.h", "lib/mito/fem/DiscreteSystem.h", "lib/mito/fem/elements/tri1/IsoparametricTriangleP1.h"]}
{"id": "C82", "title": "Patch test", "statement": "On every mesh of segments or triangles of positive length or area and orientation +1, with one node per vertex, discretized with its boundary as the domain of the constraints, interpolated affine functions satisfy the discrete equation of the Laplace operator for every test function that vanishes at the constrained nodes. For linear elements this holds for every rule, for quadratic triangles for rules with the right centroid.", "quantifier": "all histories of requests by vertices, all meshes, all positions of the vertices, all allocators of nodes, all affine functions and all test functions", "why_tests_cant": "consistency on all unstructured meshes; the tests have structured squares and measure convergence rates", "anchors": ["lib/mito/fem/blocks/GradGradBlock.h", "lib/mito/fem/elements/seg1/DiscretizerCG.h", "lib/mito/fem/elements/tri1/DiscretizerCG.h", "lib/mito/fem/elements/tri2/DiscretizerCG.h", "lib/mito/mesh/Boundary.icc"]}
{"id": "C83", "title": "The sanity check of simplices counts vertices", "statement": "sanityCheck of a simplex succeeds iff the simplex and all its subsimplices of every order M have M + 1 different vertices. It succeeds for every simplex of order up to 3 in a topology built from vertices, and fails for closed chains of faces that only look like a simplex (a pillow on six vertices, accepted by the validity check of compositions). Together with the validity check it is exact: a simplex composed of four triangles passes iff the triangles are the coherently oriented faces of a tetrahedron on four different vertices.", "quantifier": "all histories of the topology, all simplices alive", "why_tests_cant": "the check recurses through all subsimplices; tests only run it on single well formed simplices", "anchors": ["lib/mito/topology/Simplex.h", "lib/mito/topology/OrientedSimplex.h", "lib/mito/topology/utilities.h"]}
{"id": "C84", "title": "Flipping a geometric simplex", "statement": "geometry::flip of a geometric simplex of order 1 to 3 gives a geometric simplex with the same footprint, the opposite orientation and the same nodes, reordered by an odd permutation so that they match the vertices of the flipped simplex. Flipping twice gives the same simplex with its nodes reordered by an even permutation. get_nodes collects the nodes of all cells, each once.", "quantifier": "all histories of requests by vertices, all geometric simplices whose nodes match their vertices", "why_tests_cant": "the order of the nodes depends on how the footprint was first requested; the only test flips one segment", "anchors": ["lib/mito/geometry/utilities.h", "lib/mito/geometry/GeometricSimplex.h", "lib/mito/mesh/utilities.h"]}
{"id": "C85", "title": "Integrals over flipped cells change sign", "statement": "The quadrature rules are symmetric under renumbering of the vertices of the reference simplex (except the rule of order 4 on triangles, whose decimals do not add up to one). Hence the order of the nodes of a cell does not affect the mean computed for it; the volume, in spaces and in submanifolds with constant normal fields, changes by the sign of the reordering; and the integral over a mesh of flipped cells is the opposite of the integral over the mesh. With normal fields that are not constant the volume depends on which node comes first.", "quantifier": "all functions, all lists of cells, all reorderings of the nodes, all positions of the nodes, all constant normal fields", "why_tests_cant": "one test flips one segment and integrates one function", "anchors": ["lib/mito/quadrature/Integrator.h", "lib/mito/quadrature/quadrature_tables_segments.icc", "lib/mito/quadrature/quadrature_tables_triangles.icc", "lib/mito/quadrature/quadrature_tables_tetrahedra.icc", "lib/mito/manifolds/Manifold.h", "lib/mito/manifolds/factories.h"]}
{"id": "C86", "title": "Refinement makes cells small", "statement": "After n refinements, segments and triangles have at most 1/2^n of the size of the cells they come from, and tetrahedra at most 1/2^(n/2) (n/2 rounded down); the size is the largest distance between two nodes, in any norm. One refinement of tetrahedra need not make them smaller. Hence the size of the cells of a refined mesh tends to zero.", "quantifier": "all meshes of segments, triangles or tetrahedra, all numbers of refinements, all norms", "why_tests_cant": "the tests count the cells of meshes refined once or twice; the size after n refinements is a statement about all n and all shapes", "anchors": ["lib/mito/mesh/tetra.h"]}
{"id": "C87", "title": "Refinement keeps the shape of cells", "statement": "Refined cells have the shapes of the cells they come from, up to finitely many variations: the ratio of the longest edge and the volume (area, length) scaled to the same dimension is bounded independently of the number of refinements. True for segments and triangles, whose parts are similar to them. False for tetrahedra: the order in which the nodes of the parts are passed on makes the inner diagonal of later refinements longer and longer, and the cube of the longest edge divided by the volume is not bounded.", "quantifier": "all meshes of segments, triangles or tetrahedra, all numbers of refinements", "why_tests_cant": "the tests refine once or twice; the ratio grows slowly, and only some of the cells degenerate", "anchors": ["lib/mito/mesh/tetra.h"]}
{"id": "C88", "title": "Integrals on refined meshes converge", "statement": "The value that the integrator computes on the mesh after n refinements tends to the integral as n grows, for every continuous function and every quadrature rule of the code whose weights add up to one. For functions with Lipschitz constant L the error is at most L h V / 2^n for segments and triangles of size at most h and total volume V, and L h V / 2^(n/2) for tetrahedra. For a rule that integrates polynomials of degree r exactly and functions that agree with polynomials of degree r up to the order r + 1 with constant C, the error is at most 2 C V times the power r + 1 of the size.", "quantifier": "all continuous functions, all meshes of cells with nonnegative volume in one, two or three dimensions, all numbers of refinements", "why_tests_cant": "the tests integrate a few smooth functions on a few meshes and compare with a tolerance", "anchors": ["lib/mito/mesh/tetra.h", "lib/mito/quadrature/Integrator.h", "lib/mito/quadrature/quadrature_tables_segments.icc", "lib/mito/quadrature/quadrature_tables_triangles.icc", "lib/mito/quadrature/quadrature_tables_tetrahedra.icc"]}
{"id": "C89", "title": "Refining in steps", "statement": "Refining a mesh m times and refining the result n times gives the mesh refined m + n times: the same cells, in the same order, with nodes at the same positions. True for segments and triangles. False for tetrahedra: the nodes of two of the parts are listed in different orders when the parts are inserted in the mesh and when they are subdivided further, so that the next level divides them along different diagonals. The numbers of cells and the volumes agree always.", "quantifier": "all meshes of segments, triangles or tetrahedra, all numbers of refinements", "why_tests_cant": "the test compares the numbers of cells of one mesh of triangles", "anchors": ["lib/mito/mesh/tetra.h"]}
{"id": "C90", "title": "Discrete Poisson solutions converge", "statement": "On meshes of linear triangles with constrained boundary the solution of the discrete Poisson problem with the source -div grad u converges to u as the triangles get smaller without degenerating, for every twice continuously differentiable u that vanishes at the boundary nodes and every quadrature rule with points inside and positive weights adding up to one. The squares of the error in the H1 norm and of the error that compute_L2_norm yields are bounded explicitly by the variations of the gradient and of the source on triangles; for three times continuously differentiable u they are at most a constant times the area times the square of the size of the triangles, with a constant that depends only on u, on the bound for the shape of the triangles and on the size of the domain.", "quantifier": "all meshes of triangles of positive area with one node per vertex, all smooth solutions that vanish on the boundary, all such quadrature rules, all exact solvers", "why_tests_cant": "the tests and the benchmark solve one problem on a few meshes and look at the error; convergence and its rate are about all functions and sequences of meshes", "anchors": ["lib/mito/fem/FunctionSpace.h", "lib/mito/fem/DiscreteSystem.h", "lib/mito/fem/blocks/GradGradBlock.h", "lib/mito/fem/blocks/SourceTermBlock.h", "lib/mito/fem/elements/tri1/DiscretizerCG.h", "lib/mito/fem/norms.h"]}
{"id": "C91", "title": "Damaged Summit files are rejected", "statement": "Whatever the file, a mesh that the reader returns is well formed: its nodes have the right number of coordinates, its cells the right number of nodes, all of them read, and there are as many of both as the file says. Reading a file that was cut short never yields a mesh.", "quantifier": "all files; all files of all meshes, cut anywhere", "why_tests_cant": "all files and all places to cut them; an index that is out of range reads memory outside the vector of nodes and need not be noticed", "anchors": ["lib/mito/io/summit/reader.h"]}
{"id": "C92", "title": "Refining the mesh improves the solution of the Poisson problem", "statement": "The solution of the Poisson problem on linear triangles with constrained boundary, on the mesh refined n times, approximates the exact solution better and better as n grows; the boundary of a refined mesh is the refined boundary, so nodes inside stay unconstrained.", "quantifier": "all meshes of segments, triangles or tetrahedra, all numbers of refinements; for the solution: all meshes of triangles, sources, solvers that solve exactly", "why_tests_cant": "all meshes and sources; the tests of refinement only count cells and add up volumes, which do not see that cells no longer share nodes", "anchors": ["lib/mito/mesh/tetra.h", "lib/mito/mesh/Boundary.icc", "benchmarks/mito.lib/pdes/poisson.cc"]}
{"id": "C93", "title": "Convergence of the discrete Poisson solution on segments and their refinements", "statement": "On linear segments with constrained ends the discrete Poisson solution converges to the exact one: the H1 error is of first order in the length of the longest segment and, for rules that integrate linear functions exactly, the L2 error that the code computes is of second order. Each refinement by tetra halves the H1 bound and quarters the L2 bound.", "quantifier": "all meshes of segments of positive length with one node per vertex, all solutions with enough continuous derivatives that vanish on the boundary, all rules with points inside and positive weights, all solvers that solve exactly, all numbers of refinements", "why_tests_cant": "all meshes, all smooth solutions and all numbers of refinements; no test of the repository solves the problem on segments", "anchors": ["lib/mito/fem/FunctionSpace.h", "lib/mito/fem/DiscreteSystem.h", "lib/mito/fem/blocks/GradGradBlock.h", "lib/mito/fem/blocks/SourceTermBlock.h", "lib/mito/fem/elements/seg1/DiscretizerCG.h", "lib/mito/fem/norms.h", "lib/mito/mesh/tetra.h"]}
{"id": "C94", "title": "PETSc objects are used while they are alive and released exactly once", "statement": "However linear systems and Krylov solvers are created, used, destroyed and left, no PETSc handle is used before it was created or after it was destroyed, every matrix, vector and solver is released exactly once, and a solver solves with the matrix of its linear system.", "quantifier": "all programs (sequences of constructions, creations, uses, solves and destructions of any number of linear systems and solvers)", "why_tests_cant": "all orders of calls; leaks and uses of pointers that were never written need not be noticed by a test, and the test of the repository runs one order only", "anchors": ["lib/mito/matrix_solvers/backend/petsc/PETScLinearSystem.cc", "lib/mito/matrix_solvers/backend/petsc/PETScKrylovSolver.cc", "lib/mito/solvers/LinearSolver.h"]}
{"id": "C95", "title": "Rounding errors of refinement and integration are bounded", "statement": "With every operation on doubles rounded with a relative error of at most u, a mesh refined n times has the cells and nodes of exact refinement and coordinates with an error of at most ((1+u)^(4n)-1) times the largest coordinate, and the integral over triangles with any of the rules differs from the exact quadrature sum by at most ((G-1)F + G phi) times the area, where G accounts for one rounding per quadrature point and cell and for the cancellation in the areas, and phi for the errors of the quadrature points and of the function.", "quantifier": "all roundings with a relative error of at most u (in particular to the nearest double), all numbers of refinements, all coarse meshes, all rules for triangles, all meshes of triangles with different simplices, all Lipschitz functions", "why_tests_cant": "tests compare with a tolerance for a few meshes and functions; the bound is for all of them and for every rounding", "anchors": ["lib/mito/mesh/tetra.h", "lib/mito/geometry/CoordinateSystem.h", "lib/mito/quadrature/Integrator.h", "lib/mito/manifolds/Manifold.h", "lib/mito/geometry/GeometricSimplex.h"]}
{"id": "C96", "title": "The divergence theorem holds for integrators", "statement": "For a polynomial field within the degree of the quadrature rules, the integral of its divergence over the manifold of a mesh equals the integral of its component along the normals over the submanifold of the boundary of the mesh, up to the accuracy of the decimals of the rules.", "quantifier": "all meshes of positively oriented simplices, all polynomial fields within the degree of the rules, all normal fields", "why_tests_cant": "the test has one mesh of the unit square, one field and no tetrahedra", "anchors": ["lib/mito/mesh/Boundary.h", "lib/mito/manifolds/factories.h", "lib/mito/manifolds/Manifold.h", "lib/mito/fields/differential.h", "lib/mito/quadrature/Integrator.h", "tests/mito.lib/integration/divergence_theorem.cc"]}
{"id": "C97", "title": "Quadratic triangles converge with order two", "statement": "On meshes of quadratic triangles with constrained boundary and with a quadrature rule that has its points inside and is exact for polynomials of degree two, as the rule of mito of that degree is, the discrete solution of the Poisson problem with source -div grad u is within a constant times the square of the size of the triangles of u, in the H1 norm and in the norm that compute_l2_norm yields, for every four times continuously differentiable u that vanishes at the nodes of the boundary. The constant depends only on u, on the bound for the shape of the triangles and on the size of the domain.", "quantifier": "all meshes of triangles of positive area with one node per vertex, all such solutions and rules, all exact solvers", "why_tests_cant": "the benchmark solves one problem on one mesh and prints the errors; the order of convergence is about all functions and all meshes", "anchors": ["benchmarks/mito.lib/pdes/poisson.cc", "lib/mito/fem/elements/tri2/DiscretizerCG.h", "lib/mito/fem/elements/tri2/IsoparametricTriangleP2.h", "lib/mito/fem/blocks/GradGradBlock.h", "lib/mito/fem/blocks/SourceTermBlock.h", "lib/mito/fem/DiscreteSystem.h", "lib/mito/fem/norms.h", "lib/mito/quadrature/quadrature_tables_triangles.icc"]}
{"id": "C98", "title": "Meshes read from files are triangulations, down to the error of the benchmark", "statement": "If the triangles of a Summit file that the reader accepts have positive areas and no two have an edge in the same direction, then loading the file succeeds whatever the topology contains, keeps what it contains, and gives a mesh with the cells in the order of the file, all with positive orientation, whose boundary consists of the edges of one triangle only, in its direction, and whose area is the sum of the areas. For meshes of the unit square the Poisson problem of the benchmark is then solved with errors, in the H1 norm and in the norm that compute_l2_norm yields, below a constant times the square of the size of the triangles, where the constant depends only on the shape of the triangles. The file of the benchmark is such a file.", "quantifier": "all Summit files of triangles in the plane, all topologies with enough free addresses, all addresses of nodes, all orders of hash tables in the discretizer, all exact solvers", "why_tests_cant": "the benchmark runs on one file with an empty topology, prints the errors and checks nothing", "anchors": ["lib/mito/io/summit/reader.h", "lib/mito/geometry/factories.h", "lib/mito/geometry/GeometricSimplex.h", "lib/mito/mesh/Mesh.h", "lib/mito/mesh/Boundary.icc", "benchmarks/mito.lib/pdes/poisson.cc", "tests/input/square.summit"]}
{"id": "C99", "title": "The H1 norm of the code is an L2 norm", "statement": "For each kind of element and each quadrature rule there is a constant such that on every mesh without inverted elements the H1 norm that compute_h1_norm yields for the difference of two finite element fields is at most the constant times the L2 norm of the difference (4 for linear segments and 7 for linear triangles with the rules of degree two); it is at least the L2 norm that compute_l2_norm yields. On elements of size h it exceeds the latter by at most the order of h times the H1 norm. No constant makes it a bound for the H1 norm: on the unit interval there are fields with norm at most 2 whose H1 norm is at least the number of segments.", "quantifier": "all meshes without inverted elements, all quadrature rules, all finite element fields; all fields for the lower bound and the bound in h", "why_tests_cant": "no test computes an H1 norm; the benchmark prints one value for one mesh, which looks like a plausible error", "anchors": ["lib/mito/fem/norms.h", "lib/mito/fem/blocks/L2NormBlock.h", "lib/mito/fem/localize.h", "lib/mito/fem/FemField.h"]}
{"id": "C100", "title": "Conditioning of the Poisson system and solvers with a tolerance", "statement": "On a mesh of linear triangles with area at least a, quotient of squared size and area at most kappa, coordinates bounded by R and at most D triangles at a node, the eigenvalues of the assembled matrix of the Poisson problem are between a/(48 R^2) and 4 kappa D. A solver that stops when the residual is rho times the right-hand side leaves, however often solve is called, a field whose squared H1 error is at most twice the bound for exact solvers plus a constant times rho^2/a; the same holds for the L2 norm that the code computes. With rho reduced like the square of the size of the triangles the order of convergence is one. With a fixed rho there is no convergence: the bound for all such solvers stays above rho^2/4 times the squared norm of the solution.", "quantifier": "all meshes of triangles without two on the same side of an edge, all numberings of nodes, all sources, all solvers with a relative tolerance, any number of calls of solve", "why_tests_cant": "tests solve one system on one mesh to the default tolerance and compare with a loose one; how the tolerance must follow the mesh cannot be seen in a single run", "anchors": ["lib/mito/fem/DiscreteSystem.h", "lib/mito/solvers/LinearSolver.h", "lib/mito/matrix_solvers/backend/petsc/PETScKrylovSolver.cc", "benchmarks/mito.lib/pdes/poisson.cc", "lib/mito/fem/blocks/GradGradBlock.h"]}
{"id": "C101", "title": "Discontinuous meshes decouple the cells", "statement": "Reading a Summit file as a discontinuous Galerkin mesh succeeds whenever reading it as a continuous one does; the cells are on the same simplices and vertices, but no two of them share a node. On a mesh whose cells share no nodes, with the nodes of the boundary mesh constrained, the discretizers succeed and the matrix of the Poisson problem is invertible exactly if every cell has a facet on the boundary of the mesh, for linear segments and for linear and quadratic triangles; otherwise it is singular for every source. In particular it is singular on the mesh of the Poisson benchmark. The Summit writer writes a discontinuous mesh as the continuous one.", "quantifier": "all files with conforming positive triangles, all meshes without shared nodes, all allocators of nodes, all sources, all quadrature rules with nonnegative weights (not on a line for quadratic elements)", "why_tests_cant": "the tests read one discontinuous mesh and never assemble a system on it", "anchors": ["lib/mito/io/summit/reader.h", "lib/mito/fem/elements/tri1/DiscretizerCG.h", "lib/mito/fem/elements/tri2/DiscretizerCG.h", "lib/mito/fem/elements/seg1/DiscretizerCG.h", "lib/mito/mesh/Boundary.icc", "lib/mito/io/summit/MeshSummitWriter.h"]}
{"id": "C102", "title": "The end of the topology", "statement": "When the process ends, the destructor of the topology touches only memory of repositories that have not been given back, whatever simplices were created, erased and recreated before, and gives back all of it; afterwards the reference count of every simplex is the number of pointers to it outside of the topology. A process whose static objects hold pointers to simplices ends without touching memory given back exactly if the static objects that were complete before the first call of topology() hold none.", "quantifier": "all histories of the topology, all orders of iteration over the slots, all static objects and orders of construction", "why_tests_cant": "the count of a simplex in a destroyed topology cannot be observed, and accesses to memory given back go unnoticed without a memory checker", "anchors": ["lib/mito/utilities/Singleton.h", "lib/mito/utilities/Repository.h", "lib/mito/utilities/SharedPointer.icc", "lib/mito/topology/Topology.h", "lib/mito/topology/OrientedSimplexFactory.h", "lib/mito/topology/SimplexFactory.h"]}
{"id": "C103", "title": "The parts of the tasks fit together", "statement": "If the colors that METIS returns do not depend on the numbers of the vertices, then the tasks of a parallel program that read the same file distribute its cells in the same way, each cell to exactly one task, whatever addresses the vertices have in each process; and the integral that the test program for several tasks obtains by summation is the quadrature over all the triangles of the file. Without that condition a cell may be lost or be counted twice.", "quantifier": "all numbers of tasks, all states of the processes and addresses of their vertices, all partitioners that return a color per element, all files with different triangles, all quadrature rules and functions", "why_tests_cant": "the vertices are numbered in the order of their addresses, which differ between processes and runs; the test looks at one mesh with the addresses that the allocator happens to return", "anchors": ["lib/mito/mesh/metis/Partitioner.icc", "lib/mito/mesh/metis/Partitioner.h", "lib/mito/io/summit/reader.h", "lib/mito/quadrature/Integrator.h", "tests/mito.lib/integration/quadrature_load_mesh_2D_mpi.cc"]}
{"id": "C104", "title": "Sessions of MPI and PETSc", "statement": "A process ends without an erroneous call to MPI or PETSc exactly if it creates the simulation before anything else and its calls to PETSc form sessions, or has no simulation and at most one session of PETSc with nothing outside of it. In particular the simulation cannot be created after PETSc has been initialized, and without a simulation PETSc cannot be used in two sessions.", "quantifier": "all sequences of calls of a process", "why_tests_cant": "each test program uses either the simulation or PETSc, in one order; the destructor of the context runs after the last statement of any test", "anchors": ["lib/mito/simulation/Context.icc", "lib/mito/simulation/Simulation.icc", "lib/mito/simulation/factories.h", "lib/mito/utilities/Singleton.h", "lib/mito/matrix_solvers/backend/petsc/externals.h", "lib/mito/io/vtk/ParallelGridVTKWriter.h"]}
{"id": "C105", "title": "The point cloud of a process", "statement": "Every point created in a process stays in the cloud of its dimension, whatever mesh and coordinate system it belongs to. So the cloud can be written in a coordinate system exactly if every point of the process has been placed in it; then the grid has one point for each of them, where it was first placed. A field on the cloud can be recorded exactly if no point was created between the making of the field and that of the writer.", "quantifier": "all histories of points, nodes and placements, all numbers of coordinate systems, all orders of iteration, all dimensions", "why_tests_cant": "the tests make one coordinate system and place every point; the cloud is shared by everything that runs in the process", "anchors": ["lib/mito/geometry/PointCloud.h", "lib/mito/geometry/factories.h", "lib/mito/geometry/CoordinateSystem.h", "lib/mito/io/vtk/PointCloudVTKWriter.h", "lib/mito/io/vtk/FieldVTKWriter.h", "lib/mito/discrete/factories.h"]}
{"id": "C106", "title": "Output files do not overwrite each other", "statement": "In a job of several tasks that run the same program, no file with data is written twice exactly if writers of the same kind have different names, all writers are parallel ones if there are several tasks, and no serial writer has the name of a piece of a parallel one. The name of a piece determines the writer and the task, whatever characters the names contain, and the file that lists the pieces is different from all files with data.", "quantifier": "all numbers of tasks, all lists of writers and names", "why_tests_cant": "the tests write one file per program and do not look at its name", "anchors": ["lib/mito/io/Writer.h", "lib/mito/io/vtk/GridVTKWriter.h", "lib/mito/io/vtk/ParallelGridVTKWriter.h", "lib/mito/io/summit/MeshSummitWriter.h"]}
{"id": "C107", "title": "Weak forms with mass blocks", "statement": "The linear system of a weak form with any gradient and mass blocks is regular exactly if together the blocks see every nonzero function of the space at their quadrature points. So with a mass block no constraints are needed if its rule determines the functions of an element, or if there is also a gradient block that does not underintegrate; of the rules of mito those of degree 1 never determine the functions, and that of degree 2 does not for quadratic triangles, where the mass matrix can be singular. The solution with a mass block alone is the best approximation of the source in the norm that compute_l2_norm computes, reproduces the functions of the space, and is never larger than the source.", "quantifier": "all meshes without inverted elements, all lists of blocks, all rules with nonnegative weights, all sources, all constraints, all exact solvers", "why_tests_cant": "the tests compute the mass matrix of one element and never solve with it; regularity and best approximation are statements about all functions of all meshes", "anchors": ["lib/mito/fem/Weakform.h", "lib/mito/fem/blocks/MassBlock.h", "lib/mito/fem/blocks/GradGradBlock.h", "lib/mito/fem/blocks/SourceTermBlock.h", "lib/mito/fem/DiscreteSystem.h", "lib/mito/fem/norms.h", "lib/mito/quadrature/quadrature_tables_triangles.icc"]}
{"id": "C108", "title": "References between the objects of a finite element program", "statement": "A program whose objects are destroyed only when no living object needs them, in particular one with variables in nested scopes that completes its weak forms before it makes discrete systems from them, never touches an object that is no longer alive. Solving needs the solver, the system, the function space, the weak form, its blocks and their fields, and needs the mesh and the coordinate system exactly if the elements are triangles and there is a source term; the manifold and the constraints are not needed once the function space is made. Temporaries given to add_block, source_term_block and consistency_test compile and are used after their end.", "quantifier": "all programs of constructions, uses and ends of lifetimes", "why_tests_cant": "a reference to a dead object often still reads the old value; the tests keep all objects in one scope", "anchors": ["lib/mito/fem/Weakform.h", "lib/mito/fem/DiscreteSystem.h", "lib/mito/fem/FunctionSpace.h", "lib/mito/fem/elements/IsoparametricTriangle.h", "lib/mito/fem/elements/IsoparametricSegment.h", "lib/mito/fem/blocks/SourceTermBlock.h", "lib/mito/solvers/LinearSolver.h", "lib/mito/manifolds/Manifold.h", "lib/mito/quadrature/Integrator.h", "lib/mito/constraints/Dirichlet.h", "lib/mito/materials/MaterialConsistencyTest.h", "lib/mito/io/summit/MeshSummitWriter.h"]}
{"id": "C109", "title": "Function spaces, integrators and writers after their mesh was changed", "statement": "An object made from a mesh keeps describing that mesh when cells are inserted and erased afterwards: each element of a function space finds the cell it was made from, an integrator integrates over the cells present, and a writer writes the mesh present.", "quantifier": "all meshes and all later histories of insertions and erasures", "why_tests_cant": "slots are reused only after erasures, in the order of the erasures; the tests never change a mesh after making a space, and a stale reference reads a valid cell", "anchors": ["lib/mito/fem/elements/IsoparametricTriangle.h", "lib/mito/fem/elements/tri1/DiscretizerCG.h", "lib/mito/mesh/Mesh.h", "lib/mito/utilities/SegmentedVector.h", "lib/mito/quadrature/Integrator.h", "lib/mito/io/summit/MeshSummitWriter.h"]}
{"id": "C110", "title": "Linear systems with several tasks", "statement": "A program that creates a discrete system and solves it on several tasks computes the solution that one task would compute: no task reads outside its arrays, matrix and right-hand side are the sums of the contributions of the tasks, and equal programs on all tasks give the solution of one.", "quantifier": "all numbers of tasks and equations, all function spaces and weak forms on the tasks, all orders in which values arrive, all exact solvers", "why_tests_cant": "all drivers that solve run on one task; reading beyond the end of a local array may go unnoticed, and a wrong factor appears only with two or more tasks", "anchors": ["lib/mito/matrix_solvers/backend/petsc/PETScLinearSystem.cc", "lib/mito/matrix_solvers/backend/petsc/PETScLinearSystem.icc", "lib/mito/fem/DiscreteSystem.h", "lib/mito/solvers/LinearSolver.h"]}
{"id": "C111", "title": "Identities of the symbolic calculus", "statement": "Partial derivatives of every order commute and depend only on the values of a function near the point; the second derivatives are symmetric; gradient, divergence and jacobian obey the identities of vector calculus: product, chain and linearity rules, div (grad f)^T = grad (div f), div grad f is the laplacian of the components.", "quantifier": "all functions built from the library's operations that have derivation rules, all points where they are smooth, all dimensions, all orders of derivation", "why_tests_cant": "the tests check two or three identities for one field each at one point", "anchors": ["lib/mito/fields/differential.h", "lib/mito/functions/derivation_rules.h", "lib/mito/functions/partial_derivatives.h", "lib/mito/functions/library_derivatives.h"]}
{"id": "C112", "title": "Gradients and divergences in curvilinear coordinates", "statement": "The gradient of a field given in cartesian, polar or spherical coordinates, computed with the gradient form and the metric or with fields::gradient, is the gradient of the function of positions that the field represents, written in the frame of the point; fields::divergence of a vector field is the divergence of the vector field of positions.", "quantifier": "all scalar and vector fields with derivation rules, all points where the coordinates are regular", "why_tests_cant": "the tests compare with formulas for one field; whether the formula is the gradient of the function of positions is not tested, nor fields::gradient in other than cartesian coordinates", "anchors": ["lib/mito/fields/differential.h", "lib/mito/geometry/metric_space.h", "lib/mito/geometry/polar/basis.h", "lib/mito/geometry/spherical/basis.h", "lib/mito/fields/forward.h"]}
{"id": "C113", "title": "Meshes of segments, surfaces and tetrahedra read from files", "statement": "Every list of segments, triangles or tetrahedra on different sets of nodes can be loaded, in any topology, and every cell has positive orientation on its nodes in the order of the file. The boundary of the mesh consists of the faces without an opposite face in the file, with their orientations, so closed surfaces have none. The volume of a mesh of tetrahedra is the sum of the signed volumes from the coordinates in the file, and minus a third of the flux of the position through the boundary.", "quantifier": "all lists of cells of order one, two or three, all coordinates, all states of the topology before", "why_tests_cant": "the tests load two or three meshes in an empty topology and compare one number each", "anchors": ["lib/mito/io/summit/reader.h", "lib/mito/mesh/Boundary.icc", "lib/mito/topology/Topology.icc", "lib/mito/geometry/GeometricSimplex.h"]}
{"id": "C114", "title": "What a VTK file shows", "statement": "In all coordinates the points of the file are the positions of the nodes. After any program that assigns values to fields and records them, the file has an array for each name under which a field with values at all nodes of the grid was recorded, the names differ, and the array shows the field as it was at the last such record; recording a field that misses a node changes nothing. What is drawn in a cell is the interpolation of the nodal values, and arrows end where the vectors of the code lead.", "quantifier": "all meshes and function spaces, all fields, all programs of assignments and records, all orders in which the map of the nodes is visited, all coordinates", "why_tests_cant": "the tests write files that nobody reads, with one field in cartesian coordinates", "anchors": ["lib/mito/io/vtk/FieldVTKWriter.h", "lib/mito/io/vtk/NodeVTKWriter.h", "lib/mito/io/vtk/vtk_point.h", "lib/mito/discrete/DiscreteField.h"]}
{"id": "C115", "title": "The edges of a simplex", "statement": "The edges of an oriented triangle are its three sides as they run around it; those of a tetrahedron are the twelve oriented segments between its vertices. Whatever was made before, flipped or erased does not matter.", "quantifier": "all topologies built from vertices, all triangles and tetrahedra in them, all orientations", "why_tests_cant": "the test makes one triangle and one tetrahedron in an empty topology, where every orientation is positive", "anchors": ["lib/mito/topology/Simplex.h:133-160", "lib/mito/topology/OrientedSimplex.h:157-162", "tests/mito.lib/topology/cell_edges.cc"]}
{"id": "C116", "title": "Programs on the topology do not depend on addresses", "statement": "Two runs of a program that builds, flips, copies, drops and erases simplices and asks about them (identity, counts, references, orientation, existence, vertices, edges, order of the vertices up to even permutation) give the same answers and end with the same simplices up to renaming, whatever addresses the allocator gives. A program that ends for some addresses ends for all, if there are enough. Only the order in which a set of vertices is walked depends on them.", "quantifier": "all programs, including those that branch on answers, and all supplies of addresses, with reuse after erasing", "why_tests_cant": "a test sees the addresses that one allocator gives in one process; the factories keep simplices in maps and sets ordered by address", "anchors": ["lib/mito/topology/Topology.icc", "lib/mito/topology/SimplexFactory.h", "lib/mito/topology/OrientedSimplexFactory.h", "lib/mito/utilities/SegmentedAllocator.h", "lib/mito/utilities/SharedPointer.icc"]}
{"id": "C117", "title": "The tests of the topology pass for all addresses", "statement": "The tests of segments, triangles, tetrahedra, oriented simplices, references, erasing and edges in the repository meet all their expectations, and none of their calls fails.", "quantifier": "ten tests, all supplies of addresses", "why_tests_cant": "they run with the addresses of one process", "anchors": ["tests/mito.lib/topology/segment.cc", "tests/mito.lib/topology/triangle.cc", "tests/mito.lib/topology/tetrahedron.cc", "tests/mito.lib/topology/oriented_simplex_segment.cc", "tests/mito.lib/topology/oriented_simplex_triangle.cc", "tests/mito.lib/topology/simplices.cc", "tests/mito.lib/topology/erase_element_check_segments.cc", "tests/mito.lib/topology/erase_element_check_vertices.cc", "tests/mito.lib/topology/cell_edges.cc"]}
{"id": "C118", "title": "A segmented vector is a list of slots, whatever the addresses", "statement": "A program that inserts into a segmented vector, erases through references it was given and asks for the size, the capacity, the elements in order, and the contents and validity of a position gets the answers of a list of slots, where an element goes to the slot emptied longest ago or to a new one at the end. So the answers do not depend on addresses. The vector tests of the repository pass for all addresses. A loop over indices up to the size misses elements once something was erased.", "quantifier": "all programs of insertions, erasures and questions, all segment sizes above 0, all addresses of fresh blocks", "why_tests_cant": "a test runs with the addresses of one process and one segment size", "anchors": ["lib/mito/utilities/SegmentedVector.h", "lib/mito/utilities/SegmentedAllocator.h", "lib/mito/utilities/SegmentedContainerIterator.h", "tests/mito.lib/utilities/segmented_vector.cc", "tests/mito.lib/utilities/segmented_vector_erase.cc", "tests/mito.lib/utilities/segmented_vector_iterator.cc", "tests/mito.lib/utilities/segmented_vector_subscript.cc", "tests/mito.lib/utilities/segmented_vector_print.cc"]}
{"id": "C119", "title": "The tests of shared pointers and repositories pass", "statement": "The seven tests of reference counts and the two tests of repositories meet all their expectations without undefined behaviour.", "quantifier": "nine tests; repositories with two arrangements of blocks", "why_tests_cant": "this checks the model of pointers and repositories, about which C01-C11 are proved, against what the repository expects of the code", "anchors": ["tests/mito.lib/utilities/shared_pointer.cc", "tests/mito.lib/utilities/repository.cc", "tests/mito.lib/utilities/repository_iterator.cc"]}
{"id": "C120", "title": "Element matrices are those of textbooks", "statement": "The mass and stiffness matrices of segments, linear triangles and quadratic triangles with the rules of the code are those of textbooks, exactly with the rules whose tables are exact and otherwise up to the digits of the tables. The six expected matrices of the tests are met within their tolerances. With the rule of degree two the mass matrix of quadratic triangles is singular.", "quantifier": "all segments and triangles, all entries", "why_tests_cant": "they look at one segment and one right triangle, on which entries of the stiffness matrix vanish that do not vanish in general", "anchors": ["lib/mito/fem/blocks/GradGradBlock.h", "lib/mito/fem/blocks/MassBlock.h", "lib/mito/quadrature/quadrature_tables_triangles.icc", "lib/mito/quadrature/quadrature_tables_segments.icc", "lib/mito/fem/elements/tri2/ShapeTriangleP2.h", "tests/mito.lib/fem/block_grad_grad.cc", "tests/mito.lib/fem/block_mass.cc", "tests/mito.lib/fem/block_grad_grad_segment.cc", "tests/mito.lib/fem/block_mass_segment.cc"]}
{"id": "C121", "title": "Programs that use the topology and a mesh do not depend on addresses", "statement": "In every program that builds and erases simplices and inserts and erases the cells of a mesh, in any order and depending on the answers it gets: the simplices of the cells in the mesh are alive, the orientations of facets are those of these cells, isOnBoundary and boundary_size say what these cells say, erasing a cell never fails, and no answer depends on the addresses of simplices. The mesh tests of the repository are such programs and pass for all addresses.", "quantifier": "all programs of calls and questions, all sequences of addresses, cells of any order", "why_tests_cant": "they run a few programs with the addresses of one allocator; the mesh looks up facets by address in a map that erasing a simplex does not clean", "anchors": ["lib/mito/mesh/Mesh.h", "lib/mito/mesh/Boundary.icc", "lib/mito/geometry/GeometricSimplex.h", "lib/mito/topology/OrientedSimplexFactory.h", "lib/mito/utilities/SegmentedVector.h", "tests/mito.lib/mesh/build_mesh.cc", "tests/mito.lib/mesh/erase_duplicates.cc", "tests/mito.lib/mesh/erase_element.cc"]}
{"id": "C122", "title": "The compile-time checks and the tests of quadrature rules hold in double arithmetic", "statement": "In double arithmetic (rounding to the nearest, ties to even) the weights of all eight rules pass the static_assert that their sum is 1.0, although the weights in the tables of degree three and four do not add up to one; any table that passes it has weights that add up to one within ((1+2^-53)^n - 1) of the sum of their magnitudes. The tests on the parametric segment, triangle and tetrahedron, which the compiler evaluates, hold, and so do those on the square, for the integrator of C95 with this rounding; integration over triangles with rational corners in double arithmetic is a computable function.", "quantifier": "all lists of weights for the soundness of the check; all meshes of triangles with rational corners, lists of points and integrands for the computation; the rules and tests of the repository", "why_tests_cant": "the assertion compares doubles exactly, so it says nothing on real numbers by itself; that it holds depends on the order of the rows, which tests do not change", "anchors": ["lib/mito/quadrature/QuadratureRule.h", "lib/mito/quadrature/quadrature_tables_triangles.icc", "lib/mito/quadrature/Integrator.h", "tests/mito.lib/quadrature/quadrature_parametric_segment.cc", "tests/mito.lib/quadrature/quadrature_parametric_triangle.cc", "tests/mito.lib/quadrature/quadrature_parametric_tetrahedron.cc", "tests/mito.lib/quadrature/quadrature_triangle_2D.cc"]}
{"id": "C123", "title": "Shape functions in double arithmetic", "statement": "A function built from components and constants by the operators of the library, evaluated with a rounding of relative error u after every operation, differs from its exact value by at most (1+u)^depth - 1 times its value without cancellation; in double arithmetic it is a computable function of rational points. The shape functions of mito satisfy what the compiler checks in their tests: one at their node and zero at the others, sum 1.0 at the points of the rules of the tests. On segments the sum is 1.0 at every double between zero and one; on triangles it is within 3e-15 (linear) and 6e-14 (quadratic) of one at every point, but not 1.0.", "quantifier": "all functions built by the operators, all roundings with a relative error and all points; all doubles between zero and one; all points of the reference triangle", "why_tests_cant": "they compare with 1.0 exactly at six points; at the points of the rules of degree two and three the same comparison fails", "anchors": ["lib/mito/functions/function.h", "lib/mito/functions/algebra.h", "lib/mito/fem/elements/seg1/ShapeSegmentP1.h", "lib/mito/fem/elements/tri1/ShapeTriangleP1.h", "lib/mito/fem/elements/tri2/ShapeTriangleP2.h", "tests/mito.lib/fem/isoparametric_segment.cc", "tests/mito.lib/fem/isoparametric_triangle.cc", "tests/mito.lib/fem/shape_functions_segment_p1.cc", "tests/mito.lib/fem/shape_functions_triangle_p1.cc", "tests/mito.lib/fem/shape_functions_triangle_p2.cc"]}
{"id": "C124", "title": "Derivatives of tensor-valued functions of tensors, and the tests of the symbolic calculus at every point", "statement": "derivative of a function whose argument or value is a vector or a matrix returns the matrix whose entry (i, k) is the partial derivative of the i-th component of the value by the k-th component of the argument, components numbered row by row, and can be applied again. All assertions of the tests in tests/mito.lib/functions, with real numbers for double, hold at every point of the domain, the rules for constants and sums for every function. In double arithmetic f / a and a / f are within 2u + u^2 of the quotient but need not be the rounded quotient.", "quantifier": "all functions with rules, all shapes of tensors, all points where the function is smooth; all points in place of the points of the tests", "why_tests_cant": "every assertion is evaluated at one point, for one shape of tensor; the test of f / a uses 0.1, whose rounded reciprocal is exact", "anchors": ["lib/mito/functions/partial_derivatives.h", "lib/mito/functions/derivation_rules.h", "lib/mito/functions/library_derivatives.h", "lib/mito/functions/algebra.h", "tests/mito.lib/functions/tensor_derivatives.cc", "tests/mito.lib/functions/derivative_inverse.cc", "tests/mito.lib/functions/derivative_chain_rule.cc", "tests/mito.lib/functions/derivative_constants.cc", "tests/mito.lib/functions/derivative_product.cc", "tests/mito.lib/functions/derivative_sum.cc", "tests/mito.lib/functions/partial_derivatives.cc", "tests/mito.lib/functions/algebra.cc"]}
{"id": "C125", "title": "Forms called with placeholders", "statement": "A form built from one-forms by sums, multiples, tensor products and wedge products and called with the placeholder _ in some of its arguments, whenever the call compiles, returns the form of the remaining vectors whose values are those of the original form with these vectors in the places of the placeholders, in order; without placeholders it returns the number. Which calls compile is decided by the places of the placeholders: all of them for one- and two-forms, all but the one with placeholders only for tensor and wedge products of three one-forms, and for the wedge of a one-form and a two-form those that give its first two vectors.", "quantifier": "all forms built by the operations of the library, all arrangements of placeholders, all vectors", "why_tests_cant": "the test contracts two forms of unit vectors in five arrangements; a call that does not compile cannot be tested", "anchors": ["lib/mito/tensor/Form.h", "lib/mito/tensor/forms_algebra.h", "lib/mito/tensor/tensor.h", "lib/mito/tensor/wedge.h", "tests/mito.lib/tensor/contractions.cc"]}
{"id": "C126", "title": "The tests of fields, metrics, transformations and permutations at every point", "statement": "With real numbers for double, the assertions of the tests of scalar and vector fields hold at every point; the metrics, dual forms and volume forms that the tests build by hand are those of the library, dual to the basis and measuring volumes at every point off the axis; the middle of two points does not depend on whether it is computed in polar or in cartesian coordinates, including its polar coordinates; the table of signs of permutations is right.", "quantifier": "all points in place of the points of the tests", "why_tests_cant": "every assertion is evaluated at one point, for spherical coordinates at the south pole, where the metric is singular but for the rounding of pi, and for polar coordinates away from the cut of the angle", "anchors": ["lib/mito/fields/differential.h", "lib/mito/fields/fields_algebra.h", "lib/mito/geometry/coordinate_transformation.h", "lib/mito/geometry/polar/algebra.h", "tests/mito.lib/fields/calculus_identities.cc", "tests/mito.lib/fields/calculus_scalar_field.cc", "tests/mito.lib/fields/calculus_vector_field.cc", "tests/mito.lib/fields/gradient_non_square.cc", "tests/mito.lib/fields/polar_metric_field.cc", "tests/mito.lib/fields/spherical_metric_field.cc", "tests/mito.lib/geometry/metric.cc", "tests/mito.lib/geometry/coordinate_transformation.cc", "tests/mito.lib/math/permutation_sign.cc"]}
{"id": "C127", "title": "Python programs on the module are memory safe", "statement": "A Python program that makes coordinates, coordinate systems, meshes, manifolds, integrators and fields, indexes and iterates over coordinates, integrates, and assigns and deletes variables never reaches undefined behaviour: it runs, or raises an exception.", "quantifier": "all programs of these statements, all coordinates, tuples and indices", "why_tests_cant": "the tests are five programs in which every object lives to the end; the two that zip coordinates with a tuple do read past the array, without noticing", "anchors": ["extensions/mito/mito.cc", "lib/mito/manifolds/Manifold.h", "lib/mito/quadrature/Integrator.h", "lib/mito/coordinates/Coordinates.h", "tests/mito.ext/coordinates_2D.py", "tests/mito.ext/coordinates_3D.py", "tests/mito.ext/integrate_2D.py"]}
{"id": "C128", "title": "Volumes of meshes do not depend on the coordinate system, and the meshes of the tests have the expected volumes", "statement": "The volume of a manifold or of a surface is the same after a change of its coordinate system, for every mesh; the disk, half ball, half sphere and cube of the tests are read from their files and have the areas and volumes that the tests expect.", "quantifier": "all meshes; all cells of the four files; all triangles in space", "why_tests_cant": "the tests compare rounded sums of four meshes, in which a division by zero at the pole is hidden by the rounding of pi", "anchors": ["lib/mito/manifolds/Manifold.h", "lib/mito/manifolds/factories.h", "lib/mito/geometry/CoordinateSystem.h", "lib/mito/geometry/spherical/algebra.h", "lib/mito/tensor/wedge.h", "tests/mito.lib/manifolds/volume_half_ball.cc", "tests/mito.lib/manifolds/volume_disk_change_coordinates.cc", "tests/mito.lib/manifolds/surface_half_sphere_cartesian.cc", "tests/mito.lib/manifolds/surface_half_sphere_spherical.cc", "tests/mito.lib/geometry/cube_volume.cc"]}
{"id": "C129", "title": "The integrals of cos(xy) over the unit square and the number that the tests call exact", "statement": "The tests and the benchmark that integrate cos(xy) over the unit square compare with the value of the integral; on the mesh of square.summit the quadrature, the one with MPI for every number of tasks, and the one of the extension agree with it up to the tolerances; on four triangles the polynomials of degree two are integrated exactly; the benchmark converges with the third order for every number of subdivisions.", "quantifier": "both builds; all numbers of tasks, paintings and addresses; all numbers of subdivisions; all orders and rotations of the flipped triangles", "why_tests_cant": "the number called exact is wrong in the eighth digit, which the tolerances of 1e-7 and 1e-3 hide; a test uses one number of tasks and of subdivisions", "anchors": ["lib/mito/quadrature/Integrator.h", "lib/mito/quadrature/quadrature_tables_triangles.icc", "lib/mito/mesh/tetra.h", "tests/mito.lib/integration/quadrature_load_mesh_2D.cc", "tests/mito.lib/integration/quadrature_load_mesh_2D_mpi.cc", "tests/mito.lib/quadrature/quadrature_triangle_2D.cc", "tests/mito.ext/integrate_2D.py", "benchmarks/mito.lib/integration/integration.cc"]}
{"id": "C130", "title": "The two versions of each benchmark compute the same", "statement": "The stress, the wedge product and the laplacian that the benchmarks compute on arrays are those that the library computes, for all arguments; the random deformation gradients are in the domain of the material.", "quantifier": "all Gent materials and 3x3 matrices; all vectors; all points; all values of std::rand", "why_tests_cant": "the benchmarks compare times and not results; the points of the laplacian are on the diagonal only", "anchors": ["benchmarks/mito.lib/materials/gent.cc", "benchmarks/mito.lib/tensor/wedge.cc", "benchmarks/mito.lib/fields/laplacian.cc", "lib/mito/materials/Gent.h", "lib/mito/tensor/wedge.h", "lib/mito/fields/differential.h"]}
{"id": "C131", "title": "Filtering subcells twice is filtering once", "statement": "The cells of a dimension filtered from the filtered cells of a larger dimension are those filtered from the mesh directly, with the same nodes in the same order; the test on the mesh of a ball passes on every mesh of tetrahedra.", "quantifier": "all topologies, meshes and pairs of dimensions; all meshes of tetrahedra", "why_tests_cant": "the test has one mesh and compares the numbers of cells, not the cells", "anchors": ["lib/mito/mesh/Filter.icc", "lib/mito/topology/OrientedSimplex.h", "tests/mito.lib/mesh/filter_ball.cc"]}
{"id": "C132", "title": "The boundary of the boundary of a mesh read from a file is empty", "statement": "In any topology the facets on the boundary of a mesh of triangles or tetrahedra read from a file have positive orientation, and if no face occurs twice in the same direction the boundary of the boundary is empty; the test on the ball passes.", "quantifier": "all reachable topologies, addresses, numbers of nodes and lists of cells on different sets of nodes", "why_tests_cant": "the test has one file read in an empty topology, and one in which no face occurs twice in the same direction", "anchors": ["lib/mito/mesh/Boundary.icc", "lib/mito/mesh/Mesh.h", "lib/mito/io/summit/reader.h", "tests/mito.lib/mesh/ball.cc"]}
{"id": "C133", "title": "Fields that are set at the nodes of the mesh", "statement": "A program that sets a finite element field at the nodes of a mesh from an affine function, as the test of the fields does, gives a field that agrees with that function, and with its gradient, at every point of every element.", "quantifier": "all meshes, all orders of elements of the library, all affine functions, all points of the elements, all addresses and orders of the set of nodes", "why_tests_cant": "the test has one mesh of first-order triangles, one function and one point for each element", "anchors": ["lib/mito/fem/FemField.h", "lib/mito/fem/FunctionSpace.h", "lib/mito/fem/localize.h", "lib/mito/fem/elements/tri2/DiscretizerCG.h", "tests/mito.lib/fem/fem_field.cc", "tests/mito.lib/fem/localize_field.cc"]}
{"id": "C134", "title": "The constrained nodes of a mesh read from a file", "statement": "In any topology the nodes of the boundary of a mesh of triangles or tetrahedra read from a file are the nodes of the faces without an opposite face; the test of the Dirichlet conditions on the disk passes, and every node that is not constrained is inside of the disk.", "quantifier": "all reachable topologies, addresses and lists of cells on different sets of nodes; the disk of the test in every topology", "why_tests_cant": "the test loops over the cells of the boundary, so it passes if a part of the boundary is missing; it has one file in one topology", "anchors": ["lib/mito/constraints/Dirichlet.h", "lib/mito/mesh/Boundary.icc", "lib/mito/io/summit/reader.h", "tests/mito.lib/constraints/dirichlet.cc"]}
{"id": "C135", "title": "Files in which cells are repeated", "statement": "For every file of cells, also one that repeats cells in the same or another order of the nodes: loading succeeds in any topology exactly if each cell has different existing nodes, the orientation of a cell is the sign of the permutation from the first cell on the same nodes, two cells are the same simplex exactly if they differ by an even permutation, and the faces shared by cells cancel in the boundary.", "quantifier": "all lists of triangles or tetrahedra, all reachable topologies, all addresses", "why_tests_cant": "the files of the tests have every cell once", "anchors": ["lib/mito/io/summit/reader.h", "lib/mito/mesh/Mesh.h", "lib/mito/mesh/Boundary.icc", "lib/mito/topology/OrientedSimplex.h"]}
{"id": "C136", "title": "Functions made from functors in double arithmetic", "statement": "In double arithmetic the composition of the square root and the square, in both orders, gives back every nonnegative number exactly, as the test asserts at 1.1.", "quantifier": "all numbers with 53 binary digits, all roundings to a nearest number (whichever of two)", "why_tests_cant": "the test is at one number, for which both equations happen to hold; there are 2^62 positive numbers", "anchors": ["lib/mito/functions/function.h", "tests/mito.lib/functions/function_from_functor.cc"]}
{"id": "C137", "title": "Coordinates in written files", "statement": "A mesh that is written with 15 decimal digits and read back has the same coordinates; a mesh that was read from a written file is written to the same file again.", "quantifier": "all meshes, all coordinates with 53 binary digits, all orders of the hash tables, all roundings to a nearest number (whichever of two)", "why_tests_cant": "the tests compare numbers of cells and nodes, not coordinates, for one file in which all coordinates have 12 digits at most", "anchors": ["lib/mito/io/summit/MeshSummitWriter.h", "lib/mito/io/summit/reader.h", "tests/mito.lib/io/summit_to_summit_mesh_2D.cc", "tests/mito.lib/mesh/summit_read_write.cc"]}
{"id": "C138", "title": "The characters of written files", "statement": "Splitting the characters of a written Summit file at white space and reading the words as numbers gives the integers and the coordinates to 15 digits, in fixed and in scientific notation; the mesh that is read is written to the same characters again.", "quantifier": "all meshes, all coordinates, all element types (also with spaces), all orders of the hash tables", "why_tests_cant": "all coordinates: the notation depends on the exponent, and zeros at the end are left out", "anchors": ["lib/mito/io/summit/MeshSummitWriter.h", "lib/mito/io/summit/reader.h"]}
{"id": "C139", "title": "Files cut at any character", "statement": "A Summit file that is cut after some character is either refused or read as the mesh that was written.", "quantifier": "all meshes with cells, all coordinates, all places where the file is cut", "why_tests_cant": "all places of all files: a number that is cut is still a number, so what is left of a file may look like a file", "anchors": ["lib/mito/io/summit/reader.h", "lib/mito/io/summit/MeshSummitWriter.h"]}
{"id": "C140", "title": "Reading the characters of a file", "statement": "Read character by character with `>>` (white space, signs, digits, points, exponents, the range of int), a written Summit file gives the mesh that its tokens give, also if it is cut after some character; whatever the characters of a file are, what is accepted is a mesh; meshes with too many nodes or cells for an int are refused.", "quantifier": "all meshes, all coordinates, all texts, all places where the file is cut", "why_tests_cant": "all texts; meshes with more than 2^31 cells", "anchors": ["lib/mito/io/summit/reader.h", "lib/mito/io/summit/MeshSummitWriter.h"]}
{"id": "C141", "title": "Nodes of meshes that are written and read again", "statement": "For every file whose characters are accepted, read as a continuous (CG) or as a discontinuous (DG) mesh: the mesh is written, what was written is accepted, and the mesh read then has as many cells and nodes as the first one. The file is the same for both kinds, since it has the points of a mesh and not its nodes; exactly the meshes with one node on each point (CG) or without shared nodes (DG) keep their number of nodes.", "quantifier": "all files, all meshes, all orders of the hash tables", "why_tests_cant": "summit_to_summit_mesh_2D reads one file with triangles in which every node is used; meshes that are neither continuous nor discontinuous are not tested", "anchors": ["lib/mito/io/summit/reader.h", "lib/mito/io/summit/MeshSummitWriter.h", "lib/mito/discrete/factories.h", "tests/mito.lib/io/summit_to_summit_mesh_2D.cc"]}
{"id": "C142", "title": "Barycenters and midpoints in double arithmetic", "statement": "For every rounding to a nearest number with 53 binary digits: the barycenter of a segment, triangle or tetrahedron is in the bounding box of its nodes; the nodes of a mesh that is refined any number of times stay in the bounding box of the first mesh; the midpoint of two coordinates differs from both exactly if there is a double between them; it does not depend on the order of the nodes if these are not further apart than each is from zero. The barycenter tests pass.", "quantifier": "all coordinates, all numbers of refinements, all nearest roundings, both ways to divide", "why_tests_cant": "the tests compute barycenters of six cells whose coordinates are halves; all pairs of doubles cannot be tried", "anchors": ["lib/mito/geometry/utilities.h", "lib/mito/geometry/CoordinateSystem.h", "lib/mito/mesh/tetra.h", "tests/mito.lib/geometry/barycenter_triangle_3D.cc"]}
{"id": "C143", "title": "Symmetry of matrices in double arithmetic", "statement": "The matrices of GradGradBlock and MassBlock and the assembled matrix are symmetric in double arithmetic.", "quantifier": "all elements, quadrature rules, shape functions and numbers of elements; all roundings", "why_tests_cant": "the tests compare entries with a tolerance and never an entry with its transposed one; whether the last digits agree depends on the triangle", "anchors": ["lib/mito/fem/blocks/GradGradBlock.h", "lib/mito/fem/blocks/MassBlock.h", "lib/mito/fem/DiscreteSystem.h"]}
{"id": "C144", "title": "Gradients constructed from barycentric coordinates", "statement": "Differentiating a shape function of barycentric coordinates through parametric_to_barycentric and going back through barycentric_to_parametric gives the partial derivatives with respect to the parametric coordinates; for the linear and quadratic shape functions of the test these are the gradients of the library, and the hard-coded derivatives are right exactly at points whose barycentric coordinates sum to one (for the linear shape functions and the one of the middle of the first edge: everywhere).", "quantifier": "all shape functions with derivation rules, all points of the three-dimensional space of barycentric coordinates, all nodes", "why_tests_cant": "the test looks at one point for each degree, for the quadratic functions at the node (1,0,0), where most terms vanish: a wrong coefficient there passes (test_misses)", "anchors": ["tests/mito.lib/fem/shape_functions_triangle_construction.cc", "lib/mito/functions/derivation_rules.h", "lib/mito/functions/partial_derivatives.h", "lib/mito/fem/elements/tri2/ShapeTriangleP2.h"]}
{"id": "C145", "title": "The energy of a Gent material is positive and bounds the stretch", "statement": "For a positive Jm and moduli that are not negative the stored energy of Gent is not negative wherever it is defined, it vanishes exactly for rotations, where the stress vanishes too, it grows beyond every bound as the stretch approaches its limit and as the volume vanishes; the Kirchhoff stress is symmetric.", "quantifier": "all admissible deformation gradients and moduli, all bounds", "why_tests_cant": "the only test compares differences of the energy with the stress at one random deformation near the identity; it never looks at a value of the energy, nor at large stretches", "anchors": ["lib/mito/materials/Gent.h", "tests/mito.lib/materials/gent.cc"]}
{"id": "C146", "title": "Stability of the materials", "statement": "The tangents of Gent are strongly elliptic wherever the material is defined, for a positive Jm, a positive shear modulus and a bulk modulus that is not negative. The tangents of LinearElastic are strongly elliptic iff the shear and the wave modulus are positive; for a positive modulus of Young that is -1 < nu < 1/2 or nu > 1, while no energy is negative iff -1 < nu < 1/2.", "quantifier": "all admissible deformation gradients, all parameters, all directions and polarizations", "why_tests_cant": "the tests compare the tangents with differences of the stress at one random deformation; stability is a statement on all directions and parameters", "anchors": ["lib/mito/materials/Gent.h", "lib/mito/materials/LinearElastic.h", "tests/mito.lib/materials/linear_elastic.cc"]}
{"id": "C147", "title": "Norms in double arithmetic", "statement": "If the factors at the quadrature points are not negative, compute_l2_norm and compute_h1_norm return a number (not a NaN) whose relative error is bounded independently of the fields: (1-u)^k and (1+u)^k times the exact norm for k = elements + points + components + 4. For doubles and up to a million elements that is 1e-9. With positive factors the result is zero iff the values are zero at all points. With a negative factor the result can be a NaN.", "quantifier": "all numbers of elements, points and components, all values, all functions that round with a relative error of u < 1", "why_tests_cant": "the tests compare norms of a few fields on a few meshes with tolerances chosen by hand", "anchors": ["lib/mito/fem/norms.h", "lib/mito/fem/blocks/L2NormBlock.h"]}
{"id": "C148", "title": "Volumes of cells in double arithmetic", "statement": "In Cartesian coordinates, exchanging the last two nodes changes exactly the sign of the computed volume of a triangle or tetrahedron. The error is bounded by ((1+u)^6-1) or ((1+u)^10-1) times the sum of the magnitudes of the terms, so the sign is right for cells that are not too flat. On grids of 2^25 steps on each side of the origin the volumes of triangles are exact; on grids of 2^15 steps the volumes of tetrahedra have a relative error of at most 3*2^-53. The volume of a triangle can have the wrong sign, and the three rotations of its nodes can give results of three signs.", "quantifier": "all nodes, all steps of grids, all functions that round to a nearest number with 53 binary digits (errors: with a relative error of u)", "why_tests_cant": "the tests permute the nodes of the reference cells, whose coordinates are 0 and 1", "anchors": ["lib/mito/manifolds/Manifold.h", "lib/mito/tensor/wedge.h", "lib/mito/geometry/utilities.h", "tests/mito.lib/manifolds/triangle_2D.cc", "tests/mito.lib/manifolds/tetrahedron_3D.cc"]}
{"id": "C149", "title": "The divergence theorem for meshes in a plane in space", "statement": "For a mesh of triangles in a plane at any height and a polynomial field that does not depend on the height, the programs of the tutorial on submanifolds of space give the same numbers as the programs in the plane; so the integral of the divergence and that of the component along the normals agree up to the accuracy of the rules. The two tutorials compute the same numbers. For a field that depends on the height the two integrals differ.", "quantifier": "all meshes of positively oriented triangles, all heights, all polynomial fields within the degree of the rules, all normal fields", "why_tests_cant": "the tutorial has one mesh and one field and checks nothing", "anchors": ["tutorial/5_divergence_theorem_2D_in_3D/main.cc", "tutorial/4_divergence_theorem_2D/main.cc", "lib/mito/manifolds/factories.h", "lib/mito/quadrature/Integrator.h"]}
{"id": "C150", "title": "Flipping a diagonal and the volumes of the cells", "statement": "Whenever flip_diagonal of two triangles of a plane mesh succeeds, the volumes of the new triangles add up to those of the old ones, each taken with the orientation of its simplex: so the volume is conserved for triangles of orientation +1 and changes its sign for those of orientation -1. Of two triangles of positive volume and orientation +1 it makes two triangles of positive volume if and only if the diagonals of the quadrilateral cross; this is not checked, and in a quadrilateral that is not convex one of the new cells has negative volume.", "quantifier": "all histories of the topology, all pairs of geometric triangles, all positions of their nodes", "why_tests_cant": "the test of flip_diagonal has no geometry, and the benchmark has one square", "anchors": ["lib/mito/geometry/utilities.h", "lib/mito/topology/FlipDiagonal.icc", "lib/mito/manifolds/Manifold.h", "benchmarks/mito.lib/integration/integration.cc"]}
{"id": "C151", "title": "Fourth order of the rule with two points on refined segments", "statement": "On a mesh of segments refined N times by tetra, the integrator with the rule of degree two computes the integral of a function of class C^4 up to 2 C s^4 times the length of the domain and the rounding of the decimals of the rule, where s is the size of the refined mesh and C the constant of the Taylor remainder: two orders more than the degree of the rule promises. The test of the integral of exp(-x) over the unit interval passes with twelve subdivisions with a margin of a factor of 200 in real arithmetic.", "quantifier": "all meshes of segments of nonnegative length, all numbers of subdivisions, all integrands with a cubic expansion at every point", "why_tests_cant": "the test has one integrand, one mesh and one number of subdivisions", "anchors": ["lib/mito/quadrature/Integrator.h", "lib/mito/quadrature/quadrature_tables_segments.icc", "lib/mito/mesh/tetra.h", "tests/mito.lib/quadrature/quadrature_segment_1D.cc"]}
{"id": "C152", "title": "Integrals over segments and triangles in space", "statement": "For every segment in space that is not along the first axis the tests build a positive orthonormal frame from the tangent, and with it the volume of the segment is its length. The integral of a function that is cubic along the segment is the integral along the curve up to the decimals of the rule; over the opposite of the segment it is the opposite number, for every segment and every integrand. The tests of the segment and of the square in space pass in real arithmetic; the number that the former calls exact differs from the integral by more than 7e-16, most of the tolerance.", "quantifier": "all segments in space, all integrands", "why_tests_cant": "each test has one segment or square and one integrand", "anchors": ["lib/mito/quadrature/Integrator.h", "lib/mito/manifolds/factories.h", "tests/mito.lib/quadrature/quadrature_segment_3D.cc", "tests/mito.lib/integration/quadrature_flip_segment_3D.cc", "tests/mito.lib/quadrature/quadrature_square_3D.cc"]}
{"id": "C153", "title": "Names of objects of named classes", "statement": "An object of a NamedClass that is constructed with a string followed by arguments from which the class can be constructed has this string as its name and is constructed from these arguments; constructed from the arguments alone it has the default name.", "quantifier": "all classes, given by the types of arguments from which they can be constructed, all lists of arguments, strings as literals, temporaries, variables and constants", "why_tests_cant": "the test has one class, which cannot be constructed from a string", "anchors": ["lib/mito/utilities/NamedClass.h", "tests/mito.lib/utilities/named_class.cc"]}
{"id": "C154", "title": "The identity of nodes", "statement": "Two handles of nodes are equal exactly if the same construction made the nodes they refer to, whatever copies, moves, assignments and ends of scopes came before and wherever the allocator puts nodes. The id of a handle identifies its node as long as a handle refers to it, and only handles that were moved from are null.", "quantifier": "all programs of constructions, copies, moves, assignments and ends of scopes, all choices of addresses that are not null and not taken", "why_tests_cant": "addresses are chosen by the allocator: a test sees one choice, and whether one is used again depends on the run", "anchors": ["lib/mito/utilities/StdSharedPointer.h", "lib/mito/utilities/StdSharedPointer.icc", "lib/mito/geometry/api.h", "lib/mito/discrete/api.h"]}
{"id": "C155", "title": "Functions and constants in double arithmetic", "statement": "In double arithmetic the sum, difference, product and quotient of a function and a constant has at each point the value of the operation on the value of the function, and the first and second derivatives are those of the function, with their sign, factor or divisor; four derivatives of the sine give back the sine. This is what the tests assert with == at one point and for one constant.", "quantifier": "all doubles as constants and as values of sine and cosine, all roundings to a nearest number with 53 binary digits", "why_tests_cant": "the tests are at pi / 6 with the constant 0.1, whose reciprocal is rounded to 10.0; with 0.7 the test of division would not compile", "anchors": ["lib/mito/functions/algebra.h", "lib/mito/functions/function.h", "tests/mito.lib/functions/derivative_constants.cc", "tests/mito.lib/functions/derivative_higher_order.cc"]}
{"id": "C156", "title": "Differences, sums and midpoints of cartesian coordinates in double arithmetic", "statement": "For points with doubles as cartesian coordinates, A + (B - A) is B, and the midpoint lies between A and B and does not depend on their order, so that the two cells at an edge put its middle at the same place.", "quantifier": "all points in one, two and three dimensions with doubles as coordinates, all roundings to a nearest number with 53 binary digits", "why_tests_cant": "the test has the points (0, 2) and (2, 0), for which nothing is rounded", "anchors": ["lib/mito/geometry/cartesian/algebra.h", "lib/mito/geometry/CoordinateSystem.h", "lib/mito/mesh/tetra.h", "tests/mito.lib/geometry/coordinates.cc"]}
{"id": "C157", "title": "Segmented vectors that are moved from", "statement": "A program with any number of segmented vectors, which inserts, erases through references of the same vector, moves vectors and goes on using both the new vector and the one that was moved from, gets the answers of lists of slots: a move takes the elements, the references and the slots that wait for reuse along, and leaves an empty vector with the same segment size. The answers do not depend on addresses.", "quantifier": "all programs of insertions, erasures, moves and questions, all numbers of vectors, all segment sizes above 0, all addresses of fresh blocks", "why_tests_cant": "the test moves one vector once, without erased elements, and asks only for size and capacity", "anchors": ["lib/mito/utilities/SegmentedVector.h", "lib/mito/utilities/SegmentedAllocator.h", "tests/mito.lib/utilities/segmented_vector_move.cc"]}
{"id": "C158", "title": "Products of forms in double arithmetic", "statement": "In double arithmetic the wedge products of two and of three one-forms are antisymmetric: exchanging two vectors changes exactly the sign, and two equal vectors give zero. For basis vectors and their forms all tensor and wedge products are exact.", "quantifier": "all one-forms, all vectors, all odd and idempotent roundings that keep 0 and 1 (among them rounding to the nearest double)", "why_tests_cant": "the tests contract with basis vectors, for which nothing is rounded, and exchange the last two vectors only", "anchors": ["lib/mito/tensor/wedge.h", "lib/mito/tensor/tensor.h", "lib/mito/tensor/forms_algebra.h", "lib/mito/tensor/factories.h", "tests/mito.lib/tensor/wedge_product_forms.cc", "tests/mito.lib/tensor/tensor_product_forms.cc", "tests/mito.lib/tensor/one_forms.cc"]}
