{
 "claims": [
  {
   "property": "C01",
   "status": "proved",
   "theorems": [
    "Mito.SharedPointer.references_eq_holders_add_selfMoves",
    "Mito.SharedPointer.references_exact_partial",
    "Mito.SharedPointer.held_resource_isValid",
    "Mito.SharedPointer.isValid_iff_held_partial",
    "Mito.SharedPointer.references_not_exact_selfMove",
    "Mito.SharedPointer.references_not_exact_sameResourceMove"
   ],
   "note": "The exact law for every history is references = holders + number of same-resource moves; the restricted claim of the property is its corollary (references_exact_partial, 'partial' refers to the unrestricted reading), and two witnesses refute the unrestricted reading."
  },
  {
   "property": "C02",
   "status": "proved",
   "theorems": [
    "Mito.SharedPointer.move_transfers",
    "Mito.SharedPointer.moveAssign_transfers",
    "Mito.SharedPointer.copy_adds_one",
    "Mito.SharedPointer.copyAssign_counts",
    "Mito.SharedPointer.reset_releases",
    "Mito.SharedPointer.destroy_releases",
    "Mito.SharedPointer.copy_null_ub",
    "Mito.SharedPointer.copyAssign_null_ub",
    "Mito.SharedPointer.step_ok_iff",
    "Mito.SharedPointer.isNullptr_step",
    "Mito.SharedPointer.references_defined_iff"
   ],
   "note": ""
  },
  {
   "property": "C03",
   "status": "proved",
   "theorems": [
    "Mito.Alloc.insert_not_live",
    "Mito.Alloc.live_in_segment",
    "Mito.Alloc.segments_disjoint",
    "Mito.Alloc.assertions_hold",
    "Mito.SegVec.refines_map"
   ],
   "note": ""
  },
  {
   "property": "C04",
   "status": "proved",
   "theorems": [
    "Mito.SegVec.refines_map",
    "Mito.SegVec.emplace_stable",
    "Mito.SegVec.erase_stable",
    "Mito.SegVec.operations_succeed"
   ],
   "note": ""
  },
  {
   "property": "C05",
   "status": "proved",
   "theorems": [
    "Mito.Alloc.size_eq_card",
    "Mito.Alloc.size_le_capacity",
    "Mito.Alloc.grows_iff_full",
    "Mito.Alloc.erase_capacity",
    "Mito.SegVec.vector_size"
   ],
   "note": ""
  },
  {
   "property": "C06",
   "status": "proved",
   "theorems": [
    "Mito.Alloc.reuse_fifo",
    "Mito.Alloc.fresh_iff_none_pending",
    "Mito.Alloc.reused_flag"
   ],
   "note": ""
  },
  {
   "property": "C07",
   "status": "proved",
   "theorems": [
    "Mito.SegVec.iteration_visits_live"
   ],
   "note": ""
  },
  {
   "property": "C08",
   "status": "partial",
   "theorems": [
    "Mito.SegVec.postfix_increment_visits_erased",
    "Mito.SegVec.postfix_eq_prefix_partial"
   ],
   "note": "False as stated; witness, and agreement when the next slot is live."
  },
  {
   "property": "C09",
   "status": "proved",
   "theorems": [
    "Mito.Alloc.index_eq_iteration",
    "Mito.Alloc.index_injective"
   ],
   "note": ""
  },
  {
   "property": "C10",
   "status": "proved",
   "theorems": [
    "Mito.SegVec.erase_idempotent",
    "Mito.SegVec.insert_invalid_copy_is_invisible"
   ],
   "note": ""
  },
  {
   "property": "C11",
   "status": "partial",
   "theorems": [
    "Mito.Repo.careful_no_dangling_partial",
    "Mito.Repo.careful_erase_partial",
    "Mito.Repo.erase_reports",
    "Mito.Repo.careful_emplace_partial",
    "Mito.Repo.careful_iteration_partial",
    "Mito.Repo.erase_destroys_referenced",
    "Mito.Repo.erase_then_emplace_aliases",
    "Mito.Repo.erase_twice_ub"
   ],
   "note": "False for Repository::erase (witnesses); proved for callers that check the count first, as the factories do."
  },
  {
   "property": "C12",
   "status": "proved",
   "theorems": [
    "Mito.Combinatorics.permutationSign_eq_sign",
    "Mito.Combinatorics.permutationSign_self",
    "Mito.Combinatorics.permutationSign_swap",
    "Mito.Combinatorics.permutationSign_symm",
    "Mito.Combinatorics.permutationSign_none"
   ],
   "note": ""
  },
  {
   "property": "C13",
   "status": "proved",
   "theorems": [
    "Mito.Combinatorics.permutationSign_repeated",
    "Mito.Combinatorics.permutationSign_repeated_witness"
   ],
   "note": ""
  },
  {
   "property": "C14",
   "status": "proved",
   "theorems": [
    "Mito.Topology.isValid_perm"
   ],
   "note": ""
  },
  {
   "property": "C15",
   "status": "proved",
   "theorems": [
    "Mito.Topology.isValid_triangle_iff_loop",
    "Mito.Topology.isValid_tetrahedron_accepts_pillow"
   ],
   "note": "For topologies built from vertices, where each segment has the shape {(a,-1),(b,+1)}. The second theorem is a finding: the analogous test for tetrahedra accepts four triangles that do not bound one."
  },
  {
   "property": "C16",
   "status": "proved",
   "theorems": [
    "Mito.Topology.oriented_unique",
    "Mito.Topology.footprint_unique",
    "Mito.Topology.request_by_footprint",
    "Mito.Topology.request_by_composition",
    "Mito.Topology.request_again",
    "Mito.Topology.request_vertices_again",
    "Mito.Topology.request_vertices_leaves_temporaries"
   ],
   "note": "Requests by vertices may leave oriented subsimplices behind even if the simplex exists (finding)."
  },
  {
   "property": "C17",
   "status": "proved",
   "theorems": [
    "Mito.Topology.flip_flip",
    "Mito.Topology.existsFlipped_iff",
    "Mito.Topology.flip_succeeds"
   ],
   "note": ""
  },
  {
   "property": "C18",
   "status": "proved",
   "theorems": [
    "Mito.Topology.fromVertices_permuted",
    "Mito.Topology.fromVertices_even",
    "Mito.Topology.fromVertices_odd",
    "Mito.Topology.fromVertices_defined"
   ],
   "note": ""
  },
  {
   "property": "C19",
   "status": "proved",
   "theorems": [
    "Mito.Topology.fromVertices_vertices",
    "Mito.Topology.fromVertices_vertices_fails",
    "Mito.Topology.fromVertices_defined"
   ],
   "note": ""
  },
  {
   "property": "C20",
   "status": "proved",
   "theorems": [
    "Mito.Topology.erase_inUse",
    "Mito.Topology.erase_keeps_held",
    "Mito.Topology.erase_keeps_footprints",
    "Mito.Topology.erase_frame",
    "Mito.Topology.step_handles",
    "Mito.Topology.held_simplex_survives",
    "Mito.Topology.held_footprint_survives"
   ],
   "note": ""
  },
  {
   "property": "C21",
   "status": "proved",
   "theorems": [
    "Mito.Topology.erase_frees"
   ],
   "note": ""
  },
  {
   "property": "C22",
   "status": "partial",
   "theorems": [
    "Mito.Topology.existsComp_iff",
    "Mito.Topology.existsComp_total",
    "Mito.Topology.existsComp_created_erased",
    "Mito.Topology.alive_until_erased",
    "Mito.Topology.existsSegment_partial",
    "Mito.Topology.existsSegment_misses"
   ],
   "note": "Proved for exists(composition). exists(v0, v1) gives false negatives when the segment was made by flip (witness); positive answers are right, negative ones when the oriented end points exist."
  },
  {
   "property": "C23",
   "status": "proved",
   "theorems": [
    "Mito.Meshes.orientations_recount",
    "Mito.Meshes.orientations_history_independent",
    "Mito.Meshes.mesh_operations_succeed",
    "Mito.Meshes.insert_erased_cell_invisible"
   ],
   "note": "The last theorem is a finding: inserting a copy of an erased cell is counted but the cell is not visited."
  },
  {
   "property": "C24",
   "status": "proved",
   "theorems": [
    "Mito.Meshes.isOnBoundary_iff"
   ],
   "note": ""
  },
  {
   "property": "C25",
   "status": "proved",
   "theorems": [
    "Mito.Meshes.boundary_collects",
    "Mito.Meshes.boundarySize_eq",
    "Mito.Meshes.boundary_succeeds",
    "Mito.Meshes.unpaired_iff_once",
    "Mito.Meshes.composition_triangle",
    "Mito.Meshes.boundary_depends_on_history",
    "Mito.Meshes.boundarySize_counts_nodes_twice"
   ],
   "note": "The statement contains its own restriction (positive cells) and its failure for negative cells; the last two theorems are witnesses. For a mesh of segments the boundary is a set, so equal nodes merge."
  },
  {
   "property": "C26",
   "status": "partial",
   "theorems": [
    "Mito.Meshes.boundary_boundary_cancels",
    "Mito.Meshes.boundary_boundary_empty",
    "Mito.Meshes.boundary_boundary_not_empty"
   ],
   "note": "Proved when no oriented facet occurs twice; the code finds the boundary closed when its facets all have orientation +1 (witness otherwise)."
  },
  {
   "property": "C27",
   "status": "proved",
   "theorems": [
    "Mito.Meshes.eraseDuplicates_keeps_first",
    "Mito.Meshes.keepFirst_spec",
    "Mito.Meshes.insertAll_cells"
   ],
   "note": ""
  },
  {
   "property": "C28",
   "status": "proved",
   "theorems": [
    "Mito.Meshes.filter_collects",
    "Mito.Meshes.filter_count",
    "Mito.Meshes.filter_succeeds"
   ],
   "note": ""
  },
  {
   "property": "C29",
   "status": "proved",
   "theorems": [
    "Mito.Meshes.partition_cells",
    "Mito.Meshes.colored_sublist",
    "Mito.Meshes.colored_positions",
    "Mito.Meshes.partition_cover",
    "Mito.Meshes.partition_single",
    "Mito.Meshes.connectivity_defined",
    "Mito.Meshes.connectivity_numbering"
   ],
   "note": "METIS is an arbitrary function. A single partition contains all the cells whatever the rank (partition_single)."
  },
  {
   "property": "C30",
   "status": "proved",
   "theorems": [
    "Mito.Refine.refine_count",
    "Mito.Refine.refine_children",
    "Mito.Refine.refine_total_volume",
    "Mito.Refine.refine_fills"
   ],
   "note": ""
  },
  {
   "property": "C31",
   "status": "partial",
   "theorems": [
    "Mito.Refine.refine_conforming_fails",
    "Mito.Refine.refine_not_conforming",
    "Mito.Refine.refine_shares_only_old_nodes",
    "Mito.Refine.refine_append",
    "Mito.Refine.refine_new_nodes_partial"
   ],
   "note": "False: witness, and a general refutation for all neighbouring triangles. Partial: the number of nodes made (one per edge, cell and level)."
  },
  {
   "property": "C32",
   "status": "partial",
   "theorems": [
    "Mito.Topology.flip_outline_fails",
    "Mito.Topology.flip_triangles_partial",
    "Mito.Topology.flip_outline_partial",
    "Mito.Topology.flip_succeeds_partial",
    "Mito.Topology.flip_involution_partial",
    "Mito.Topology.flip_follows_compositions",
    "Mito.Topology.around_iff",
    "Mito.Meshes.flipDiagonal_nodes"
   ],
   "note": "False for triangles of orientation -1 (witness: the outline is reversed). Proved when all the triangles have orientation +1."
  },
  {
   "property": "C33",
   "status": "partial",
   "theorems": [
    "Mito.Topology.flip_throws_fails",
    "Mito.Topology.flip_throws_iff",
    "Mito.Topology.flip_cases_partial"
   ],
   "note": "False: the exception is only thrown when there is no common edge in whatever orientation; other unsuitable pairs fail an assertion (witnesses). All the cases are characterized."
  },
  {
   "property": "C46",
   "status": "partial",
   "theorems": [
    "Mito.Summit.summit_write_succeeds",
    "Mito.Summit.summit_read_write",
    "Mito.Summit.summit_round_trip_partial",
    "Mito.Summit.summit_element_type_fails",
    "Mito.Summit.summit_nodes_fail"
   ],
   "note": "Proved for files without element type, up to nodes that share a point; false with an element type and two or more cells (assertion), and nodes sharing a point are merged (witness)."
  },
  {
   "property": "C47",
   "status": "proved",
   "theorems": [
    "Mito.VTK.vtk_grid",
    "Mito.VTK.vtk_mesh_grid",
    "Mito.VTK.vtk_field",
    "Mito.VTK.vtk_cloud"
   ],
   "note": ""
  },
  {
   "property": "C53",
   "status": "proved",
   "theorems": [
    "Mito.DiscreteSystem.equations_number"
   ],
   "note": ""
  },
  {
   "property": "C54",
   "status": "proved",
   "theorems": [
    "Mito.DiscreteSystem.assemble_sum",
    "Mito.DiscreteSystem.computeBlocks_sum",
    "Mito.DiscreteSystem.assemble_symmetric",
    "Mito.DiscreteSystem.assemble_bilinear"
   ],
   "note": ""
  },
  {
   "property": "C55",
   "status": "proved",
   "theorems": [
    "Mito.DiscreteSystem.create_field",
    "Mito.DiscreteSystem.readSolution_field"
   ],
   "note": ""
  },
  {
   "property": "C56",
   "status": "partial",
   "theorems": [
    "Mito.DiscreteSystem.prescribed_fails",
    "Mito.DiscreteSystem.constrained_zero",
    "Mito.DiscreteSystem.prescribed_partial"
   ],
   "note": "False: no prescribed value other than zero is ever imposed, by any solver; proved for zero values."
  },
  {
   "property": "C57",
   "status": "proved",
   "theorems": [
    "Mito.DiscreteSystem.solveTimes_eq",
    "Mito.DiscreteSystem.solve_again",
    "Mito.DiscreteSystem.exact_exists"
   ],
   "note": "For exact solvers and invertible matrices over a field of characteristic zero."
  },
  {
   "property": "C58",
   "status": "proved",
   "theorems": [
    "Mito.Discretizer.p1_shares_nodes",
    "Mito.Discretizer.p1_constrained",
    "Mito.Discretizer.p2_shares_places",
    "Mito.Discretizer.p2_constrained",
    "Mito.Discretizer.p2_constrained_throws"
   ],
   "note": ""
  },
  {
   "property": "C65",
   "status": "proved",
   "theorems": [
    "Mito.DiscreteField.field_value",
    "Mito.DiscreteField.field_throws",
    "Mito.DiscreteField.field_insert_present",
    "Mito.DiscreteField.field_size",
    "Mito.DiscreteField.field_debug",
    "Mito.DiscreteField.field_release",
    "Mito.DiscreteField.field_ofKeys"
   ],
   "note": ""
  },
  {
   "property": "C60",
   "status": "proved",
   "theorems": [
    "Mito.Functions.derivative_correct",
    "Mito.Functions.derivative_iterate",
    "Mito.Functions.smooth_defined"
   ],
   "note": "over the reals; functions built from wrapped functors, determinants, inverses and dyadic products have no rule and do not compile"
  },
  {
   "property": "C61",
   "status": "proved",
   "theorems": [
    "Mito.Functions.partial_correct",
    "Mito.Functions.total_correct",
    "Mito.Functions.partials_correct",
    "Mito.Functions.gradient_correct",
    "Mito.Functions.gradientV_correct",
    "Mito.Functions.jacobian_correct",
    "Mito.Functions.jacobianVS_correct",
    "Mito.Functions.jacobianSV_correct",
    "Mito.Functions.divergence_correct",
    "Mito.Functions.divergenceT_correct",
    "Mito.Functions.gradient_again",
    "Mito.Functions.laplacian_correct",
    "Mito.Functions.gradient_linear",
    "Mito.Functions.gradient_product"
   ],
   "note": "over the reals; the matrix of partial derivatives for vectors and scalars"
  },
  {
   "property": "C62",
   "status": "proved",
   "theorems": [
    "Mito.Functions.pointwise_sums",
    "Mito.Functions.pointwise_quotients",
    "Mito.Functions.pointwise_products",
    "Mito.Functions.pointwise_lin",
    "Mito.Functions.pointwise_comp",
    "Mito.Functions.pointwise_pow",
    "Mito.Functions.pointwise_inverse"
   ],
   "note": "over the reals"
  },
  {
   "property": "C50",
   "status": "proved",
   "theorems": [
    "Mito.Fem.shape_partition",
    "Mito.Fem.shape_seg1_nodal",
    "Mito.Fem.shape_tri1_nodal",
    "Mito.Fem.shape_tri2_nodal",
    "Mito.Fem.shape_seg1_affine",
    "Mito.Fem.shape_tri1_affine",
    "Mito.Fem.shape_tri2_quadratic"
   ],
   "note": "over the reals; for the elements in the code: linear segments, linear and quadratic triangles"
  },
  {
   "property": "C51",
   "status": "proved",
   "theorems": [
    "Mito.Fem.parametrization_nodes",
    "Mito.Fem.jacobian_correct",
    "Mito.Fem.jacobian_entries",
    "Mito.Fem.jacobian_det",
    "Mito.Fem.gradient_correct",
    "Mito.Fem.gradients_zero",
    "Mito.Fem.jacobian_tri2"
   ],
   "note": "over the reals"
  },
  {
   "property": "C52",
   "status": "proved",
   "theorems": [
    "Mito.Fem.gradGrad_symmetric",
    "Mito.Fem.mass_symmetric",
    "Mito.Fem.gradGrad_constants",
    "Mito.Fem.gradGrad_psd",
    "Mito.Fem.mass_psd",
    "Mito.Fem.mass_volume",
    "Mito.Fem.gradGrad_definite",
    "Mito.Fem.gradGrad_seg1"
   ],
   "note": "over the reals; the entries of the mass matrix sum to the volume times the sum of the weights"
  },
  {
   "property": "C59",
   "status": "partial",
   "theorems": [
    "Mito.Fem.h1Norm_fails",
    "Mito.Fem.h1Norm_eq",
    "Mito.Fem.h1Norm_partial"
   ],
   "note": "False: the gradients are parametric; proved when all jacobians are orthogonal."
  },
  {
   "property": "C70",
   "status": "proved",
   "theorems": [
    "Mito.Fem.l2Norm_eq",
    "Mito.Fem.l2Norm_distance",
    "Mito.Fem.l2Norm_inverted"
   ],
   "note": "over the reals"
  },
  {
   "property": "C71",
   "status": "proved",
   "theorems": [
    "Mito.Fem.sourceTerm_total",
    "Mito.Fem.sourceTerm_linear",
    "Mito.Fem.localize_fem",
    "Mito.Fem.localize_fem_gradient",
    "Mito.Fem.localize_field"
   ],
   "note": "over the reals"
  },
  {
   "property": "C48",
   "status": "proved",
   "theorems": [
    "Mito.Quadrature.tables_accurate",
    "Mito.Quadrature.segment1_accurate",
    "Mito.Quadrature.segment2_accurate",
    "Mito.Quadrature.triangle1_accurate",
    "Mito.Quadrature.triangle2_accurate",
    "Mito.Quadrature.triangle3_accurate",
    "Mito.Quadrature.triangle4_accurate",
    "Mito.Quadrature.tetrahedron1_accurate",
    "Mito.Quadrature.tetrahedron2_accurate",
    "Mito.Quadrature.not_more_accurate",
    "Mito.Quadrature.tables_inside",
    "Mito.Quadrature.weights_sum",
    "Mito.Quadrature.mass_tri1"
   ],
   "note": "for the decimal literals as exact rationals and exact real arithmetic"
  },
  {
   "property": "C44",
   "status": "proved",
   "theorems": [
    "Mito.Tensor.oneForm_linear",
    "Mito.Tensor.wedge2_det",
    "Mito.Tensor.wedge3_det",
    "Mito.Tensor.wedge2_bilinear",
    "Mito.Tensor.wedge2_alternating",
    "Mito.Tensor.wedge3_trilinear",
    "Mito.Tensor.wedge3_alternating",
    "Mito.Tensor.wedge_swap",
    "Mito.Tensor.wedge3_tensor"
   ],
   "note": "over the reals"
  },
  {
   "property": "C45",
   "status": "partial",
   "theorems": [
    "Mito.Tensor.wedge12_fails",
    "Mito.Tensor.wedge12_alternating_iff",
    "Mito.Tensor.wedge12_difference",
    "Mito.Tensor.wedge12_partial",
    "Mito.Tensor.wedge12_partial_swap"
   ],
   "note": "False: one term of the alternating sum is missing; proved where it vanishes."
  },
  {
   "property": "C34",
   "status": "proved",
   "theorems": [
    "Mito.Geometry.cartesian_affine",
    "Mito.Geometry.cartesian_midpoint",
    "Mito.Geometry.cartesian_distance",
    "Mito.Geometry.cartesian_barycenter"
   ],
   "note": ""
  },
  {
   "property": "C35",
   "status": "proved",
   "theorems": [
    "Mito.Geometry.polar_algebra",
    "Mito.Geometry.polar_frame",
    "Mito.Geometry.polar_midpoint",
    "Mito.Geometry.polar_distance",
    "Mito.Geometry.polar_barycenter",
    "Mito.Geometry.polar_add_radius"
   ],
   "note": "r = 0 is excluded: the code divides by it"
  },
  {
   "property": "C36",
   "status": "proved",
   "theorems": [
    "Mito.Geometry.spherical_algebra",
    "Mito.Geometry.spherical_frame",
    "Mito.Geometry.spherical_midpoint",
    "Mito.Geometry.spherical_distance",
    "Mito.Geometry.spherical_barycenter",
    "Mito.Geometry.spherical_add_range"
   ],
   "note": "the origin and the axis are excluded: the code divides by r and sin(theta)"
  },
  {
   "property": "C37",
   "status": "proved",
   "theorems": [
    "Mito.Geometry.cartesian_polar_cartesian",
    "Mito.Geometry.cartesian_spherical_cartesian",
    "Mito.Geometry.polar_cartesian_polar",
    "Mito.Geometry.polar_cartesian_polar_eq",
    "Mito.Geometry.spherical_cartesian_spherical",
    "Mito.Geometry.spherical_cartesian_spherical_eq"
   ],
   "note": ""
  },
  {
   "property": "C38",
   "status": "partial",
   "theorems": [
    "Mito.Geometry.coordinateFunction_fails",
    "Mito.Geometry.coordinateFunction_partial"
   ],
   "note": "x_2 returns the second coordinate"
  },
  {
   "property": "C39",
   "status": "proved",
   "theorems": [
    "Mito.Geometry.cartesian_dual",
    "Mito.Geometry.polar_dual",
    "Mito.Geometry.spherical_dual"
   ],
   "note": ""
  },
  {
   "property": "C40",
   "status": "proved",
   "theorems": [
    "Mito.Geometry.cartesian_w",
    "Mito.Geometry.polar_w",
    "Mito.Geometry.spherical_w",
    "Mito.Geometry.volume_cartesian",
    "Mito.Geometry.volume_polar",
    "Mito.Geometry.volume_spherical"
   ],
   "note": ""
  },
  {
   "property": "C41",
   "status": "partial",
   "theorems": [
    "Mito.Geometry.metric_equivalent_fails",
    "Mito.Geometry.metric_equivalent_partial_cartesian",
    "Mito.Geometry.metric_equivalent_partial_polar",
    "Mito.Geometry.metric_equivalent_partial_spherical",
    "Mito.Geometry.metric_equivalent_partial_form"
   ],
   "note": "the conversion of vectors to forms uses the inverse of the metric"
  },
  {
   "property": "C42",
   "status": "proved",
   "theorems": [
    "Mito.Geometry.volume_cartesian",
    "Mito.Geometry.volume_translation",
    "Mito.Geometry.volume_permutation",
    "Mito.Geometry.volume_swap",
    "Mito.Geometry.volume_zero",
    "Mito.Geometry.volume_linear"
   ],
   "note": ""
  },
  {
   "property": "C72",
   "status": "proved",
   "theorems": [
    "Mito.Geometry.cartesian_basis",
    "Mito.Geometry.polar_basis",
    "Mito.Geometry.spherical_basis",
    "Mito.Geometry.gram_cartesian",
    "Mito.Geometry.gram_polar",
    "Mito.Geometry.gram_spherical"
   ],
   "note": ""
  },
  {
   "property": "C73",
   "status": "proved",
   "theorems": [
    "Mito.Geometry.Chart.subVolume",
    "Mito.Geometry.subVolume_segment",
    "Mito.Geometry.subVolume_triangle",
    "Mito.Geometry.parallelotope_one",
    "Mito.Geometry.parallelotope_two"
   ],
   "note": "up to the sign, which depends on the normal fields"
  },
  {
   "property": "C43",
   "status": "proved",
   "theorems": [
    "Mito.Geometry.parametrization_barycentric",
    "Mito.Geometry.parametrization_vertex",
    "Mito.Geometry.parametrization_affine",
    "Mito.Geometry.parametrization_image",
    "Mito.Geometry.parametrization_unique"
   ],
   "note": "Cartesian coordinates"
  },
  {
   "property": "C49",
   "status": "proved",
   "theorems": [
    "Mito.Quadrature.integrate_value",
    "Mito.Quadrature.integrate_aborts",
    "Mito.Quadrature.integrate_release",
    "Mito.Quadrature.integrate_linear",
    "Mito.Quadrature.integrate_append",
    "Mito.Quadrature.integrate_perm",
    "Mito.Quadrature.integrate_const",
    "Mito.Quadrature.integrate_one"
   ],
   "note": ""
  },
  {
   "property": "C74",
   "status": "proved",
   "theorems": [
    "Mito.Quadrature.integral_hull",
    "Mito.Quadrature.volume_hull",
    "Mito.Quadrature.volume_lebesgue",
    "Mito.Quadrature.integrate_accurate",
    "Mito.Quadrature.integrate_exact",
    "Mito.Quadrature.integrate_tables",
    "Mito.Quadrature.rules_accurate"
   ],
   "note": ""
  },
  {
   "property": "C75",
   "status": "proved",
   "theorems": [
    "Mito.Geometry.placeAll_new",
    "Mito.Geometry.placeAll_coordinates",
    "Mito.Geometry.placeAll_strict",
    "Mito.Geometry.placeAll_release",
    "Mito.Geometry.change_eq",
    "Mito.Geometry.change_coordinates",
    "Mito.Geometry.change_round_trip",
    "Mito.Geometry.change_polar",
    "Mito.Geometry.change_spherical",
    "Mito.Geometry.points_placed"
   ],
   "note": ""
  },
  {
   "property": "C63",
   "status": "proved",
   "theorems": [
    "Mito.Materials.LinearElastic.stress_consistent",
    "Mito.Materials.LinearElastic.tangents_consistent",
    "Mito.Materials.LinearElastic.tangents_apply",
    "Mito.Materials.LinearElastic.tangents_symmetric",
    "Mito.Materials.LinearElastic.stress_symmetric",
    "Mito.Materials.LinearElastic.rotation",
    "Mito.Materials.LinearElastic.undeformed",
    "Mito.Materials.LinearElastic.energy_pos",
    "Mito.Materials.stress_unique"
   ],
   "note": "Over the reals."
  },
  {
   "property": "C64",
   "status": "proved",
   "theorems": [
    "Mito.Materials.Gent.stress_consistent",
    "Mito.Materials.Gent.tangents_consistent",
    "Mito.Materials.Gent.tangents_symmetric",
    "Mito.Materials.Gent.undeformed",
    "Mito.Materials.Gent.tangents_undeformed",
    "Mito.Materials.Gent.frame_indifferent"
   ],
   "note": "Over the reals, where the energy is defined: positive determinant and argument of the logarithm. tangents_undeformed: the bulk modulus has no part in the linearisation (finding)."
  },
  {
   "property": "C66",
   "status": "partial",
   "theorems": [
    "Mito.Options.prefix_words",
    "Mito.Options.prefix_read_back",
    "Mito.Options.prefix_empty",
    "Mito.Options.prefix_injective",
    "Mito.Options.prefix_keys_partial",
    "Mito.Options.prefix_corrupts_values",
    "Mito.Options.prefix_misses_tab"
   ],
   "note": "Words are prefixed exactly as documented; negative values are taken for options (witness), so the intended reading holds only if no value starts with a dash."
  },
  {
   "property": "C67",
   "status": "partial",
   "theorems": [
    "Mito.SegVec.vector_destructor",
    "Mito.Repo.repository_destructor_destroys_twice",
    "Mito.Repo.repository_destructor_partial"
   ],
   "note": "Proved for SegmentedVector; Repository destroys erased elements twice (witness), right when nothing was erased."
  },
  {
   "property": "C68",
   "status": "proved",
   "theorems": [
    "Mito.Alloc.destructor_frees_once"
   ],
   "note": ""
  },
  {
   "property": "C69",
   "status": "proved",
   "theorems": [
    "Mito.Alloc.move_empties_source"
   ],
   "note": ""
  },
  {
   "property": "C76",
   "status": "proved",
   "theorems": [
    "Mito.Materials.linearElastic_testStress",
    "Mito.Materials.linearElastic_testTangents",
    "Mito.Materials.linearElastic_wrong_passes",
    "Mito.Materials.testStress_vacuous"
   ],
   "note": "The second half is a finding: the residual is not scaled by the perturbation."
  },
  {
   "property": "C77",
   "status": "proved",
   "theorems": [
    "Mito.Meshes.stokes_segments",
    "Mito.Meshes.stokes_triangles",
    "Mito.Meshes.stokes_tetrahedra",
    "Mito.Meshes.divergence_triangles",
    "Mito.Meshes.area_by_boundary",
    "Mito.Meshes.divergence_tetrahedra",
    "Mito.Meshes.volume_by_boundary",
    "Mito.Meshes.boundary_points_inwards"
   ],
   "note": "The orientation for tetrahedra is a finding."
  },
  {
   "property": "C78",
   "status": "proved",
   "theorems": [
    "Mito.DiscreteSystem.matrix_form",
    "Mito.DiscreteSystem.rhs_load",
    "Mito.DiscreteSystem.matrix_definite",
    "Mito.DiscreteSystem.matrix_isUnit",
    "Mito.DiscreteSystem.matrix_singular",
    "Mito.DiscreteSystem.wellposed_iff",
    "Mito.DiscreteSystem.solve_galerkin",
    "Mito.DiscreteSystem.galerkin_minimises",
    "Mito.Fem.stiff_seg1",
    "Mito.Fem.stiff_tri1",
    "Mito.Fem.stiff_tri2",
    "Mito.Fem.rules_collinear",
    "Mito.Fem.tri2_underintegrated",
    "Mito.Fem.elliptic_poisson",
    "Mito.Fem.poisson_wellposed",
    "Mito.Fem.poisson_solved"
   ],
   "note": "exact arithmetic and an exact solver"
  },
  {
   "property": "C79",
   "status": "proved",
   "theorems": [
    "Mito.Fem.nodal_galerkin",
    "Mito.Fem.nodal_solved",
    "Mito.Fem.nodal_exactness",
    "Mito.Fem.nodal_constant",
    "Mito.Fem.segment_rules"
   ],
   "note": "exact arithmetic and an exact solver"
  },
  {
   "property": "C80",
   "status": "proved",
   "theorems": [
    "Mito.Meshes.components_segments",
    "Mito.Meshes.components_triangles",
    "Mito.Meshes.components_tetrahedra",
    "Mito.Fem.dirichlet_seg1",
    "Mito.Fem.dirichlet_tri1",
    "Mito.Fem.dirichlet_tri2"
   ],
   "note": "exact arithmetic and an exact solver; one node per vertex and positive cells are preconditions"
  },
  {
   "property": "C81",
   "status": "proved",
   "theorems": [
    "Mito.DiscreteSystem.nonneg_solution",
    "Mito.Fem.gradGrad_tri1",
    "Mito.Fem.offDiagonal_tri1",
    "Mito.Fem.offDiagonal_seg1",
    "Mito.Fem.load_tri1",
    "Mito.Fem.load_seg1",
    "Mito.Fem.poisson_nonneg"
   ],
   "note": "exact arithmetic and an exact solver"
  },
  {
   "property": "C82",
   "status": "proved",
   "theorems": [
    "Mito.Fem.patch_seg1",
    "Mito.Fem.patch_tri1",
    "Mito.Fem.patch_tri2",
    "Mito.Fem.rules_centred"
   ],
   "note": "exact arithmetic; one node per vertex and positive cells are preconditions"
  },
  {
   "property": "C83",
   "status": "proved",
   "theorems": [
    "Mito.Topology.sanityCheck_iff",
    "Mito.Topology.sanityCheck_of_vertices",
    "Mito.Topology.sanityCheck_fails",
    "Mito.Topology.isValid_tetrahedron_iff",
    "Mito.Topology.sanityCheck_tetrahedron"
   ],
   "note": ""
  },
  {
   "property": "C84",
   "status": "proved",
   "theorems": [
    "Mito.Meshes.flip_cell",
    "Mito.Meshes.flip_cell_defined",
    "Mito.Meshes.flip_cell_twice",
    "Mito.Meshes.mem_getNodes"
   ],
   "note": ""
  },
  {
   "property": "C85",
   "status": "proved",
   "theorems": [
    "Mito.Quadrature.apply_renumber",
    "Mito.Quadrature.integrate_renumber",
    "Mito.Quadrature.integrate_flip",
    "Mito.Quadrature.volume_renumber",
    "Mito.Quadrature.subVolume_renumber",
    "Mito.Quadrature.subVolume_order_fails",
    "Mito.Quadrature.rules_symmetric"
   ],
   "note": "exact arithmetic"
  },
  {
   "property": "C86",
   "status": "proved",
   "theorems": [
    "Mito.Refine.refine_size",
    "Mito.Refine.refine_size_tetrahedra",
    "Mito.Refine.refine_size_tight",
    "Mito.Refine.refine_size_tends"
   ],
   "note": "exact arithmetic"
  },
  {
   "property": "C87",
   "status": "partial",
   "theorems": [
    "Mito.Refine.refine_similar",
    "Mito.Refine.refine_corners_partial",
    "Mito.Refine.refine_stretches",
    "Mito.Refine.refine_degenerates"
   ],
   "note": "false for tetrahedra; true for segments and triangles"
  },
  {
   "property": "C88",
   "status": "proved",
   "theorems": [
    "Mito.Quadrature.refine_integral_variation",
    "Mito.Quadrature.refine_integral_error",
    "Mito.Quadrature.refine_integral_error_tetrahedra",
    "Mito.Quadrature.refine_integral_order",
    "Mito.Quadrature.refine_integral_converges",
    "Mito.Quadrature.mesh_integral",
    "Mito.Quadrature.rules_converge"
   ],
   "note": "exact arithmetic"
  },
  {
   "property": "C89",
   "status": "partial",
   "theorems": [
    "Mito.Refine.refine_shape",
    "Mito.Refine.refine_steps",
    "Mito.Refine.refine_steps_count_partial",
    "Mito.Refine.refine_steps_fails"
   ],
   "note": "false for tetrahedra; true for segments and triangles"
  },
  {
   "property": "C90",
   "status": "proved",
   "theorems": [
    "Mito.Fem.poisson_error",
    "Mito.Fem.poisson_error_l2",
    "Mito.Fem.poisson_order",
    "Mito.Fem.poisson_order_l2",
    "Mito.Fem.poisson_converges",
    "Mito.Fem.exUnitFan_triangulates"
   ],
   "note": "exact arithmetic and an exact solver; one node per vertex and positive cells are preconditions"
  },
  {
   "property": "C91",
   "status": "partial",
   "theorems": [
    "Mito.Summit.reader_valid",
    "Mito.Summit.summit_truncated",
    "Mito.Summit.summit_truncated_release",
    "Mito.Summit.summit_trailing",
    "Mito.Summit.summit_damaged_fails"
   ],
   "note": "False for the code: a file cut within the nodes of a cell makes the reader look at node minus one, and without assertions other cuts are read as meshes with fewer cells (summit_damaged_fails). What is read is well formed for every file, and what happens is known for every place to cut a written file. Files without element type, at least one cell."
  },
  {
   "property": "C92",
   "status": "partial",
   "theorems": [
    "Mito.Fem.refined_all_on_boundary",
    "Mito.Fem.refined_segments",
    "Mito.Fem.refined_boundary",
    "Mito.Fem.poisson_refined_zero",
    "Mito.Fem.poisson_refined_error"
   ],
   "note": "False for the code: after one refinement all nodes of meshes of triangles or tetrahedra are on the boundary, and the discrete solution is zero for every source, so that the error is the norm of the solution. Segments are refined properly (refined_segments). Exact arithmetic."
  },
  {
   "property": "C93",
   "status": "proved",
   "theorems": [
    "Mito.Fem.segments_error",
    "Mito.Fem.segments_error_l2",
    "Mito.Fem.segments_order",
    "Mito.Fem.segments_order_l2",
    "Mito.Fem.boundary_once",
    "Mito.Fem.segments_refined",
    "Mito.Fem.segments_refined_l2",
    "Mito.Fem.segments_rules"
   ],
   "note": "exact arithmetic and an exact solver; one node per vertex and positive segments are preconditions"
  },
  {
   "property": "C94",
   "status": "partial",
   "theorems": [
    "Mito.Handles.no_misuse_iff",
    "Mito.Handles.released_iff_clean",
    "Mito.Handles.solve_current",
    "Mito.Handles.solvers_released",
    "Mito.Handles.handles_fail"
   ],
   "note": "False for the code: destructors release nothing, a solver destroys its linear system (so that other solvers cannot be used any more), copies share their objects, and a solver whose linear system is created again keeps the old matrix (handles_fail). For programs without copies the orders of calls that misuse nothing and those that release everything are characterised exactly. Reference counting by PETSc is an assumption."
  },
  {
   "property": "C95",
   "status": "proved",
   "theorems": [
    "Mito.nearest_rounds",
    "Mito.Refine.refine_rounded",
    "Mito.Refine.tetraWith_midpoint",
    "Mito.Refine.midpoint_asymmetric",
    "Mito.Quadrature.integrate_rounded",
    "Mito.Quadrature.triangles_rounded"
   ],
   "note": "no overflow, no underflow; products with zero and one are exact; Cartesian coordinates; the error of the evaluation of the function is a parameter. Two neighbours compute the midpoint of their edge differently (midpoint_asymmetric)."
  },
  {
   "property": "C96",
   "status": "partial",
   "theorems": [
    "Mito.Quadrature.divergence_theorem",
    "Mito.Quadrature.divergence_theorem_exact",
    "Mito.Quadrature.divergence_theorem_tetrahedra",
    "Mito.Quadrature.divergence_theorem_fails",
    "Mito.Quadrature.corner_normals_fail"
   ],
   "note": "true for triangles, whatever the signs of the normals (divergence_theorem, divergence_theorem_exact). False for tetrahedra: the integral over the boundary has the opposite sign for every normal field (divergence_theorem_tetrahedra, witness divergence_theorem_fails), since boundary faces point inwards (C77). The normal at the first node of a boundary cell needs the component one along the normal of the cell; the sum of the normals of both sides, as in the test, has it at right angles only (corner_normals_fail)."
  },
  {
   "property": "C97",
   "status": "proved",
   "theorems": [
    "Mito.Fem.poisson_order_tri2",
    "Mito.Fem.poisson_order_tri2_l2",
    "Mito.Fem.rule_quadratic",
    "Mito.Fem.exUnitFan_quadratic"
   ],
   "note": "exact arithmetic and an exact solver; one node per vertex and positive cells are preconditions"
  },
  {
   "property": "C98",
   "status": "proved",
   "theorems": [
    "Mito.Load.load_succeeds",
    "Mito.Load.load_triangulates",
    "Mito.Load.load_fine",
    "Mito.Load.load_vanishes",
    "Mito.Load.poisson_file",
    "Mito.Load.square_file",
    "Mito.Load.poisson_square",
    "Mito.Load.clockwise_accepted"
   ],
   "note": "exact arithmetic (pi included) and an exact solver. The reader does not check orientations: clockwise triangles are accepted and the area is negative (clockwise_accepted), so positive areas are a precondition."
  },
  {
   "property": "C99",
   "status": "proved",
   "theorems": [
    "Mito.Fem.h1Norm_le_l2",
    "Mito.Fem.l2Norm_le_h1",
    "Mito.Fem.h1Norm_le_l2Norm_seg",
    "Mito.Fem.h1Norm_le_l2Norm_tri",
    "Mito.Fem.h1Norm_small",
    "Mito.Fem.h1Norm_no_bound",
    "Mito.Fem.h1Norm_not_equivalent"
   ],
   "note": "over the reals. Quantifies the defect of C59: the norm says nothing about gradients on fine meshes."
  },
  {
   "property": "C100",
   "status": "proved",
   "theorems": [
    "Mito.Fem.poisson_conditioned",
    "Mito.Fem.poisson_inexact",
    "Mito.Fem.poisson_inexact_l2",
    "Mito.Fem.poisson_order_inexact",
    "Mito.Fem.poisson_stagnates",
    "Mito.DiscreteSystem.relative_zero",
    "Mito.DiscreteSystem.relative_energy"
   ],
   "note": "over the reals; the tolerance is on the residual without preconditioner. Removes the assumption of exact solvers from C90."
  },
  {
   "property": "C101",
   "status": "proved",
   "theorems": [
    "Mito.Load.discontinuous_succeeds",
    "Mito.Load.discontinuous_poisson",
    "Mito.Load.square_discontinuous",
    "Mito.Fem.discontinuous_seg1",
    "Mito.Fem.discontinuous_tri1",
    "Mito.Fem.discontinuous_tri2",
    "Mito.Summit.write_points"
   ],
   "note": "exact arithmetic. There are no jump terms in the code: a discontinuous mesh is one problem per cell."
  },
  {
   "property": "C102",
   "status": "partial",
   "theorems": [
    "Mito.Topology.teardown_safe",
    "Mito.Topology.teardown_exact",
    "Mito.Topology.teardown_counts_wrong",
    "Mito.Topology.exit_safe_iff",
    "Mito.Topology.exit_safe_late",
    "Mito.Topology.slots_exist"
   ],
   "note": "Memory safety and the criterion for static objects hold; the counts are right unless a simplex was erased (witness), since the slots of erased simplices are destroyed again. That destroying an object twice is undefined behaviour is C67."
  },
  {
   "property": "C103",
   "status": "proved",
   "theorems": [
    "Mito.Parallel.tasks_agree",
    "Mito.Parallel.parts_fit",
    "Mito.Parallel.parallel_integral",
    "Mito.Parallel.label_dependent_lost",
    "Mito.Parallel.label_dependent_twice",
    "Mito.Parallel.local_iff",
    "Mito.Parallel.reduce_iff"
   ],
   "note": "METIS is an arbitrary function whose colors depend only on which nodes have equal vertices (`LabelFree`); that this is needed is shown by a witness. MPI_Reduce is the sum; floating point numbers are reals."
  },
  {
   "property": "C104",
   "status": "proved",
   "theorems": [
    "Mito.Session.process_iff",
    "Mito.Session.process_end",
    "Mito.Session.order_matters"
   ],
   "note": "What the calls of MPI and PETSc do is taken from their documentation; PETSc objects that outlive a session are C94."
  },
  {
   "property": "C105",
   "status": "proved",
   "theorems": [
    "Mito.Cloud.run_points",
    "Mito.Cloud.writer_iff",
    "Mito.Cloud.writer_grid",
    "Mito.Cloud.writer_fails",
    "Mito.Cloud.record_iff",
    "Mito.Cloud.field_made"
   ],
   "note": "Points are ids, new points get new ids (C03). That a cloud cannot be written when another coordinate system has nodes of its own is writer_fails."
  },
  {
   "property": "C106",
   "status": "proved",
   "theorems": [
    "Mito.FileNames.numbered_inj",
    "Mito.FileNames.dataFile_eq_iff",
    "Mito.FileNames.no_clash_iff",
    "Mito.FileNames.parallel_no_clash",
    "Mito.FileNames.summary_different",
    "Mito.FileNames.summary_name"
   ],
   "note": "Files are their names; the pieces that VTK writes by itself are left out."
  },
  {
   "property": "C107",
   "status": "proved",
   "theorems": [
    "Mito.Fem.weakform_poisson",
    "Mito.Fem.weakform_wellposed_iff",
    "Mito.Fem.mass_wellposed",
    "Mito.Fem.reaction_wellposed",
    "Mito.Fem.mass_singular",
    "Mito.Fem.unisolvent_seg1",
    "Mito.Fem.unisolvent_tri1",
    "Mito.Fem.unisolvent_tri2",
    "Mito.Fem.mass_tri2",
    "Mito.Fem.reaction_tri1",
    "Mito.Fem.weakform_solved",
    "Mito.Fem.projection_pythagoras",
    "Mito.Fem.projection_best",
    "Mito.Fem.projection_exact",
    "Mito.Fem.represents_polynomials",
    "Mito.Fem.reaction_stable"
   ],
   "note": "Exact arithmetic and an exact solver, as in C78; the blocks outlive the weak form."
  },
  {
   "property": "C108",
   "status": "proved",
   "theorems": [
    "Mito.Lifetimes.supported_defined",
    "Mito.Lifetimes.scoped_defined",
    "Mito.Lifetimes.benchmark_defined",
    "Mito.Lifetimes.destroy_frame",
    "Mito.Lifetimes.solve_defined_iff",
    "Mito.Lifetimes.addBlock_adds",
    "Mito.Lifetimes.norm_defined_iff",
    "Mito.Lifetimes.setup_objects",
    "Mito.Lifetimes.integrate_defined_iff",
    "Mito.Lifetimes.solve_without_manifold",
    "Mito.Lifetimes.solve_without_mesh_iff",
    "Mito.Lifetimes.temporary_block",
    "Mito.Lifetimes.temporary_field",
    "Mito.Lifetimes.late_block",
    "Mito.Lifetimes.temporary_tolerance",
    "Mito.Lifetimes.local_mesh"
   ],
   "note": "Only which object touches which is modelled; meshes have cells. Changes of a mesh while it is referred to are C109."
  },
  {
   "property": "C109",
   "status": "partial",
   "theorems": [
    "Mito.Snapshot.element_now",
    "Mito.Snapshot.element_kept",
    "Mito.Snapshot.monotone_kept",
    "Mito.Snapshot.exchange",
    "Mito.Snapshot.exchange_stale",
    "Mito.Snapshot.exchange_example",
    "Mito.Snapshot.elements_made",
    "Mito.Snapshot.hybrid_blocks",
    "Mito.Snapshot.hybrid_source_iff",
    "Mito.Snapshot.hybrid_self",
    "Mito.Snapshot.integrateLater_self",
    "Mito.Snapshot.integrateLater_throws",
    "Mito.Snapshot.integrateLater_value",
    "Mito.Snapshot.writeLater_self",
    "Mito.Snapshot.writeLater_isSome",
    "Mito.Snapshot.read_writeLater",
    "Mito.Snapshot.orphan_points"
   ],
   "note": "False if cells are erased and others inserted: the element made from the i-th erased cell finds the i-th inserted one, so that source terms mix two triangles (exchange, hybrid_blocks). Proved: elements whose cells are not erased, and all elements if cells are only inserted or only erased, find the cells they were made from; integrators are right after erasures and throw after insertions; files of writers keep the points of erased cells, and writing throws if there are new points."
  },
  {
   "property": "C110",
   "status": "partial",
   "theorems": [
    "Mito.Distributed.rows_split",
    "Mito.Distributed.getSolution_defined_iff",
    "Mito.Distributed.getSolution_last",
    "Mito.Distributed.matrix_sum",
    "Mito.Distributed.rhs_owner",
    "Mito.Distributed.assembled_rhs_sum",
    "Mito.Distributed.inserted_alike",
    "Mito.Distributed.tasks_matrix",
    "Mito.Distributed.solveTasks_cases",
    "Mito.Distributed.solveTasks_one",
    "Mito.Distributed.replicated_system",
    "Mito.Distributed.replicated_solution",
    "Mito.Distributed.replicated_inserts",
    "Mito.Distributed.numbering_mixes",
    "Mito.Distributed.parts_collide"
   ],
   "note": "False with two or more tasks: get_solution reads beyond the rows of its task (getSolution_defined_iff, solveTasks_cases), the right-hand side is not assembled so that k equal tasks compute the solution divided by k (replicated_solution), and equation numbers of different tasks coincide (numbering_mixes, parts_collide). Proved: with one task the program is that of C54 to C57 (solveTasks_one); the matrix is the sum over the tasks in any order of arrival; systems that all tasks insert alike are right (inserted_alike); with an assembled right-hand side k equal tasks would compute the solution."
  },
  {
   "property": "C111",
   "status": "proved",
   "theorems": [
    "Mito.Functions.derivatives_perm",
    "Mito.Functions.derivatives_values",
    "Mito.Functions.gradientV_again",
    "Mito.Functions.divergence_again",
    "Mito.Functions.gradient_derivative",
    "Mito.Functions.gradientV_derivative",
    "Mito.Functions.divergence_derivative",
    "Mito.Functions.hessian_symmetric",
    "Mito.Functions.div_grad_transposed",
    "Mito.Functions.div_grad",
    "Mito.Functions.divergence_product",
    "Mito.Functions.divergence_linear",
    "Mito.Functions.gradient_comp",
    "Mito.Functions.laplacian_product",
    "Mito.Functions.jacobian_gradient",
    "Mito.Functions.divergence_trace"
   ],
   "note": ""
  },
  {
   "property": "C112",
   "status": "partial",
   "theorems": [
    "Mito.Geometry.gradientForm_basis",
    "Mito.Geometry.gradientVector_formula",
    "Mito.Geometry.gradientVector_correct",
    "Mito.Geometry.fieldsGradient_iff",
    "Mito.Geometry.cartesian_gradient",
    "Mito.Geometry.polar_gradient",
    "Mito.Geometry.spherical_gradient",
    "Mito.Geometry.polar_fieldsGradient_iff",
    "Mito.Geometry.polar_divergence",
    "Mito.Geometry.polar_fieldsDivergence_iff",
    "Mito.Geometry.spherical_divergence",
    "Mito.Geometry.fieldsGradient_fails",
    "Mito.Geometry.fieldsDivergence_fails"
   ],
   "note": "False for fields::gradient and fields::divergence in polar and spherical coordinates, which ignore the metric: fieldsGradient_fails, fieldsDivergence_fails; fieldsGradient_iff and polar_fieldsDivergence_iff say where they are right. Proved: the gradient form with the metric gives the gradient in all three coordinate systems; in cartesian coordinates fields::gradient does, too; the divergence in polar and spherical coordinates in terms of the partial derivatives."
  },
  {
   "property": "C113",
   "status": "proved",
   "theorems": [
    "Mito.Load.load_simplices",
    "Mito.Load.load_boundary",
    "Mito.Load.load_tetrahedra",
    "Mito.Load.cube_file",
    "Mito.Load.cube_loaded",
    "Mito.Load.sphere_closed",
    "Mito.Load.disagreeing_triangles"
   ],
   "note": ""
  },
  {
   "property": "C114",
   "status": "partial",
   "theorems": [
    "Mito.VTK.points_placed",
    "Mito.VTK.points_distance",
    "Mito.VTK.makeWriter_sound",
    "Mito.VTK.record_iff",
    "Mito.VTK.record_order",
    "Mito.VTK.run_sound",
    "Mito.VTK.run_shows",
    "Mito.VTK.run_origin",
    "Mito.VTK.run_keeps",
    "Mito.VTK.record_congr",
    "Mito.VTK.p2_midsides_hidden",
    "Mito.VTK.drawn_cell",
    "Mito.VTK.drawn_affine",
    "Mito.VTK.arrow_cartesian",
    "Mito.VTK.arrow_iff",
    "Mito.VTK.arrow_polar",
    "Mito.VTK.arrow_spherical",
    "Mito.VTK.same_name_lost",
    "Mito.VTK.recorded_again"
   ],
   "note": "Points, arrays and drawn values are as stated; arrows are wrong in polar coordinates except on the axis and in spherical coordinates, and have the right length (arrow_iff, arrow_polar, arrow_spherical); the values of second order elements at midsides are not in the file (p2_midsides_hidden)."
  },
  {
   "property": "C115",
   "status": "partial",
   "theorems": [
    "Mito.Topology.edges_triangle",
    "Mito.Topology.edges_flip",
    "Mito.Topology.edges_tetrahedron",
    "Mito.Topology.edges_tetrahedron_only",
    "Mito.Topology.edges_tetrahedron_both",
    "Mito.Topology.edges_tetrahedron_card",
    "Mito.Topology.edges_tetrahedron_new",
    "Mito.Topology.edges_run_backwards",
    "Mito.Topology.edges_depend_on_history"
   ],
   "note": "True up to direction: the sides of a triangle, all edges of a tetrahedron and nothing else. The sides of a negatively oriented triangle run backwards (edges_run_backwards), and a tetrahedron reports 12, 9 or 8 oriented edges depending on which faces existed before (edges_tetrahedron_card, edges_depend_on_history); twelve if none did (edges_tetrahedron_new)."
  },
  {
   "property": "C116",
   "status": "proved",
   "theorems": [
    "Mito.Topology.runs_do_not_depend_on_addresses",
    "Mito.Topology.runs_end_for_all_addresses",
    "Mito.Topology.calls_want_arguments",
    "Mito.Topology.sample_runs",
    "Mito.Topology.answers_do_not_depend_on_addresses",
    "Mito.Topology.order_of_vertices_depends_on_addresses"
   ],
   "note": "Same number and same state up to a renaming that is injective on what is alive. 58 addresses for each call suffice. The order of `vertices()` of a footprint does depend on the addresses (order_of_vertices_depends_on_addresses)."
  },
  {
   "property": "C117",
   "status": "proved",
   "theorems": [
    "Mito.Topology.topology_tests_pass",
    "Mito.Topology.wrong_tests_fail",
    "Mito.Topology.topology_tests_end"
   ],
   "note": "Transcribed tests, run once in the kernel and carried over to all addresses by C116. It also checks the model against what the repository expects of the code. The test of flip_diagonal is left out (C32, C33)."
  },
  {
   "property": "C118",
   "status": "proved",
   "theorems": [
    "Mito.SegVec.vector_is_a_list_of_slots",
    "Mito.SegVec.vectors_do_not_depend_on_addresses",
    "Mito.SegVec.memory_exists",
    "Mito.SegVec.vector_tests_pass",
    "Mito.SegVec.wrong_vector_tests_fail",
    "Mito.SegVec.loop_over_indices_misses"
   ],
   "note": "New blocks must be disjoint from the old ones (FreshMemory), and memory_exists shows that this can be met. loop_over_indices_misses is the finding about the loop of segmented_vector_print.cc."
  },
  {
   "property": "C119",
   "status": "proved",
   "theorems": [
    "Mito.SharedPointer.shared_pointer_tests_pass",
    "Mito.SharedPointer.passes_iff",
    "Mito.Repo.repository_tests_pass",
    "Mito.Repo.rtest_undefined",
    "Mito.Repo.wrong_repository_test_fails"
   ],
   "note": "Transcribed tests run in the kernel. use_count() of std::shared_ptr is written out as a number. The eighth pointer test (placement into a segment) has no reference counts and is left out."
  },
  {
   "property": "C120",
   "status": "proved",
   "theorems": [
    "Mito.Fem.mass_segment_close",
    "Mito.Fem.mass_linear_close",
    "Mito.Fem.mass_quadratic_close",
    "Mito.Fem.mass_quadratic_low_degree",
    "Mito.Fem.gradGrad_quadratic",
    "Mito.Fem.gradGrad_quadratic_close",
    "Mito.Fem.weights_close",
    "Mito.Fem.mass_tests_pass",
    "Mito.Fem.gradGrad_tests_pass"
   ],
   "note": "Exact arithmetic with the decimal tables of the code. The stiffness of segments and linear triangles for every rule is gradGrad_seg1 (C52) and gradGrad_tri1 (C81). The first two stiffness tests ask for an error of zero to machine precision, which is met up to 2e-24 here."
  },
  {
   "property": "C121",
   "status": "partial",
   "theorems": [
    "Mito.MeshPrograms.careful_programs_keep_the_mesh",
    "Mito.MeshPrograms.careful_calls_stay",
    "Mito.MeshPrograms.erasing_never_fails",
    "Mito.MeshPrograms.is_on_boundary_iff",
    "Mito.MeshPrograms.boundary_size_eq",
    "Mito.MeshPrograms.mesh_runs_do_not_depend_on_addresses",
    "Mito.MeshPrograms.mesh_runs_end_for_all_addresses",
    "Mito.MeshPrograms.mesh_answers_do_not_depend_on_addresses",
    "Mito.MeshPrograms.mesh_tests_pass",
    "Mito.MeshPrograms.mesh_tests_end",
    "Mito.MeshPrograms.erased_simplex_breaks_the_mesh",
    "Mito.MeshPrograms.stale_orientations",
    "Mito.MeshPrograms.insert_of_erased_cell_fails",
    "Mito.MeshPrograms.erased_cell_keeps_its_simplex",
    "Mito.MeshPrograms.erase_through_another_handle"
   ],
   "note": "False for all programs: erasing the simplex of a cell that is still in the mesh leaves a null handle in the mesh and orientations at an address that may come back (erased_simplex_breaks_the_mesh, stale_orientations). Proved for careful programs: the simplex of a cell is erased only after the cell, and no erased cell is inserted again."
  },
  {
   "property": "C122",
   "status": "proved",
   "theorems": [
    "Mito.Quadrature.rnd_rounds",
    "Mito.Quadrature.weights_checked",
    "Mito.Quadrature.checked_by_rounding",
    "Mito.Quadrature.check_depends_on_order",
    "Mito.Quadrature.check_is_sound",
    "Mito.Quadrature.parametric_tests_pass",
    "Mito.Quadrature.integrate_in_doubles",
    "Mito.Quadrature.square_test_passes",
    "Mito.Quadrature.comparisons"
   ],
   "note": "Double arithmetic without over- and underflow, every operation rounded separately (no fused multiply-add). The cosine of the square test is left out."
  },
  {
   "property": "C123",
   "status": "proved",
   "theorems": [
    "Mito.Fem.arith_exact",
    "Mito.Fem.arith_in_doubles",
    "Mito.Fem.arith_error",
    "Mito.Fem.shapes_are_arith",
    "Mito.Fem.shape_tests_pass",
    "Mito.Fem.partition_fails",
    "Mito.Fem.partition_on_segments",
    "Mito.Fem.partition_on_triangles"
   ],
   "note": "Double arithmetic without over- and underflow, every operation rounded separately. The gradients of the tests need the inverse of pyre and are left out."
  },
  {
   "property": "C124",
   "status": "proved",
   "theorems": [
    "Mito.Functions.tensor_derivative_correct",
    "Mito.Functions.at_bijective",
    "Mito.Functions.at_mat",
    "Mito.Functions.tensor_derivative_again",
    "Mito.Functions.tensor_derivative_vectors",
    "Mito.Functions.tensor_derivative_twice",
    "Mito.Functions.quotient_error",
    "Mito.Functions.quotient_differs",
    "Mito.Functions.Tests.higher_order",
    "Mito.Functions.Tests.chain_rule_scalar",
    "Mito.Functions.Tests.chain_rule_vector",
    "Mito.Functions.Tests.constants",
    "Mito.Functions.Tests.inverse_functions",
    "Mito.Functions.Tests.product",
    "Mito.Functions.Tests.reciprocal",
    "Mito.Functions.Tests.powers",
    "Mito.Functions.Tests.scalar_product",
    "Mito.Functions.Tests.subscripts",
    "Mito.Functions.Tests.sums",
    "Mito.Functions.Tests.linear_combination",
    "Mito.Functions.Tests.components",
    "Mito.Functions.Tests.scalar_of_vector",
    "Mito.Functions.Tests.scalar_of_matrix",
    "Mito.Functions.Tests.vector_of_scalar",
    "Mito.Functions.Tests.vector_of_vector",
    "Mito.Functions.Tests.vector_of_matrix",
    "Mito.Functions.Tests.matrix_of_scalar",
    "Mito.Functions.Tests.matrix_of_vector",
    "Mito.Functions.Tests.matrix_of_matrix",
    "Mito.Functions.Tests.algebra",
    "Mito.Functions.Tests.algebra_at_the_point",
    "Mito.Functions.Tests.tensor_algebra"
   ],
   "note": "Values that are tensors with one component are left out: the code does not subscript them."
  },
  {
   "property": "C125",
   "status": "proved",
   "theorems": [
    "Mito.Tensor.contraction_correct",
    "Mito.Tensor.contraction_compiles_iff",
    "Mito.Tensor.contraction_small",
    "Mito.Tensor.call_all",
    "Mito.Tensor.call_forms",
    "Mito.Tensor.contraction_steps",
    "Mito.Tensor.contraction_tests",
    "Mito.Tensor.contraction_fails",
    "Mito.Tensor.volume_contraction"
   ],
   "note": "The overload resolution of the operators is part of the model; real numbers for double."
  },
  {
   "property": "C126",
   "status": "partial",
   "theorems": [
    "Mito.Functions.Tests.scalar_field",
    "Mito.Functions.Tests.vector_field",
    "Mito.Functions.Tests.identity_field",
    "Mito.Functions.Tests.fields_values",
    "Mito.Functions.Tests.non_square",
    "Mito.Functions.Tests.polar_fields",
    "Mito.Functions.Tests.spherical_fields",
    "Mito.Functions.Tests.polar_metric_field",
    "Mito.Functions.Tests.spherical_metric_field",
    "Mito.Functions.Tests.spherical_point_singular",
    "Mito.Functions.Tests.metrics",
    "Mito.Functions.Tests.transformation_midpoint",
    "Mito.Functions.Tests.transformation_partial",
    "Mito.Functions.Tests.transformation_fails",
    "Mito.Combinatorics.permutation_tests"
   ],
   "note": "False for the polar coordinates of the middle: the polar algebra does not bring the angle back into the range of atan2 (transformation_fails); true where it stays in the range (transformation_partial)."
  },
  {
   "property": "C127",
   "status": "partial",
   "theorems": [
    "Mito.Python.getItem_defined",
    "Mito.Python.zip_first_defined",
    "Mito.Python.zip_second_defined",
    "Mito.Python.zip_second_value",
    "Mito.Python.zip_tests_undefined",
    "Mito.Python.zip_tests_exchanged",
    "Mito.Python.iterate_reads",
    "Mito.Python.iterate_undefined",
    "Mito.Python.lifetimes_fail",
    "Mito.Python.integrate_test",
    "Mito.Python.integrator_undefined_iff",
    "Mito.Python.integrate_undefined_iff",
    "Mito.Python.run_typed",
    "Mito.Python.simple_defined",
    "Mito.Python.kept_defined",
    "Mito.Python.kept_same"
   ],
   "note": "False: zip, list and unpacking read past the coordinates (zip_tests_undefined, iterate_undefined), and manifolds and integrators do not keep alive what they refer to (lifetimes_fail). True for programs that bind each variable once (simple_defined), and for all programs if the bindings declared keep_alive (kept_defined), which changes nothing else (kept_same)."
  },
  {
   "property": "C128",
   "status": "partial",
   "theorems": [
    "Mito.Geometry.total_polar",
    "Mito.Geometry.total_of_polar",
    "Mito.Geometry.total_spherical",
    "Mito.Geometry.subTotal_spherical",
    "Mito.Geometry.spherical_singular",
    "Mito.Geometry.disk_area",
    "Mito.Geometry.halfBall_volume",
    "Mito.Geometry.halfBall_spherical",
    "Mito.Geometry.halfBall_fails",
    "Mito.Geometry.halfSphere_area",
    "Mito.Geometry.halfSphere_spherical",
    "Mito.Geometry.halfSphere_fails",
    "Mito.Geometry.determinantVolume_eq",
    "Mito.Geometry.cube_test",
    "Mito.Geometry.triangle_area",
    "Mito.Geometry.triangle_test",
    "Mito.Geometry.rebuilt_form_iff"
   ],
   "note": "False for cells that start on the axis, where the spherical algebra divides by zero: three tetrahedra of the half ball and four triangles of the half sphere do (halfBall_fails, halfSphere_fails). True for all meshes without such cells (total_polar, total_spherical, subTotal_spherical), and for the disk, the cube and the two other meshes in cartesian coordinates."
  },
  {
   "property": "C129",
   "status": "partial",
   "theorems": [
    "Mito.CosineTests.exact_value",
    "Mito.CosineTests.exact_wrong",
    "Mito.CosineTests.square_test",
    "Mito.CosineTests.parallel_test",
    "Mito.CosineTests.python_test",
    "Mito.CosineTests.four_test",
    "Mito.CosineTests.four_polynomials",
    "Mito.CosineTests.benchmark_error"
   ],
   "note": "False for the number of the tests: the integral is 9.5e-9 to 9.7e-9 larger (exact_wrong). True up to the tolerances of the tests: square_test and parallel_test within 7e-10, python_test, four_test; polynomials are exact (four_polynomials), and the benchmark converges (benchmark_error)."
  },
  {
   "property": "C130",
   "status": "proved",
   "theorems": [
    "Mito.Benchmarks.arrayDet_eq",
    "Mito.Benchmarks.arrayInverse_eq",
    "Mito.Benchmarks.gent_eq",
    "Mito.Benchmarks.gent_benchmark",
    "Mito.Benchmarks.gent_defined",
    "Mito.Benchmarks.wedge_eq",
    "Mito.Benchmarks.laplacian_eq",
    "Mito.Benchmarks.laplacian_diagonal"
   ],
   "note": ""
  },
  {
   "property": "C131",
   "status": "proved",
   "theorems": [
    "Mito.Meshes.filter_filter",
    "Mito.Meshes.filter_test"
   ],
   "note": ""
  },
  {
   "property": "C132",
   "status": "partial",
   "theorems": [
    "Mito.Load.boundary_positive",
    "Mito.Load.load_boundary_closed",
    "Mito.Load.ball_test",
    "Mito.Load.fan_not_closed"
   ],
   "note": "False for files with a face that occurs twice in the same direction, which the reader accepts (fan_not_closed). True for all other files (load_boundary_closed), and the file of the test is one of them (ball_test)."
  },
  {
   "property": "C133",
   "status": "partial",
   "theorems": [
    "Mito.Fem.field_program",
    "Mito.Fem.affine_triangles",
    "Mito.Fem.affine_segments",
    "Mito.Fem.fem_field_test",
    "Mito.Fem.quadratic_program",
    "Mito.Fem.quadratic_test_fails",
    "Mito.Fem.quadratic_reproduced",
    "Mito.Fem.localize_gradient",
    "Mito.Fem.localize_field_test"
   ],
   "note": "False for second-order triangles: the nodes at the midpoints of the edges are not in the map from the nodes of the mesh, so the program leaves zero there (quadratic_program, quadratic_test_fails). True for first-order triangles and segments on every mesh (affine_triangles, affine_segments); with the right values at all nodes the second-order triangles reproduce quadratic functions (quadratic_reproduced)."
  },
  {
   "property": "C134",
   "status": "proved",
   "theorems": [
    "Mito.Load.boundary_nodes",
    "Mito.Load.dirichlet_test",
    "Mito.Load.disk_closed"
   ],
   "note": ""
  },
  {
   "property": "C135",
   "status": "partial",
   "theorems": [
    "Mito.Load.load_repeated",
    "Mito.Load.load_isSome_iff",
    "Mito.Load.repeated_vertices",
    "Mito.Load.repeated_sign",
    "Mito.Load.repeated_simplex",
    "Mito.Load.repeated_boundary",
    "Mito.Load.twice_boundary"
   ],
   "note": "False for the boundary: the reader accepts a triangle and its reverse, their areas cancel, and the boundary has each edge twice, so that the divergence theorem fails (twice_boundary). True: when loading succeeds (load_repeated, load_isSome_iff), the orientations and the simplices (repeated_sign, repeated_simplex), and that the boundary is that of the file with every cell in the order of the first cell on its nodes (repeated_boundary)."
  },
  {
   "property": "C136",
   "status": "partial",
   "theorems": [
    "Mito.Functions.sqrt_of_square",
    "Mito.Functions.functor_test",
    "Mito.Functions.square_of_sqrt_fails",
    "Mito.Functions.square_of_sqrt"
   ],
   "note": "False for the square of the square root: at 2 it is 2 + 2^-51 (square_of_sqrt_fails). True: the square root of the square is the magnitude for all numbers (sqrt_of_square), both assertions of the test hold (functor_test), and the square of the square root has a relative error of 2^-51 at most (square_of_sqrt)."
  },
  {
   "property": "C137",
   "status": "partial",
   "theorems": [
    "Mito.Printing.written_twice",
    "Mito.Printing.read_back_exactly",
    "Mito.Printing.read_back_error",
    "Mito.Printing.read_back_mono",
    "Mito.Printing.digits_lost",
    "Mito.Printing.segment_lost",
    "Mito.Printing.triangle_reversed"
   ],
   "note": "False for coordinates that need more than 15 digits: they change (digits_lost), a segment may lose its length (segment_lost), and a triangle may change its orientation (triangle_reversed). True: the second file is the first (written_twice), coordinates that come from 15 digits are kept exactly (read_back_exactly), all others change by 5.2e-15 of themselves at most (read_back_error), and their order is kept (read_back_mono)."
  },
  {
   "property": "C138",
   "status": "proved",
   "theorems": [
    "Mito.Printing.number_read",
    "Mito.Printing.chars_tokens",
    "Mito.Printing.chars_twice"
   ],
   "note": ""
  },
  {
   "property": "C139",
   "status": "partial",
   "theorems": [
    "Mito.Printing.chars_cut",
    "Mito.Printing.small_cut",
    "Mito.Printing.digit_lost"
   ],
   "note": "false from ten nodes on: digit_lost (the index of the last node of the last cell loses its last digit, and another node takes its place); chars_cut says what is read from every cut file, and that this is the only way; small_cut: up to nine nodes the property holds"
  },
  {
   "property": "C140",
   "status": "proved",
   "theorems": [
    "Mito.Printing.reader_chars",
    "Mito.Printing.cut_chars",
    "Mito.Printing.readerChars_valid",
    "Mito.Printing.too_many",
    "Mito.Printing.signed_ints",
    "Mito.Printing.negative_nodes",
    "Mito.Printing.glued",
    "Mito.Printing.digit_lost_chars"
   ],
   "note": ""
  },
  {
   "property": "C141",
   "status": "proved",
   "theorems": [
    "Mito.Printing.same_file",
    "Mito.Printing.galerkin_file",
    "Mito.Printing.galerkin_nodes",
    "Mito.Printing.read_write_read",
    "Mito.Printing.kept_iff",
    "Mito.Printing.nodes_lost"
   ],
   "note": ""
  },
  {
   "property": "C142",
   "status": "proved",
   "theorems": [
    "Mito.Midpoints.barycenter_box",
    "Mito.Midpoints.barycenter_const",
    "Mito.Midpoints.refined_box",
    "Mito.Midpoints.midpoint_new",
    "Mito.Midpoints.midpoint_symm",
    "Mito.Midpoints.tests_pass",
    "Mito.Midpoints.order_matters",
    "Mito.Midpoints.no_midpoint"
   ],
   "note": ""
  },
  {
   "property": "C143",
   "status": "partial",
   "theorems": [
    "Mito.RoundedBlocks.nearly_symmetric",
    "Mito.RoundedBlocks.symmetric_of_powers",
    "Mito.RoundedBlocks.diagonal_nonneg",
    "Mito.RoundedBlocks.not_symmetric",
    "Mito.RoundedBlocks.entry_not_symmetric"
   ],
   "note": "False for the code: `factor * dphi_a * dphi_b` is rounded after `factor * dphi_a` (`not_symmetric`, a triangle with integer nodes). Proved: a bound for the difference of the two entries for every rounding, exact symmetry if the factors are powers of two, and that the diagonal is not negative."
  },
  {
   "property": "C144",
   "status": "proved",
   "theorems": [
    "Mito.Barycentric.parametric_round_trip",
    "Mito.Barycentric.barycentric_round_trip",
    "Mito.Barycentric.dN_eval",
    "Mito.Barycentric.dN_onPlane",
    "Mito.Barycentric.dN_correct",
    "Mito.Barycentric.same_shape",
    "Mito.Barycentric.same_gradient",
    "Mito.Barycentric.hard_coded_P1",
    "Mito.Barycentric.hard_coded_iff",
    "Mito.Barycentric.tests_pass",
    "Mito.Barycentric.test_misses"
   ],
   "note": ""
  },
  {
   "property": "C145",
   "status": "proved",
   "theorems": [
    "Mito.Materials.Gent.neoHookean_le",
    "Mito.Materials.Gent.energy_nonneg",
    "Mito.Materials.Gent.energy_eq_zero_iff",
    "Mito.Materials.Gent.stress_rotation",
    "Mito.Materials.Gent.kirchhoff_symmetric",
    "Mito.Materials.Gent.energy_limit",
    "Mito.Materials.Gent.energy_collapse",
    "Mito.Materials.Gent.stress_beyond",
    "Mito.Materials.Gent.negative_Jm"
   ],
   "note": ""
  },
  {
   "property": "C146",
   "status": "proved",
   "theorems": [
    "Mito.Materials.LinearElastic.elliptic_iff",
    "Mito.Materials.LinearElastic.elliptic_range",
    "Mito.Materials.LinearElastic.energy_nonneg_range",
    "Mito.Materials.LinearElastic.elliptic_unstable",
    "Mito.Materials.Gent.elliptic",
    "Mito.Materials.Gent.not_elliptic_beyond"
   ],
   "note": ""
  },
  {
   "property": "C147",
   "status": "proved",
   "theorems": [
    "Mito.RoundedNorms.l2Sum_near",
    "Mito.RoundedNorms.h1Sum_near",
    "Mito.RoundedNorms.l2_near",
    "Mito.RoundedNorms.h1_near",
    "Mito.RoundedNorms.l2_zero_iff",
    "Mito.RoundedNorms.h1_zero_iff",
    "Mito.RoundedNorms.l2_double",
    "Mito.RoundedNorms.h1_double",
    "Mito.RoundedNorms.l2_inverted"
   ],
   "note": "the values of the difference of the fields are given as they are stored"
  },
  {
   "property": "C148",
   "status": "proved",
   "theorems": [
    "Mito.RoundedVolumes.triangle_swap",
    "Mito.RoundedVolumes.tetrahedron_swap",
    "Mito.RoundedVolumes.rnd_odd",
    "Mito.RoundedVolumes.triangle_error",
    "Mito.RoundedVolumes.triangle_sign",
    "Mito.RoundedVolumes.tetrahedron_error",
    "Mito.RoundedVolumes.triangle_exact",
    "Mito.RoundedVolumes.tetrahedron_grid",
    "Mito.RoundedVolumes.tetrahedron_accurate",
    "Mito.RoundedVolumes.rotation_matters",
    "Mito.RoundedVolumes.sign_wrong",
    "Mito.RoundedVolumes.director_zero",
    "Mito.RoundedVolumes.directors_test",
    "Mito.RoundedVolumes.directors_parallel"
   ],
   "note": ""
  },
  {
   "property": "C149",
   "status": "proved",
   "theorems": [
    "Mito.Quadrature.plane_volume",
    "Mito.Quadrature.plane_length",
    "Mito.Quadrature.plane_programs",
    "Mito.Quadrature.plane_divergence_theorem",
    "Mito.Quadrature.tutorials_agree",
    "Mito.Quadrature.height_matters"
   ],
   "note": ""
  },
  {
   "property": "C150",
   "status": "proved",
   "theorems": [
    "Mito.Meshes.flip_volumes",
    "Mito.Meshes.flip_around",
    "Mito.Meshes.flip_conserves",
    "Mito.Meshes.crossing_iff",
    "Mito.Meshes.flip_positive_iff",
    "Mito.Meshes.flip_square",
    "Mito.Meshes.flip_inverts",
    "Mito.Meshes.flip_negates"
   ],
   "note": ""
  },
  {
   "property": "C151",
   "status": "proved",
   "theorems": [
    "Mito.Quadrature.cell_near",
    "Mito.Quadrature.segment2_cubic",
    "Mito.Quadrature.segment_fourth_order",
    "Mito.SegmentTest.decay_cubic",
    "Mito.SegmentTest.unit_integral",
    "Mito.SegmentTest.segment_error",
    "Mito.SegmentTest.segment_test"
   ],
   "note": ""
  },
  {
   "property": "C152",
   "status": "proved",
   "theorems": [
    "Mito.SpaceTests.frame",
    "Mito.SpaceTests.length_segment",
    "Mito.SpaceTests.segment_cubic",
    "Mito.SpaceTests.flip_test",
    "Mito.SpaceTests.segment_test",
    "Mito.SpaceTests.square_normal",
    "Mito.SpaceTests.square_test"
   ],
   "note": ""
  },
  {
   "property": "C153",
   "status": "partial",
   "theorems": [
    "Mito.NamedClass.name_given_iff",
    "Mito.NamedClass.name_lost",
    "Mito.NamedClass.default_name",
    "Mito.NamedClass.construct_sound",
    "Mito.NamedClass.construct_none_iff",
    "Mito.NamedClass.named_class_test",
    "Mito.NamedClass.name_fails"
   ],
   "note": "False: a class that can be constructed from the arguments with or without a string in front takes the string, and the object is unnamed (name_fails). It holds exactly if the class cannot be constructed with the string in front or the string is a constant (name_given_iff). The choice between the two constructor templates is modelled by the rules of the language."
  },
  {
   "property": "C154",
   "status": "proved",
   "theorems": [
    "Mito.StdSharedPointer.inv_step",
    "Mito.StdSharedPointer.eq_iff",
    "Mito.StdSharedPointer.kept",
    "Mito.StdSharedPointer.id_identifies",
    "Mito.StdSharedPointer.id_reused",
    "Mito.StdSharedPointer.no_null",
    "Mito.StdSharedPointer.copies_and_moves",
    "Mito.StdSharedPointer.moved_from"
   ],
   "note": "Of std::shared_ptr is assumed that a resource lives as long as a handle refers to it. An id that is kept longer than the node may be that of a later node (id_reused); handles that were moved from are null and equal to each other (moved_from)."
  },
  {
   "property": "C155",
   "status": "partial",
   "theorems": [
    "Mito.Functions.term_exact",
    "Mito.Functions.constants_tests_pass",
    "Mito.Functions.divide_power_of_two",
    "Mito.Functions.divide_error",
    "Mito.Functions.pi_sixth",
    "Mito.Functions.sixth_nearest",
    "Mito.Functions.divide_test_passes",
    "Mito.Functions.divide_fails",
    "Mito.Functions.term_in_doubles"
   ],
   "note": "False for quotients: f / a is made as (1.0 / a) * f, which is rounded twice (divide_fails). Proved for sums, differences, products and repeated derivatives (constants_tests_pass), for divisions by powers of two (divide_power_of_two) and for the values of the test (divide_test_passes); in general with twice the relative error of a division (divide_error). The values of sine and cosine are arguments of the model; those of the test are the doubles nearest to the exact values (sixth_nearest)."
  },
  {
   "property": "C156",
   "status": "partial",
   "theorems": [
    "Mito.RoundedMidpoint.rounded_exact",
    "Mito.RoundedMidpoint.midpoint_between",
    "Mito.RoundedMidpoint.sterbenz",
    "Mito.RoundedMidpoint.near_points",
    "Mito.RoundedMidpoint.zero_points",
    "Mito.RoundedMidpoint.coordinates_test",
    "Mito.RoundedMidpoint.rounded_fails",
    "Mito.RoundedMidpoint.midpoint_in_doubles",
    "Mito.RoundedMidpoint.refined_apart"
   ],
   "note": "False: 0.7 + (0.1 - 0.7) is not 0.1, and the midpoints of 0.1 and 0.5 from either side differ (rounded_fails), so that a refined mesh has two nodes at different places in the middle of an edge (refined_apart). The midpoint always lies between the points (midpoint_between). The rest holds for positive coordinates that differ by a factor of two at most (near_points), and A + (B - A) = B also where one of them is zero (zero_points)."
  },
  {
   "property": "C157",
   "status": "proved",
   "theorems": [
    "Mito.SegVec.moved_vectors_are_slots",
    "Mito.SegVec.moves_do_not_depend_on_addresses",
    "Mito.SegVec.memory_for_moves",
    "Mito.SegVec.move_test_passes",
    "Mito.SegVec.move_and_go_on",
    "Mito.SegVec.wrong_move_tests_fail",
    "Mito.SegVec.erased_through_source",
    "Mito.SegVec.erased_through_source_again",
    "Mito.SegVec.erased_through_source_runs"
   ],
   "note": "The moved-from standard containers are taken to be empty, as all implementations leave them. New blocks must be disjoint from the old ones (MFreshMemory), and memory_for_moves shows that this can be met. erased_through_source is the finding: an element erased through the vector it was moved away from."
  },
  {
   "property": "C158",
   "status": "partial",
   "theorems": [
    "Mito.RoundedForms.wedge2_swap",
    "Mito.RoundedForms.wedge2_forms",
    "Mito.RoundedForms.wedge3_swap",
    "Mito.RoundedForms.wedge_equal",
    "Mito.RoundedForms.basis_exact",
    "Mito.RoundedForms.doubles_meet",
    "Mito.RoundedForms.first_two_fail",
    "Mito.RoundedForms.computed_values"
   ],
   "note": "False: exchanging the first two of three vectors changes the last digits too, and with two equal vectors there the product is not zero (first_two_fail). The rest holds: two vectors, the last two of three (wedge2_swap, wedge3_swap, wedge_equal), and basis vectors (basis_exact)."
  }
 ]
}
