# property, status, theorems, note
def ns(prefix, *names):
    return [prefix + "." + n for n in names]

SP = "Mito.SharedPointer"
AL = "Mito.Alloc"
SV = "Mito.SegVec"
RP = "Mito.Repo"
CO = "Mito.Combinatorics"
TO = "Mito.Topology"
ME = "Mito.Meshes"
RF = "Mito.Refine"

CLAIMS = [
 ("C01", "proved", ns(SP, "references_eq_holders_add_selfMoves", "references_exact_partial", "held_resource_isValid", "isValid_iff_held_partial", "references_not_exact_selfMove", "references_not_exact_sameResourceMove"),
  "The exact law for every history is references = holders + number of same-resource moves; the restricted claim of the property is its corollary (references_exact_partial, 'partial' refers to the unrestricted reading), and two witnesses refute the unrestricted reading."),
 ("C02", "proved", ns(SP, "move_transfers", "moveAssign_transfers", "copy_adds_one", "copyAssign_counts", "reset_releases", "destroy_releases", "copy_null_ub", "copyAssign_null_ub", "step_ok_iff", "isNullptr_step", "references_defined_iff"), ""),
 ("C03", "proved", ns(AL, "insert_not_live", "live_in_segment", "segments_disjoint", "assertions_hold") + ns(SV, "refines_map"), ""),
 ("C04", "proved", ns(SV, "refines_map", "emplace_stable", "erase_stable", "operations_succeed"), ""),
 ("C05", "proved", ns(AL, "size_eq_card", "size_le_capacity", "grows_iff_full", "erase_capacity") + ns(SV, "vector_size"), ""),
 ("C06", "proved", ns(AL, "reuse_fifo", "fresh_iff_none_pending", "reused_flag"), ""),
 ("C07", "proved", ns(SV, "iteration_visits_live"), ""),
 ("C08", "partial", ns(SV, "postfix_increment_visits_erased", "postfix_eq_prefix_partial"),
  "False as stated; witness, and agreement when the next slot is live."),
 ("C09", "proved", ns(AL, "index_eq_iteration", "index_injective"), ""),
 ("C10", "proved", ns(SV, "erase_idempotent", "insert_invalid_copy_is_invisible"), ""),
 ("C11", "partial", ns(RP, "careful_no_dangling_partial", "careful_erase_partial", "erase_reports", "careful_emplace_partial", "careful_iteration_partial", "erase_destroys_referenced", "erase_then_emplace_aliases", "erase_twice_ub"),
  "False for Repository::erase (witnesses); proved for callers that check the count first, as the factories do."),
 ("C12", "proved", ns(CO, "permutationSign_eq_sign", "permutationSign_self", "permutationSign_swap", "permutationSign_symm", "permutationSign_none"), ""),
 ("C13", "proved", ns(CO, "permutationSign_repeated", "permutationSign_repeated_witness"), ""),
 ("C14", "proved", ns(TO, "isValid_perm"), ""),
 ("C15", "proved", ns(TO, "isValid_triangle_iff_loop", "isValid_tetrahedron_accepts_pillow"),
  "For topologies built from vertices, where each segment has the shape {(a,-1),(b,+1)}. The second theorem is a finding: the analogous test for tetrahedra accepts four triangles that do not bound one."),
 ("C16", "proved", ns(TO, "oriented_unique", "footprint_unique", "request_by_footprint", "request_by_composition", "request_again", "request_vertices_again", "request_vertices_leaves_temporaries"),
  "Requests by vertices may leave oriented subsimplices behind even if the simplex exists (finding)."),
 ("C17", "proved", ns(TO, "flip_flip", "existsFlipped_iff", "flip_succeeds"), ""),
 ("C18", "proved", ns(TO, "fromVertices_permuted", "fromVertices_even", "fromVertices_odd", "fromVertices_defined"), ""),
 ("C19", "proved", ns(TO, "fromVertices_vertices", "fromVertices_vertices_fails", "fromVertices_defined"), ""),
 ("C20", "proved", ns(TO, "erase_inUse", "erase_keeps_held", "erase_keeps_footprints", "erase_frame", "step_handles", "held_simplex_survives", "held_footprint_survives"), ""),
 ("C21", "proved", ns(TO, "erase_frees"), ""),
 ("C22", "partial", ns(TO, "existsComp_iff", "existsComp_total", "existsComp_created_erased", "alive_until_erased", "existsSegment_partial", "existsSegment_misses"),
  "Proved for exists(composition). exists(v0, v1) gives false negatives when the segment was made by flip (witness); positive answers are right, negative ones when the oriented end points exist."),
 ("C23", "proved", ns(ME, "orientations_recount", "orientations_history_independent", "mesh_operations_succeed", "insert_erased_cell_invisible"),
  "The last theorem is a finding: inserting a copy of an erased cell is counted but the cell is not visited."),
 ("C24", "proved", ns(ME, "isOnBoundary_iff"), ""),
 ("C25", "proved", ns(ME, "boundary_collects", "boundarySize_eq", "boundary_succeeds", "unpaired_iff_once", "composition_triangle", "boundary_depends_on_history", "boundarySize_counts_nodes_twice"),
  "The statement contains its own restriction (positive cells) and its failure for negative cells; the last two theorems are witnesses. For a mesh of segments the boundary is a set, so equal nodes merge."),
 ("C26", "partial", ns(ME, "boundary_boundary_cancels", "boundary_boundary_empty", "boundary_boundary_not_empty"),
  "Proved when no oriented facet occurs twice; the code finds the boundary closed when its facets all have orientation +1 (witness otherwise)."),
 ("C27", "proved", ns(ME, "eraseDuplicates_keeps_first", "keepFirst_spec", "insertAll_cells"), ""),
 ("C28", "proved", ns(ME, "filter_collects", "filter_count", "filter_succeeds"), ""),
 ("C29", "proved", ns(ME, "partition_cells", "colored_sublist", "colored_positions", "partition_cover", "partition_single", "connectivity_defined", "connectivity_numbering"),
  "METIS is an arbitrary function. A single partition contains all the cells whatever the rank (partition_single)."),
 ("C30", "proved", ns(RF, "refine_count", "refine_children", "refine_total_volume", "refine_fills"), ""),
 ("C31", "partial", ns(RF, "refine_conforming_fails", "refine_not_conforming", "refine_shares_only_old_nodes", "refine_append", "refine_new_nodes_partial"),
  "False: witness, and a general refutation for all neighbouring triangles. Partial: the number of nodes made (one per edge, cell and level)."),
 ("C32", "partial", ns(TO, "flip_outline_fails", "flip_triangles_partial", "flip_outline_partial", "flip_succeeds_partial", "flip_involution_partial", "flip_follows_compositions", "around_iff") + ns(ME, "flipDiagonal_nodes"),
  "False for triangles of orientation -1 (witness: the outline is reversed). Proved when all the triangles have orientation +1."),
 ("C33", "partial", ns(TO, "flip_throws_fails", "flip_throws_iff", "flip_cases_partial"),
  "False: the exception is only thrown when there is no common edge in whatever orientation; other unsuitable pairs fail an assertion (witnesses). All the cases are characterized."),
 ("C46", "partial", ns("Mito.Summit", "summit_write_succeeds", "summit_read_write", "summit_round_trip_partial", "summit_element_type_fails", "summit_nodes_fail"),
  "Proved for files without element type, up to nodes that share a point; false with an element type and two or more cells (assertion), and nodes sharing a point are merged (witness)."),
 ("C47", "proved", ns("Mito.VTK", "vtk_grid", "vtk_mesh_grid", "vtk_field", "vtk_cloud"), ""),
 ("C53", "proved", ns("Mito.DiscreteSystem", "equations_number"), ""),
 ("C54", "proved", ns("Mito.DiscreteSystem", "assemble_sum", "computeBlocks_sum", "assemble_symmetric", "assemble_bilinear"), ""),
 ("C55", "proved", ns("Mito.DiscreteSystem", "create_field", "readSolution_field"), ""),
 ("C56", "partial", ns("Mito.DiscreteSystem", "prescribed_fails", "constrained_zero", "prescribed_partial"),
  "False: no prescribed value other than zero is ever imposed, by any solver; proved for zero values."),
 ("C57", "proved", ns("Mito.DiscreteSystem", "solveTimes_eq", "solve_again", "exact_exists"), "For exact solvers and invertible matrices over a field of characteristic zero."),
 ("C58", "proved", ns("Mito.Discretizer", "p1_shares_nodes", "p1_constrained", "p2_shares_places", "p2_constrained", "p2_constrained_throws"), ""),
 ("C65", "proved", ns("Mito.DiscreteField", "field_value", "field_throws", "field_insert_present", "field_size", "field_debug", "field_release", "field_ofKeys"), ""),
 ("C60", "proved", ns("Mito.Functions", "derivative_correct", "derivative_iterate", "smooth_defined"), "over the reals; functions built from wrapped functors, determinants, inverses and dyadic products have no rule and do not compile"),
 ("C61", "proved", ns("Mito.Functions", "partial_correct", "total_correct", "partials_correct", "gradient_correct", "gradientV_correct", "jacobian_correct", "jacobianVS_correct", "jacobianSV_correct", "divergence_correct", "divergenceT_correct", "gradient_again", "laplacian_correct", "gradient_linear", "gradient_product"), "over the reals; the matrix of partial derivatives for vectors and scalars"),
 ("C62", "proved", ns("Mito.Functions", "pointwise_sums", "pointwise_quotients", "pointwise_products", "pointwise_lin", "pointwise_comp", "pointwise_pow", "pointwise_inverse"), "over the reals"),
 ("C50", "proved", ns("Mito.Fem", "shape_partition", "shape_seg1_nodal", "shape_tri1_nodal", "shape_tri2_nodal", "shape_seg1_affine", "shape_tri1_affine", "shape_tri2_quadratic"), "over the reals; for the elements in the code: linear segments, linear and quadratic triangles"),
 ("C51", "proved", ns("Mito.Fem", "parametrization_nodes", "jacobian_correct", "jacobian_entries", "jacobian_det", "gradient_correct", "gradients_zero", "jacobian_tri2"), "over the reals"),
 ("C52", "proved", ns("Mito.Fem", "gradGrad_symmetric", "mass_symmetric", "gradGrad_constants", "gradGrad_psd", "mass_psd", "mass_volume", "gradGrad_definite", "gradGrad_seg1"), "over the reals; the entries of the mass matrix sum to the volume times the sum of the weights"),
 ("C59", "partial", ns("Mito.Fem", "h1Norm_fails", "h1Norm_eq", "h1Norm_partial"), "False: the gradients are parametric; proved when all jacobians are orthogonal."),
 ("C70", "proved", ns("Mito.Fem", "l2Norm_eq", "l2Norm_distance", "l2Norm_inverted"), "over the reals"),
 ("C71", "proved", ns("Mito.Fem", "sourceTerm_total", "sourceTerm_linear", "localize_fem", "localize_fem_gradient", "localize_field"), "over the reals"),
 ("C48", "proved", ns("Mito.Quadrature", "tables_accurate", "segment1_accurate", "segment2_accurate", "triangle1_accurate", "triangle2_accurate", "triangle3_accurate", "triangle4_accurate", "tetrahedron1_accurate", "tetrahedron2_accurate", "not_more_accurate", "tables_inside", "weights_sum", "mass_tri1"), "for the decimal literals as exact rationals and exact real arithmetic"),
 ("C44", "proved", ns("Mito.Tensor", "oneForm_linear", "wedge2_det", "wedge3_det", "wedge2_bilinear", "wedge2_alternating", "wedge3_trilinear", "wedge3_alternating", "wedge_swap", "wedge3_tensor"), "over the reals"),
 ("C45", "partial", ns("Mito.Tensor", "wedge12_fails", "wedge12_alternating_iff", "wedge12_difference", "wedge12_partial", "wedge12_partial_swap"), "False: one term of the alternating sum is missing; proved where it vanishes."),
 ("C34", "proved", ns("Mito.Geometry", "cartesian_affine", "cartesian_midpoint", "cartesian_distance", "cartesian_barycenter"), ""),
 ("C35", "proved", ns("Mito.Geometry", "polar_algebra", "polar_frame", "polar_midpoint", "polar_distance", "polar_barycenter", "polar_add_radius"), "r = 0 is excluded: the code divides by it"),
 ("C36", "proved", ns("Mito.Geometry", "spherical_algebra", "spherical_frame", "spherical_midpoint", "spherical_distance", "spherical_barycenter", "spherical_add_range"), "the origin and the axis are excluded: the code divides by r and sin(theta)"),
 ("C37", "proved", ns("Mito.Geometry", "cartesian_polar_cartesian", "cartesian_spherical_cartesian", "polar_cartesian_polar", "polar_cartesian_polar_eq", "spherical_cartesian_spherical", "spherical_cartesian_spherical_eq"), ""),
 ("C38", "partial", ns("Mito.Geometry", "coordinateFunction_fails", "coordinateFunction_partial"), "x_2 returns the second coordinate"),
 ("C39", "proved", ns("Mito.Geometry", "cartesian_dual", "polar_dual", "spherical_dual"), ""),
 ("C40", "proved", ns("Mito.Geometry", "cartesian_w", "polar_w", "spherical_w", "volume_cartesian", "volume_polar", "volume_spherical"), ""),
 ("C41", "partial", ns("Mito.Geometry", "metric_equivalent_fails", "metric_equivalent_partial_cartesian", "metric_equivalent_partial_polar", "metric_equivalent_partial_spherical", "metric_equivalent_partial_form"), "the conversion of vectors to forms uses the inverse of the metric"),
 ("C42", "proved", ns("Mito.Geometry", "volume_cartesian", "volume_translation", "volume_permutation", "volume_swap", "volume_zero", "volume_linear"), ""),
 ("C72", "proved", ns("Mito.Geometry", "cartesian_basis", "polar_basis", "spherical_basis", "gram_cartesian", "gram_polar", "gram_spherical"), ""),
 ("C73", "proved", ns("Mito.Geometry", "Chart.subVolume", "subVolume_segment", "subVolume_triangle", "parallelotope_one", "parallelotope_two"), "up to the sign, which depends on the normal fields"),
 ("C43", "proved", ns("Mito.Geometry", "parametrization_barycentric", "parametrization_vertex", "parametrization_affine", "parametrization_image", "parametrization_unique"), "Cartesian coordinates"),
 ("C49", "proved", ns("Mito.Quadrature", "integrate_value", "integrate_aborts", "integrate_release", "integrate_linear", "integrate_append", "integrate_perm", "integrate_const", "integrate_one"), ""),
 ("C74", "proved", ns("Mito.Quadrature", "integral_hull", "volume_hull", "volume_lebesgue", "integrate_accurate", "integrate_exact", "integrate_tables", "rules_accurate"), ""),
 ("C75", "proved", ns("Mito.Geometry", "placeAll_new", "placeAll_coordinates", "placeAll_strict", "placeAll_release", "change_eq", "change_coordinates", "change_round_trip", "change_polar", "change_spherical", "points_placed"), ""),
 ("C63", "proved", ns("Mito.Materials.LinearElastic", "stress_consistent", "tangents_consistent", "tangents_apply", "tangents_symmetric", "stress_symmetric", "rotation", "undeformed", "energy_pos") + ns("Mito.Materials", "stress_unique"),
  "Over the reals."),
 ("C64", "proved", ns("Mito.Materials.Gent", "stress_consistent", "tangents_consistent", "tangents_symmetric", "undeformed", "tangents_undeformed", "frame_indifferent"),
  "Over the reals, where the energy is defined: positive determinant and argument of the logarithm. tangents_undeformed: the bulk modulus has no part in the linearisation (finding)."),
 ("C66", "partial", ns("Mito.Options", "prefix_words", "prefix_read_back", "prefix_empty", "prefix_injective", "prefix_keys_partial", "prefix_corrupts_values", "prefix_misses_tab"),
  "Words are prefixed exactly as documented; negative values are taken for options (witness), so the intended reading holds only if no value starts with a dash."),
 ("C67", "partial", ns(SV, "vector_destructor") + ns(RP, "repository_destructor_destroys_twice", "repository_destructor_partial"),
  "Proved for SegmentedVector; Repository destroys erased elements twice (witness), right when nothing was erased."),
 ("C68", "proved", ns(AL, "destructor_frees_once"), ""),
 ("C69", "proved", ns(AL, "move_empties_source"), ""),
 ("C76", "proved", ns("Mito.Materials", "linearElastic_testStress", "linearElastic_testTangents", "linearElastic_wrong_passes", "testStress_vacuous"),
  "The second half is a finding: the residual is not scaled by the perturbation."),
 ("C77", "proved", ns("Mito.Meshes", "stokes_segments", "stokes_triangles", "stokes_tetrahedra", "divergence_triangles", "area_by_boundary",
  "divergence_tetrahedra", "volume_by_boundary", "boundary_points_inwards"), "The orientation for tetrahedra is a finding."),
 ("C78", "proved", ns("Mito.DiscreteSystem", "matrix_form", "rhs_load", "matrix_definite", "matrix_isUnit", "matrix_singular", "wellposed_iff",
    "solve_galerkin", "galerkin_minimises") + ns("Mito.Fem", "stiff_seg1", "stiff_tri1", "stiff_tri2", "rules_collinear",
    "tri2_underintegrated", "elliptic_poisson", "poisson_wellposed", "poisson_solved"),
  "exact arithmetic and an exact solver"),
 ("C79", "proved", ns("Mito.Fem", "nodal_galerkin", "nodal_solved", "nodal_exactness", "nodal_constant", "segment_rules"),
  "exact arithmetic and an exact solver"),
 ("C80", "proved", ns("Mito.Meshes", "components_segments", "components_triangles", "components_tetrahedra")
  + ns("Mito.Fem", "dirichlet_seg1", "dirichlet_tri1", "dirichlet_tri2"),
  "exact arithmetic and an exact solver; one node per vertex and positive cells are preconditions"),
 ("C81", "proved", ns("Mito.DiscreteSystem", "nonneg_solution")
  + ns("Mito.Fem", "gradGrad_tri1", "offDiagonal_tri1", "offDiagonal_seg1", "load_tri1", "load_seg1", "poisson_nonneg"),
  "exact arithmetic and an exact solver"),
 ("C82", "proved", ns("Mito.Fem", "patch_seg1", "patch_tri1", "patch_tri2", "rules_centred"),
  "exact arithmetic; one node per vertex and positive cells are preconditions"),
 ("C83", "proved", ns(TO, "sanityCheck_iff", "sanityCheck_of_vertices", "sanityCheck_fails", "isValid_tetrahedron_iff",
   "sanityCheck_tetrahedron"), ""),
 ("C84", "proved", ns(ME, "flip_cell", "flip_cell_defined", "flip_cell_twice", "mem_getNodes"), ""),
 ("C85", "proved", ns("Mito.Quadrature", "apply_renumber", "integrate_renumber", "integrate_flip", "volume_renumber", "subVolume_renumber", "subVolume_order_fails", "rules_symmetric"), "exact arithmetic"),
 ("C86", "proved", ns(RF, "refine_size", "refine_size_tetrahedra", "refine_size_tight", "refine_size_tends"), "exact arithmetic"),
 ("C87", "partial", ns(RF, "refine_similar", "refine_corners_partial", "refine_stretches", "refine_degenerates"), "false for tetrahedra; true for segments and triangles"),
 ("C88", "proved", ns("Mito.Quadrature", "refine_integral_variation", "refine_integral_error", "refine_integral_error_tetrahedra", "refine_integral_order", "refine_integral_converges", "mesh_integral", "rules_converge"), "exact arithmetic"),
 ("C89", "partial", ns(RF, "refine_shape", "refine_steps", "refine_steps_count_partial", "refine_steps_fails"), "false for tetrahedra; true for segments and triangles"),
 ("C90", "proved", ns("Mito.Fem", "poisson_error", "poisson_error_l2", "poisson_order", "poisson_order_l2", "poisson_converges", "exUnitFan_triangulates"),
  "exact arithmetic and an exact solver; one node per vertex and positive cells are preconditions"),
 ("C91", "partial", ns("Mito.Summit", "reader_valid", "summit_truncated", "summit_truncated_release", "summit_trailing", "summit_damaged_fails"),
  "False for the code: a file cut within the nodes of a cell makes the reader look at node minus one, and without assertions other cuts are read as meshes with fewer cells (summit_damaged_fails). What is read is well formed for every file, and what happens is known for every place to cut a written file. Files without element type, at least one cell."),
 ("C92", "partial", ns("Mito.Fem", "refined_all_on_boundary", "refined_segments", "refined_boundary", "poisson_refined_zero", "poisson_refined_error"),
  "False for the code: after one refinement all nodes of meshes of triangles or tetrahedra are on the boundary, and the discrete solution is zero for every source, so that the error is the norm of the solution. Segments are refined properly (refined_segments). Exact arithmetic."),
 ("C93", "proved", ns("Mito.Fem", "segments_error", "segments_error_l2", "segments_order", "segments_order_l2", "boundary_once", "segments_refined", "segments_refined_l2", "segments_rules"),
  "exact arithmetic and an exact solver; one node per vertex and positive segments are preconditions"),
 ("C94", "partial", ns("Mito.Handles", "no_misuse_iff", "released_iff_clean", "solve_current", "solvers_released", "handles_fail"),
  "False for the code: destructors release nothing, a solver destroys its linear system (so that other solvers cannot be used any more), copies share their objects, and a solver whose linear system is created again keeps the old matrix (handles_fail). For programs without copies the orders of calls that misuse nothing and those that release everything are characterised exactly. Reference counting by PETSc is an assumption."),
 ("C95", "proved", [*ns("Mito", "nearest_rounds"), *ns("Mito.Refine", "refine_rounded", "tetraWith_midpoint", "midpoint_asymmetric"), *ns("Mito.Quadrature", "integrate_rounded", "triangles_rounded")],
  "no overflow, no underflow; products with zero and one are exact; Cartesian coordinates; the error of the evaluation of the function is a parameter. Two neighbours compute the midpoint of their edge differently (midpoint_asymmetric)."),
 ("C96", "partial", [*ns("Mito.Quadrature", "divergence_theorem", "divergence_theorem_exact", "divergence_theorem_tetrahedra", "divergence_theorem_fails", "corner_normals_fail")],
  "true for triangles, whatever the signs of the normals (divergence_theorem, divergence_theorem_exact). False for tetrahedra: the integral over the boundary has the opposite sign for every normal field (divergence_theorem_tetrahedra, witness divergence_theorem_fails), since boundary faces point inwards (C77). The normal at the first node of a boundary cell needs the component one along the normal of the cell; the sum of the normals of both sides, as in the test, has it at right angles only (corner_normals_fail)."),
 ("C97", "proved", ns("Mito.Fem", "poisson_order_tri2", "poisson_order_tri2_l2", "rule_quadratic", "exUnitFan_quadratic"),
  "exact arithmetic and an exact solver; one node per vertex and positive cells are preconditions"),
 ("C98", "proved", ns("Mito.Load", "load_succeeds", "load_triangulates", "load_fine", "load_vanishes", "poisson_file", "square_file", "poisson_square", "clockwise_accepted"),
  "exact arithmetic (pi included) and an exact solver. The reader does not check orientations: clockwise triangles are accepted and the area is negative (clockwise_accepted), so positive areas are a precondition."),
 ("C99", "proved", ns("Mito.Fem", "h1Norm_le_l2", "l2Norm_le_h1", "h1Norm_le_l2Norm_seg", "h1Norm_le_l2Norm_tri", "h1Norm_small", "h1Norm_no_bound", "h1Norm_not_equivalent"),
  "over the reals. Quantifies the defect of C59: the norm says nothing about gradients on fine meshes."),
 ("C100", "proved", ns("Mito.Fem", "poisson_conditioned", "poisson_inexact", "poisson_inexact_l2", "poisson_order_inexact", "poisson_stagnates") + ns("Mito.DiscreteSystem", "relative_zero", "relative_energy"),
  "over the reals; the tolerance is on the residual without preconditioner. Removes the assumption of exact solvers from C90."),
 ("C101", "proved", ns("Mito.Load", "discontinuous_succeeds", "discontinuous_poisson", "square_discontinuous") + ns("Mito.Fem", "discontinuous_seg1", "discontinuous_tri1", "discontinuous_tri2") + ns("Mito.Summit", "write_points"),
  "exact arithmetic. There are no jump terms in the code: a discontinuous mesh is one problem per cell."),
 ("C102", "partial", ns(TO, "teardown_safe", "teardown_exact", "teardown_counts_wrong", "exit_safe_iff", "exit_safe_late", "slots_exist"),
  "Memory safety and the criterion for static objects hold; the counts are right unless a simplex was erased (witness), since the slots of erased simplices are destroyed again. That destroying an object twice is undefined behaviour is C67."),
 ("C103", "proved", ns("Mito.Parallel", "tasks_agree", "parts_fit", "parallel_integral", "label_dependent_lost", "label_dependent_twice", "local_iff", "reduce_iff"),
  "METIS is an arbitrary function whose colors depend only on which nodes have equal vertices (`LabelFree`); that this is needed is shown by a witness. MPI_Reduce is the sum; floating point numbers are reals."),
 ("C104", "proved", ns("Mito.Session", "process_iff", "process_end", "order_matters"),
  "What the calls of MPI and PETSc do is taken from their documentation; PETSc objects that outlive a session are C94."),
 ("C105", "proved", ns("Mito.Cloud", "run_points", "writer_iff", "writer_grid", "writer_fails", "record_iff", "field_made"),
  "Points are ids, new points get new ids (C03). That a cloud cannot be written when another coordinate system has nodes of its own is writer_fails."),
 ("C106", "proved", ns("Mito.FileNames", "numbered_inj", "dataFile_eq_iff", "no_clash_iff", "parallel_no_clash", "summary_different", "summary_name"),
  "Files are their names; the pieces that VTK writes by itself are left out."),
 ("C107", "proved", ns("Mito.Fem", "weakform_poisson", "weakform_wellposed_iff", "mass_wellposed", "reaction_wellposed", "mass_singular", "unisolvent_seg1",
  "unisolvent_tri1", "unisolvent_tri2", "mass_tri2", "reaction_tri1", "weakform_solved", "projection_pythagoras", "projection_best", "projection_exact",
  "represents_polynomials", "reaction_stable"),
  "Exact arithmetic and an exact solver, as in C78; the blocks outlive the weak form."),
 ("C108", "proved", ns("Mito.Lifetimes", "supported_defined", "scoped_defined", "benchmark_defined", "destroy_frame", "solve_defined_iff", "addBlock_adds", "norm_defined_iff", "setup_objects",
  "integrate_defined_iff", "solve_without_manifold", "solve_without_mesh_iff", "temporary_block", "temporary_field", "late_block", "temporary_tolerance", "local_mesh"),
  "Only which object touches which is modelled; meshes have cells. Changes of a mesh while it is referred to are C109."),
 ("C109", "partial", ns("Mito.Snapshot", "element_now", "element_kept", "monotone_kept", "exchange", "exchange_stale", "exchange_example", "elements_made",
  "hybrid_blocks", "hybrid_source_iff", "hybrid_self", "integrateLater_self", "integrateLater_throws", "integrateLater_value", "writeLater_self", "writeLater_isSome",
  "read_writeLater", "orphan_points"),
  "False if cells are erased and others inserted: the element made from the i-th erased cell finds the i-th inserted one, so that source terms mix two triangles (exchange, hybrid_blocks). Proved: elements whose cells are not erased, and all elements if cells are only inserted or only erased, find the cells they were made from; integrators are right after erasures and throw after insertions; files of writers keep the points of erased cells, and writing throws if there are new points."),
 ("C110", "partial", ns("Mito.Distributed", "rows_split", "getSolution_defined_iff", "getSolution_last", "matrix_sum", "rhs_owner", "assembled_rhs_sum", "inserted_alike",
  "tasks_matrix", "solveTasks_cases", "solveTasks_one", "replicated_system", "replicated_solution", "replicated_inserts", "numbering_mixes", "parts_collide"),
  "False with two or more tasks: get_solution reads beyond the rows of its task (getSolution_defined_iff, solveTasks_cases), the right-hand side is not assembled so that k equal tasks compute the solution divided by k (replicated_solution), and equation numbers of different tasks coincide (numbering_mixes, parts_collide). Proved: with one task the program is that of C54 to C57 (solveTasks_one); the matrix is the sum over the tasks in any order of arrival; systems that all tasks insert alike are right (inserted_alike); with an assembled right-hand side k equal tasks would compute the solution."),
 ("C111", "proved", ns("Mito.Functions", "derivatives_perm", "derivatives_values", "gradientV_again", "divergence_again", "gradient_derivative", "gradientV_derivative", "divergence_derivative",
  "hessian_symmetric", "div_grad_transposed", "div_grad", "divergence_product", "divergence_linear", "gradient_comp", "laplacian_product", "jacobian_gradient", "divergence_trace"), ""),
 ("C112", "partial", ns("Mito.Geometry", "gradientForm_basis", "gradientVector_formula", "gradientVector_correct", "fieldsGradient_iff", "cartesian_gradient", "polar_gradient", "spherical_gradient",
  "polar_fieldsGradient_iff", "polar_divergence", "polar_fieldsDivergence_iff", "spherical_divergence", "fieldsGradient_fails", "fieldsDivergence_fails"),
  "False for fields::gradient and fields::divergence in polar and spherical coordinates, which ignore the metric: fieldsGradient_fails, fieldsDivergence_fails; fieldsGradient_iff and polar_fieldsDivergence_iff say where they are right. Proved: the gradient form with the metric gives the gradient in all three coordinate systems; in cartesian coordinates fields::gradient does, too; the divergence in polar and spherical coordinates in terms of the partial derivatives."),
 ("C113", "proved", ns("Mito.Load", "load_simplices", "load_boundary", "load_tetrahedra", "cube_file", "cube_loaded", "sphere_closed", "disagreeing_triangles"), ""),
 ("C114", "partial", ns("Mito.VTK", "points_placed", "points_distance", "makeWriter_sound", "record_iff", "record_order", "run_sound", "run_shows", "run_origin", "run_keeps", "record_congr", "p2_midsides_hidden", "drawn_cell", "drawn_affine", "arrow_cartesian", "arrow_iff", "arrow_polar", "arrow_spherical", "same_name_lost", "recorded_again"), "Points, arrays and drawn values are as stated; arrows are wrong in polar coordinates except on the axis and in spherical coordinates, and have the right length (arrow_iff, arrow_polar, arrow_spherical); the values of second order elements at midsides are not in the file (p2_midsides_hidden)."),
 ("C115", "partial", ns("Mito.Topology", "edges_triangle", "edges_flip", "edges_tetrahedron", "edges_tetrahedron_only", "edges_tetrahedron_both", "edges_tetrahedron_card", "edges_tetrahedron_new", "edges_run_backwards", "edges_depend_on_history"), "True up to direction: the sides of a triangle, all edges of a tetrahedron and nothing else. The sides of a negatively oriented triangle run backwards (edges_run_backwards), and a tetrahedron reports 12, 9 or 8 oriented edges depending on which faces existed before (edges_tetrahedron_card, edges_depend_on_history); twelve if none did (edges_tetrahedron_new)."),
 ("C116", "proved", ns("Mito.Topology", "runs_do_not_depend_on_addresses", "runs_end_for_all_addresses", "calls_want_arguments", "sample_runs", "answers_do_not_depend_on_addresses", "order_of_vertices_depends_on_addresses"), "Same number and same state up to a renaming that is injective on what is alive. 58 addresses for each call suffice. The order of `vertices()` of a footprint does depend on the addresses (order_of_vertices_depends_on_addresses)."),
 ("C117", "proved", ns("Mito.Topology", "topology_tests_pass", "wrong_tests_fail", "topology_tests_end"), "Transcribed tests, run once in the kernel and carried over to all addresses by C116. It also checks the model against what the repository expects of the code. The test of flip_diagonal is left out (C32, C33)."),
 ("C118", "proved", ns("Mito.SegVec", "vector_is_a_list_of_slots", "vectors_do_not_depend_on_addresses", "memory_exists", "vector_tests_pass", "wrong_vector_tests_fail", "loop_over_indices_misses"), "New blocks must be disjoint from the old ones (FreshMemory), and memory_exists shows that this can be met. loop_over_indices_misses is the finding about the loop of segmented_vector_print.cc."),
 ("C119", "proved", ["Mito.SharedPointer.shared_pointer_tests_pass", "Mito.SharedPointer.passes_iff", "Mito.Repo.repository_tests_pass", "Mito.Repo.rtest_undefined", "Mito.Repo.wrong_repository_test_fails"], "Transcribed tests run in the kernel. use_count() of std::shared_ptr is written out as a number. The eighth pointer test (placement into a segment) has no reference counts and is left out."),
 ("C120", "proved", ns("Mito.Fem", "mass_segment_close", "mass_linear_close", "mass_quadratic_close", "mass_quadratic_low_degree", "gradGrad_quadratic", "gradGrad_quadratic_close", "weights_close", "mass_tests_pass", "gradGrad_tests_pass"), "Exact arithmetic with the decimal tables of the code. The stiffness of segments and linear triangles for every rule is gradGrad_seg1 (C52) and gradGrad_tri1 (C81). The first two stiffness tests ask for an error of zero to machine precision, which is met up to 2e-24 here."),
 ("C121", "partial", ns("Mito.MeshPrograms", "careful_programs_keep_the_mesh", "careful_calls_stay", "erasing_never_fails", "is_on_boundary_iff", "boundary_size_eq", "mesh_runs_do_not_depend_on_addresses", "mesh_runs_end_for_all_addresses", "mesh_answers_do_not_depend_on_addresses", "mesh_tests_pass", "mesh_tests_end", "erased_simplex_breaks_the_mesh", "stale_orientations", "insert_of_erased_cell_fails", "erased_cell_keeps_its_simplex", "erase_through_another_handle"), "False for all programs: erasing the simplex of a cell that is still in the mesh leaves a null handle in the mesh and orientations at an address that may come back (erased_simplex_breaks_the_mesh, stale_orientations). Proved for careful programs: the simplex of a cell is erased only after the cell, and no erased cell is inserted again."),
 ("C122", "proved", ns("Mito.Quadrature", "rnd_rounds", "weights_checked", "checked_by_rounding", "check_depends_on_order", "check_is_sound", "parametric_tests_pass", "integrate_in_doubles", "square_test_passes", "comparisons"), "Double arithmetic without over- and underflow, every operation rounded separately (no fused multiply-add). The cosine of the square test is left out."),
 ("C123", "proved", ns("Mito.Fem", "arith_exact", "arith_in_doubles", "arith_error", "shapes_are_arith", "shape_tests_pass", "partition_fails", "partition_on_segments", "partition_on_triangles"), "Double arithmetic without over- and underflow, every operation rounded separately. The gradients of the tests need the inverse of pyre and are left out."),
 ("C124", "proved", ns("Mito.Functions", "tensor_derivative_correct", "at_bijective", "at_mat", "tensor_derivative_again", "tensor_derivative_vectors", "tensor_derivative_twice", "quotient_error", "quotient_differs", "Tests.higher_order", "Tests.chain_rule_scalar", "Tests.chain_rule_vector", "Tests.constants", "Tests.inverse_functions", "Tests.product", "Tests.reciprocal", "Tests.powers", "Tests.scalar_product", "Tests.subscripts", "Tests.sums", "Tests.linear_combination", "Tests.components", "Tests.scalar_of_vector", "Tests.scalar_of_matrix", "Tests.vector_of_scalar", "Tests.vector_of_vector", "Tests.vector_of_matrix", "Tests.matrix_of_scalar", "Tests.matrix_of_vector", "Tests.matrix_of_matrix", "Tests.algebra", "Tests.algebra_at_the_point", "Tests.tensor_algebra"), "Values that are tensors with one component are left out: the code does not subscript them."),
 ("C125", "proved", ns("Mito.Tensor", "contraction_correct", "contraction_compiles_iff", "contraction_small", "call_all", "call_forms", "contraction_steps", "contraction_tests", "contraction_fails", "volume_contraction"), "The overload resolution of the operators is part of the model; real numbers for double."),
 ("C126", "partial", ns("Mito", "Functions.Tests.scalar_field", "Functions.Tests.vector_field", "Functions.Tests.identity_field", "Functions.Tests.fields_values", "Functions.Tests.non_square", "Functions.Tests.polar_fields", "Functions.Tests.spherical_fields", "Functions.Tests.polar_metric_field", "Functions.Tests.spherical_metric_field", "Functions.Tests.spherical_point_singular", "Functions.Tests.metrics", "Functions.Tests.transformation_midpoint", "Functions.Tests.transformation_partial", "Functions.Tests.transformation_fails", "Combinatorics.permutation_tests"), "False for the polar coordinates of the middle: the polar algebra does not bring the angle back into the range of atan2 (transformation_fails); true where it stays in the range (transformation_partial)."),
 ("C127", "partial", ns("Mito.Python", "getItem_defined", "zip_first_defined", "zip_second_defined", "zip_second_value", "zip_tests_undefined", "zip_tests_exchanged", "iterate_reads", "iterate_undefined", "lifetimes_fail", "integrate_test", "integrator_undefined_iff", "integrate_undefined_iff", "run_typed", "simple_defined", "kept_defined", "kept_same"), "False: zip, list and unpacking read past the coordinates (zip_tests_undefined, iterate_undefined), and manifolds and integrators do not keep alive what they refer to (lifetimes_fail). True for programs that bind each variable once (simple_defined), and for all programs if the bindings declared keep_alive (kept_defined), which changes nothing else (kept_same)."),
 ("C128", "partial", ns("Mito.Geometry", "total_polar", "total_of_polar", "total_spherical", "subTotal_spherical", "spherical_singular", "disk_area", "halfBall_volume", "halfBall_spherical", "halfBall_fails", "halfSphere_area", "halfSphere_spherical", "halfSphere_fails", "determinantVolume_eq", "cube_test", "triangle_area", "triangle_test", "rebuilt_form_iff"), "False for cells that start on the axis, where the spherical algebra divides by zero: three tetrahedra of the half ball and four triangles of the half sphere do (halfBall_fails, halfSphere_fails). True for all meshes without such cells (total_polar, total_spherical, subTotal_spherical), and for the disk, the cube and the two other meshes in cartesian coordinates."),
 ("C129", "partial", ns("Mito.CosineTests", "exact_value", "exact_wrong", "square_test", "parallel_test", "python_test", "four_test", "four_polynomials", "benchmark_error"), "False for the number of the tests: the integral is 9.5e-9 to 9.7e-9 larger (exact_wrong). True up to the tolerances of the tests: square_test and parallel_test within 7e-10, python_test, four_test; polynomials are exact (four_polynomials), and the benchmark converges (benchmark_error)."),
 ("C130", "proved", ns("Mito.Benchmarks", "arrayDet_eq", "arrayInverse_eq", "gent_eq", "gent_benchmark", "gent_defined", "wedge_eq", "laplacian_eq", "laplacian_diagonal"), ""),
 ("C131", "proved", ns("Mito.Meshes", "filter_filter", "filter_test"), ""),
 ("C132", "partial", ns("Mito.Load", "boundary_positive", "load_boundary_closed", "ball_test", "fan_not_closed"), "False for files with a face that occurs twice in the same direction, which the reader accepts (fan_not_closed). True for all other files (load_boundary_closed), and the file of the test is one of them (ball_test)."),
 ("C133", "partial", ns("Mito.Fem", "field_program", "affine_triangles", "affine_segments", "fem_field_test", "quadratic_program", "quadratic_test_fails", "quadratic_reproduced", "localize_gradient", "localize_field_test"), "False for second-order triangles: the nodes at the midpoints of the edges are not in the map from the nodes of the mesh, so the program leaves zero there (quadratic_program, quadratic_test_fails). True for first-order triangles and segments on every mesh (affine_triangles, affine_segments); with the right values at all nodes the second-order triangles reproduce quadratic functions (quadratic_reproduced)."),
 ("C134", "proved", ns("Mito.Load", "boundary_nodes", "dirichlet_test", "disk_closed"), ""),
 ("C135", "partial", ns("Mito.Load", "load_repeated", "load_isSome_iff", "repeated_vertices", "repeated_sign", "repeated_simplex", "repeated_boundary", "twice_boundary"), "False for the boundary: the reader accepts a triangle and its reverse, their areas cancel, and the boundary has each edge twice, so that the divergence theorem fails (twice_boundary). True: when loading succeeds (load_repeated, load_isSome_iff), the orientations and the simplices (repeated_sign, repeated_simplex), and that the boundary is that of the file with every cell in the order of the first cell on its nodes (repeated_boundary)."),
 ("C136", "partial", ns("Mito.Functions", "sqrt_of_square", "functor_test", "square_of_sqrt_fails", "square_of_sqrt"), "False for the square of the square root: at 2 it is 2 + 2^-51 (square_of_sqrt_fails). True: the square root of the square is the magnitude for all numbers (sqrt_of_square), both assertions of the test hold (functor_test), and the square of the square root has a relative error of 2^-51 at most (square_of_sqrt)."),
 ("C137", "partial", ns("Mito.Printing", "written_twice", "read_back_exactly", "read_back_error", "read_back_mono", "digits_lost", "segment_lost", "triangle_reversed"), "False for coordinates that need more than 15 digits: they change (digits_lost), a segment may lose its length (segment_lost), and a triangle may change its orientation (triangle_reversed). True: the second file is the first (written_twice), coordinates that come from 15 digits are kept exactly (read_back_exactly), all others change by 5.2e-15 of themselves at most (read_back_error), and their order is kept (read_back_mono)."),
 ("C138", "proved", ns("Mito.Printing", "number_read", "chars_tokens", "chars_twice"), ""),
 ("C139", "partial", ns("Mito.Printing", "chars_cut", "small_cut", "digit_lost"),
  "false from ten nodes on: digit_lost (the index of the last node of the last cell loses its last digit, and another node takes its place); chars_cut says what is read from every cut file, and that this is the only way; small_cut: up to nine nodes the property holds"),
 ("C140", "proved", ns("Mito.Printing", "reader_chars", "cut_chars", "readerChars_valid", "too_many", "signed_ints", "negative_nodes", "glued", "digit_lost_chars"), ""),
 ("C141", "proved", ns("Mito.Printing", "same_file", "galerkin_file", "galerkin_nodes", "read_write_read", "kept_iff", "nodes_lost"), ""),
 ("C142", "proved", ns("Mito.Midpoints", "barycenter_box", "barycenter_const", "refined_box", "midpoint_new", "midpoint_symm", "tests_pass", "order_matters", "no_midpoint"), ""),
 ("C143", "partial", ns("Mito.RoundedBlocks", "nearly_symmetric", "symmetric_of_powers", "diagonal_nonneg", "not_symmetric", "entry_not_symmetric"), "False for the code: `factor * dphi_a * dphi_b` is rounded after `factor * dphi_a` (`not_symmetric`, a triangle with integer nodes). Proved: a bound for the difference of the two entries for every rounding, exact symmetry if the factors are powers of two, and that the diagonal is not negative."),
 ("C144", "proved", ns("Mito.Barycentric", "parametric_round_trip", "barycentric_round_trip", "dN_eval", "dN_onPlane", "dN_correct", "same_shape", "same_gradient", "hard_coded_P1", "hard_coded_iff", "tests_pass", "test_misses"), ""),
 ("C145", "proved", ns("Mito.Materials.Gent", "neoHookean_le", "energy_nonneg", "energy_eq_zero_iff", "stress_rotation", "kirchhoff_symmetric", "energy_limit", "energy_collapse", "stress_beyond", "negative_Jm"), ""),
 ("C146", "proved", ns("Mito.Materials.LinearElastic", "elliptic_iff", "elliptic_range", "energy_nonneg_range", "elliptic_unstable") + ns("Mito.Materials.Gent", "elliptic", "not_elliptic_beyond"), ""),
 ("C147", "proved", ns("Mito.RoundedNorms", "l2Sum_near", "h1Sum_near", "l2_near", "h1_near", "l2_zero_iff", "h1_zero_iff", "l2_double", "h1_double", "l2_inverted"), "the values of the difference of the fields are given as they are stored"),
 ("C148", "proved", ns("Mito.RoundedVolumes", "triangle_swap", "tetrahedron_swap", "rnd_odd", "triangle_error", "triangle_sign", "tetrahedron_error", "triangle_exact", "tetrahedron_grid", "tetrahedron_accurate", "rotation_matters", "sign_wrong", "director_zero", "directors_test", "directors_parallel"), ""),
 ("C149", "proved", ns("Mito.Quadrature", "plane_volume", "plane_length", "plane_programs", "plane_divergence_theorem", "tutorials_agree", "height_matters"), ""),
 ("C150", "proved", ns("Mito.Meshes", "flip_volumes", "flip_around", "flip_conserves", "crossing_iff", "flip_positive_iff", "flip_square", "flip_inverts", "flip_negates"), ""),
 ("C151", "proved", ns("Mito.Quadrature", "cell_near", "segment2_cubic", "segment_fourth_order") + ns("Mito.SegmentTest", "decay_cubic", "unit_integral", "segment_error", "segment_test"), ""),
 ("C152", "proved", ns("Mito.SpaceTests", "frame", "length_segment", "segment_cubic", "flip_test", "segment_test", "square_normal", "square_test"), ""),
 ("C153", "partial", ns("Mito.NamedClass", "name_given_iff", "name_lost", "default_name", "construct_sound", "construct_none_iff", "named_class_test", "name_fails"), "False: a class that can be constructed from the arguments with or without a string in front takes the string, and the object is unnamed (name_fails). It holds exactly if the class cannot be constructed with the string in front or the string is a constant (name_given_iff). The choice between the two constructor templates is modelled by the rules of the language."),
 ("C154", "proved", ns("Mito.StdSharedPointer", "inv_step", "eq_iff", "kept", "id_identifies", "id_reused", "no_null", "copies_and_moves", "moved_from"), "Of std::shared_ptr is assumed that a resource lives as long as a handle refers to it. An id that is kept longer than the node may be that of a later node (id_reused); handles that were moved from are null and equal to each other (moved_from)."),
 ("C155", "partial", ns("Mito.Functions", "term_exact", "constants_tests_pass", "divide_power_of_two", "divide_error", "pi_sixth", "sixth_nearest", "divide_test_passes", "divide_fails", "term_in_doubles"), "False for quotients: f / a is made as (1.0 / a) * f, which is rounded twice (divide_fails). Proved for sums, differences, products and repeated derivatives (constants_tests_pass), for divisions by powers of two (divide_power_of_two) and for the values of the test (divide_test_passes); in general with twice the relative error of a division (divide_error). The values of sine and cosine are arguments of the model; those of the test are the doubles nearest to the exact values (sixth_nearest)."),
 ("C156", "partial", ns("Mito.RoundedMidpoint", "rounded_exact", "midpoint_between", "sterbenz", "near_points", "zero_points", "coordinates_test", "rounded_fails", "midpoint_in_doubles", "refined_apart"), "False: 0.7 + (0.1 - 0.7) is not 0.1, and the midpoints of 0.1 and 0.5 from either side differ (rounded_fails), so that a refined mesh has two nodes at different places in the middle of an edge (refined_apart). The midpoint always lies between the points (midpoint_between). The rest holds for positive coordinates that differ by a factor of two at most (near_points), and A + (B - A) = B also where one of them is zero (zero_points)."),
 ("C157", "proved", ns("Mito.SegVec", "moved_vectors_are_slots", "moves_do_not_depend_on_addresses", "memory_for_moves", "move_test_passes", "move_and_go_on", "wrong_move_tests_fail", "erased_through_source", "erased_through_source_again", "erased_through_source_runs"), "The moved-from standard containers are taken to be empty, as all implementations leave them. New blocks must be disjoint from the old ones (MFreshMemory), and memory_for_moves shows that this can be met. erased_through_source is the finding: an element erased through the vector it was moved away from."),
 ("C158", "partial", ns("Mito.RoundedForms", "wedge2_swap", "wedge2_forms", "wedge3_swap", "wedge_equal", "basis_exact", "doubles_meet", "first_two_fail", "computed_values"), "False: exchanging the first two of three vectors changes the last digits too, and with two equal vectors there the product is not zero (first_two_fail). The rest holds: two vectors, the last two of three (wedge2_swap, wedge3_swap, wedge_equal), and basis vectors (basis_exact)."),
]
