import Lean.Util.CollectAxioms
import Lean.Elab.Command
import Verif.Props.Addresses
import Verif.Props.Arithmetic
import Verif.Props.Barycentric
import Verif.Props.Benchmarks
import Verif.Props.Blocks
import Verif.Props.Boundary
import Verif.Props.Calculus
import Verif.Props.CalculusTests
import Verif.Props.Characters
import Verif.Props.ClosedBoundary
import Verif.Props.Cloud
import Verif.Props.Combinatorics
import Verif.Props.Components
import Verif.Props.Conditioning
import Verif.Props.Containers
import Verif.Props.Contraction
import Verif.Props.CoordinateSystem
import Verif.Props.Coordinates
import Verif.Props.CosineTests
import Verif.Props.CutFiles
import Verif.Props.Dirichlet
import Verif.Props.Discontinuous
import Verif.Props.DiscreteField
import Verif.Props.DiscreteSystem
import Verif.Props.Discretizer
import Verif.Props.DiskConstraints
import Verif.Props.Distributed
import Verif.Props.DivergenceTheorem
import Verif.Props.Doubles
import Verif.Props.Edges
import Verif.Props.Elements
import Verif.Props.Ellipticity
import Verif.Props.Extraction
import Verif.Props.FieldTests
import Verif.Props.FileNames
import Verif.Props.FilterChains
import Verif.Props.FlipDiagonal
import Verif.Props.FlipVolumes
import Verif.Props.Forms
import Verif.Props.FourthOrder
import Verif.Props.Functions
import Verif.Props.Functors
import Verif.Props.Galerkin
import Verif.Props.GentEnergy
import Verif.Props.GeometricFlip
import Verif.Props.Gradient
import Verif.Props.H1Norm
import Verif.Props.Handles
import Verif.Props.Integrator
import Verif.Props.Lifetimes
import Verif.Props.Load
import Verif.Props.LoadSimplices
import Verif.Props.Manifolds
import Verif.Props.Materials
import Verif.Props.Matrices
import Verif.Props.MaximumPrinciple
import Verif.Props.Mesh
import Verif.Props.MeshPrograms
import Verif.Props.Midpoints
import Verif.Props.MovedVectors
import Verif.Props.NamedClass
import Verif.Props.Nodal
import Verif.Props.NodalFields
import Verif.Props.Options
import Verif.Props.Parallel
import Verif.Props.Parametrization
import Verif.Props.Partition
import Verif.Props.PatchTest
import Verif.Props.PetscHandles
import Verif.Props.PlaneMeshes
import Verif.Props.PointerTests
import Verif.Props.Poisson
import Verif.Props.PoissonConvergence
import Verif.Props.PoissonElements
import Verif.Props.Python
import Verif.Props.QuadraticConvergence
import Verif.Props.Quadrature
import Verif.Props.Quotients
import Verif.Props.Refine
import Verif.Props.RefineIntegral
import Verif.Props.RefineShape
import Verif.Props.RefineSteps
import Verif.Props.RefinedPoisson
import Verif.Props.Renumber
import Verif.Props.RepeatedCells
import Verif.Props.Repository
import Verif.Props.RoundedBlocks
import Verif.Props.RoundedForms
import Verif.Props.RoundedMidpoint
import Verif.Props.RoundedNorms
import Verif.Props.RoundedVolumes
import Verif.Props.Rounding
import Verif.Props.Sanity
import Verif.Props.SegmentConvergence
import Verif.Props.Session
import Verif.Props.SharedPointer
import Verif.Props.Slots
import Verif.Props.Snapshot
import Verif.Props.SpaceTests
import Verif.Props.StdSharedPointer
import Verif.Props.Stokes
import Verif.Props.Summit
import Verif.Props.SummitDamaged
import Verif.Props.Teardown
import Verif.Props.Tetrahedron
import Verif.Props.Topology
import Verif.Props.TopologyTests
import Verif.Props.VTK
import Verif.Props.VTKFields
import Verif.Props.Weakforms
import Verif.Props.WrittenCoordinates

/-!
# Axioms of the property theorems

Generated by tools/gen.py from the manifest.  `assert_standard_axioms` fails the build if a theorem
depends on an axiom other than `propext`, `Classical.choice` and `Quot.sound`.
-/

open Lean Elab Command in
elab "assert_standard_axioms " id:ident : command => do
  let name ← liftCoreM <| realizeGlobalConstNoOverloadWithInfo id
  let axs ← collectAxioms name
  for a in axs do
    unless a == ``propext || a == ``Classical.choice || a == ``Quot.sound do
      throwError "{name} depends on {a}"

assert_standard_axioms Mito.SharedPointer.references_eq_holders_add_selfMoves
assert_standard_axioms Mito.SharedPointer.references_exact_partial
assert_standard_axioms Mito.SharedPointer.held_resource_isValid
assert_standard_axioms Mito.SharedPointer.isValid_iff_held_partial
assert_standard_axioms Mito.SharedPointer.references_not_exact_selfMove
assert_standard_axioms Mito.SharedPointer.references_not_exact_sameResourceMove
assert_standard_axioms Mito.SharedPointer.move_transfers
assert_standard_axioms Mito.SharedPointer.moveAssign_transfers
assert_standard_axioms Mito.SharedPointer.copy_adds_one
assert_standard_axioms Mito.SharedPointer.copyAssign_counts
assert_standard_axioms Mito.SharedPointer.reset_releases
assert_standard_axioms Mito.SharedPointer.destroy_releases
assert_standard_axioms Mito.SharedPointer.copy_null_ub
assert_standard_axioms Mito.SharedPointer.copyAssign_null_ub
assert_standard_axioms Mito.SharedPointer.step_ok_iff
assert_standard_axioms Mito.SharedPointer.isNullptr_step
assert_standard_axioms Mito.SharedPointer.references_defined_iff
assert_standard_axioms Mito.Alloc.insert_not_live
assert_standard_axioms Mito.Alloc.live_in_segment
assert_standard_axioms Mito.Alloc.segments_disjoint
assert_standard_axioms Mito.Alloc.assertions_hold
assert_standard_axioms Mito.SegVec.refines_map
assert_standard_axioms Mito.SegVec.emplace_stable
assert_standard_axioms Mito.SegVec.erase_stable
assert_standard_axioms Mito.SegVec.operations_succeed
assert_standard_axioms Mito.Alloc.size_eq_card
assert_standard_axioms Mito.Alloc.size_le_capacity
assert_standard_axioms Mito.Alloc.grows_iff_full
assert_standard_axioms Mito.Alloc.erase_capacity
assert_standard_axioms Mito.SegVec.vector_size
assert_standard_axioms Mito.Alloc.reuse_fifo
assert_standard_axioms Mito.Alloc.fresh_iff_none_pending
assert_standard_axioms Mito.Alloc.reused_flag
assert_standard_axioms Mito.SegVec.iteration_visits_live
assert_standard_axioms Mito.SegVec.postfix_increment_visits_erased
assert_standard_axioms Mito.SegVec.postfix_eq_prefix_partial
assert_standard_axioms Mito.Alloc.index_eq_iteration
assert_standard_axioms Mito.Alloc.index_injective
assert_standard_axioms Mito.SegVec.erase_idempotent
assert_standard_axioms Mito.SegVec.insert_invalid_copy_is_invisible
assert_standard_axioms Mito.Repo.careful_no_dangling_partial
assert_standard_axioms Mito.Repo.careful_erase_partial
assert_standard_axioms Mito.Repo.erase_reports
assert_standard_axioms Mito.Repo.careful_emplace_partial
assert_standard_axioms Mito.Repo.careful_iteration_partial
assert_standard_axioms Mito.Repo.erase_destroys_referenced
assert_standard_axioms Mito.Repo.erase_then_emplace_aliases
assert_standard_axioms Mito.Repo.erase_twice_ub
assert_standard_axioms Mito.Combinatorics.permutationSign_eq_sign
assert_standard_axioms Mito.Combinatorics.permutationSign_self
assert_standard_axioms Mito.Combinatorics.permutationSign_swap
assert_standard_axioms Mito.Combinatorics.permutationSign_symm
assert_standard_axioms Mito.Combinatorics.permutationSign_none
assert_standard_axioms Mito.Combinatorics.permutationSign_repeated
assert_standard_axioms Mito.Combinatorics.permutationSign_repeated_witness
assert_standard_axioms Mito.Topology.isValid_perm
assert_standard_axioms Mito.Topology.isValid_triangle_iff_loop
assert_standard_axioms Mito.Topology.isValid_tetrahedron_accepts_pillow
assert_standard_axioms Mito.Topology.oriented_unique
assert_standard_axioms Mito.Topology.footprint_unique
assert_standard_axioms Mito.Topology.request_by_footprint
assert_standard_axioms Mito.Topology.request_by_composition
assert_standard_axioms Mito.Topology.request_again
assert_standard_axioms Mito.Topology.request_vertices_again
assert_standard_axioms Mito.Topology.request_vertices_leaves_temporaries
assert_standard_axioms Mito.Topology.flip_flip
assert_standard_axioms Mito.Topology.existsFlipped_iff
assert_standard_axioms Mito.Topology.flip_succeeds
assert_standard_axioms Mito.Topology.fromVertices_permuted
assert_standard_axioms Mito.Topology.fromVertices_even
assert_standard_axioms Mito.Topology.fromVertices_odd
assert_standard_axioms Mito.Topology.fromVertices_defined
assert_standard_axioms Mito.Topology.fromVertices_vertices
assert_standard_axioms Mito.Topology.fromVertices_vertices_fails
assert_standard_axioms Mito.Topology.erase_inUse
assert_standard_axioms Mito.Topology.erase_keeps_held
assert_standard_axioms Mito.Topology.erase_keeps_footprints
assert_standard_axioms Mito.Topology.erase_frame
assert_standard_axioms Mito.Topology.step_handles
assert_standard_axioms Mito.Topology.held_simplex_survives
assert_standard_axioms Mito.Topology.held_footprint_survives
assert_standard_axioms Mito.Topology.erase_frees
assert_standard_axioms Mito.Topology.existsComp_iff
assert_standard_axioms Mito.Topology.existsComp_total
assert_standard_axioms Mito.Topology.existsComp_created_erased
assert_standard_axioms Mito.Topology.alive_until_erased
assert_standard_axioms Mito.Topology.existsSegment_partial
assert_standard_axioms Mito.Topology.existsSegment_misses
assert_standard_axioms Mito.Meshes.orientations_recount
assert_standard_axioms Mito.Meshes.orientations_history_independent
assert_standard_axioms Mito.Meshes.mesh_operations_succeed
assert_standard_axioms Mito.Meshes.insert_erased_cell_invisible
assert_standard_axioms Mito.Meshes.isOnBoundary_iff
assert_standard_axioms Mito.Meshes.boundary_collects
assert_standard_axioms Mito.Meshes.boundarySize_eq
assert_standard_axioms Mito.Meshes.boundary_succeeds
assert_standard_axioms Mito.Meshes.unpaired_iff_once
assert_standard_axioms Mito.Meshes.composition_triangle
assert_standard_axioms Mito.Meshes.boundary_depends_on_history
assert_standard_axioms Mito.Meshes.boundarySize_counts_nodes_twice
assert_standard_axioms Mito.Meshes.boundary_boundary_cancels
assert_standard_axioms Mito.Meshes.boundary_boundary_empty
assert_standard_axioms Mito.Meshes.boundary_boundary_not_empty
assert_standard_axioms Mito.Meshes.eraseDuplicates_keeps_first
assert_standard_axioms Mito.Meshes.keepFirst_spec
assert_standard_axioms Mito.Meshes.insertAll_cells
assert_standard_axioms Mito.Meshes.filter_collects
assert_standard_axioms Mito.Meshes.filter_count
assert_standard_axioms Mito.Meshes.filter_succeeds
assert_standard_axioms Mito.Meshes.partition_cells
assert_standard_axioms Mito.Meshes.colored_sublist
assert_standard_axioms Mito.Meshes.colored_positions
assert_standard_axioms Mito.Meshes.partition_cover
assert_standard_axioms Mito.Meshes.partition_single
assert_standard_axioms Mito.Meshes.connectivity_defined
assert_standard_axioms Mito.Meshes.connectivity_numbering
assert_standard_axioms Mito.Refine.refine_count
assert_standard_axioms Mito.Refine.refine_children
assert_standard_axioms Mito.Refine.refine_total_volume
assert_standard_axioms Mito.Refine.refine_fills
assert_standard_axioms Mito.Refine.refine_conforming_fails
assert_standard_axioms Mito.Refine.refine_not_conforming
assert_standard_axioms Mito.Refine.refine_shares_only_old_nodes
assert_standard_axioms Mito.Refine.refine_append
assert_standard_axioms Mito.Refine.refine_new_nodes_partial
assert_standard_axioms Mito.Topology.flip_outline_fails
assert_standard_axioms Mito.Topology.flip_triangles_partial
assert_standard_axioms Mito.Topology.flip_outline_partial
assert_standard_axioms Mito.Topology.flip_succeeds_partial
assert_standard_axioms Mito.Topology.flip_involution_partial
assert_standard_axioms Mito.Topology.flip_follows_compositions
assert_standard_axioms Mito.Topology.around_iff
assert_standard_axioms Mito.Meshes.flipDiagonal_nodes
assert_standard_axioms Mito.Topology.flip_throws_fails
assert_standard_axioms Mito.Topology.flip_throws_iff
assert_standard_axioms Mito.Topology.flip_cases_partial
assert_standard_axioms Mito.Summit.summit_write_succeeds
assert_standard_axioms Mito.Summit.summit_read_write
assert_standard_axioms Mito.Summit.summit_round_trip_partial
assert_standard_axioms Mito.Summit.summit_element_type_fails
assert_standard_axioms Mito.Summit.summit_nodes_fail
assert_standard_axioms Mito.VTK.vtk_grid
assert_standard_axioms Mito.VTK.vtk_mesh_grid
assert_standard_axioms Mito.VTK.vtk_field
assert_standard_axioms Mito.VTK.vtk_cloud
assert_standard_axioms Mito.DiscreteSystem.equations_number
assert_standard_axioms Mito.DiscreteSystem.assemble_sum
assert_standard_axioms Mito.DiscreteSystem.computeBlocks_sum
assert_standard_axioms Mito.DiscreteSystem.assemble_symmetric
assert_standard_axioms Mito.DiscreteSystem.assemble_bilinear
assert_standard_axioms Mito.DiscreteSystem.create_field
assert_standard_axioms Mito.DiscreteSystem.readSolution_field
assert_standard_axioms Mito.DiscreteSystem.prescribed_fails
assert_standard_axioms Mito.DiscreteSystem.constrained_zero
assert_standard_axioms Mito.DiscreteSystem.prescribed_partial
assert_standard_axioms Mito.DiscreteSystem.solveTimes_eq
assert_standard_axioms Mito.DiscreteSystem.solve_again
assert_standard_axioms Mito.DiscreteSystem.exact_exists
assert_standard_axioms Mito.Discretizer.p1_shares_nodes
assert_standard_axioms Mito.Discretizer.p1_constrained
assert_standard_axioms Mito.Discretizer.p2_shares_places
assert_standard_axioms Mito.Discretizer.p2_constrained
assert_standard_axioms Mito.Discretizer.p2_constrained_throws
assert_standard_axioms Mito.DiscreteField.field_value
assert_standard_axioms Mito.DiscreteField.field_throws
assert_standard_axioms Mito.DiscreteField.field_insert_present
assert_standard_axioms Mito.DiscreteField.field_size
assert_standard_axioms Mito.DiscreteField.field_debug
assert_standard_axioms Mito.DiscreteField.field_release
assert_standard_axioms Mito.DiscreteField.field_ofKeys
assert_standard_axioms Mito.Functions.derivative_correct
assert_standard_axioms Mito.Functions.derivative_iterate
assert_standard_axioms Mito.Functions.smooth_defined
assert_standard_axioms Mito.Functions.partial_correct
assert_standard_axioms Mito.Functions.total_correct
assert_standard_axioms Mito.Functions.partials_correct
assert_standard_axioms Mito.Functions.gradient_correct
assert_standard_axioms Mito.Functions.gradientV_correct
assert_standard_axioms Mito.Functions.jacobian_correct
assert_standard_axioms Mito.Functions.jacobianVS_correct
assert_standard_axioms Mito.Functions.jacobianSV_correct
assert_standard_axioms Mito.Functions.divergence_correct
assert_standard_axioms Mito.Functions.divergenceT_correct
assert_standard_axioms Mito.Functions.gradient_again
assert_standard_axioms Mito.Functions.laplacian_correct
assert_standard_axioms Mito.Functions.gradient_linear
assert_standard_axioms Mito.Functions.gradient_product
assert_standard_axioms Mito.Functions.pointwise_sums
assert_standard_axioms Mito.Functions.pointwise_quotients
assert_standard_axioms Mito.Functions.pointwise_products
assert_standard_axioms Mito.Functions.pointwise_lin
assert_standard_axioms Mito.Functions.pointwise_comp
assert_standard_axioms Mito.Functions.pointwise_pow
assert_standard_axioms Mito.Functions.pointwise_inverse
assert_standard_axioms Mito.Fem.shape_partition
assert_standard_axioms Mito.Fem.shape_seg1_nodal
assert_standard_axioms Mito.Fem.shape_tri1_nodal
assert_standard_axioms Mito.Fem.shape_tri2_nodal
assert_standard_axioms Mito.Fem.shape_seg1_affine
assert_standard_axioms Mito.Fem.shape_tri1_affine
assert_standard_axioms Mito.Fem.shape_tri2_quadratic
assert_standard_axioms Mito.Fem.parametrization_nodes
assert_standard_axioms Mito.Fem.jacobian_correct
assert_standard_axioms Mito.Fem.jacobian_entries
assert_standard_axioms Mito.Fem.jacobian_det
assert_standard_axioms Mito.Fem.gradient_correct
assert_standard_axioms Mito.Fem.gradients_zero
assert_standard_axioms Mito.Fem.jacobian_tri2
assert_standard_axioms Mito.Fem.gradGrad_symmetric
assert_standard_axioms Mito.Fem.mass_symmetric
assert_standard_axioms Mito.Fem.gradGrad_constants
assert_standard_axioms Mito.Fem.gradGrad_psd
assert_standard_axioms Mito.Fem.mass_psd
assert_standard_axioms Mito.Fem.mass_volume
assert_standard_axioms Mito.Fem.gradGrad_definite
assert_standard_axioms Mito.Fem.gradGrad_seg1
assert_standard_axioms Mito.Fem.h1Norm_fails
assert_standard_axioms Mito.Fem.h1Norm_eq
assert_standard_axioms Mito.Fem.h1Norm_partial
assert_standard_axioms Mito.Fem.l2Norm_eq
assert_standard_axioms Mito.Fem.l2Norm_distance
assert_standard_axioms Mito.Fem.l2Norm_inverted
assert_standard_axioms Mito.Fem.sourceTerm_total
assert_standard_axioms Mito.Fem.sourceTerm_linear
assert_standard_axioms Mito.Fem.localize_fem
assert_standard_axioms Mito.Fem.localize_fem_gradient
assert_standard_axioms Mito.Fem.localize_field
assert_standard_axioms Mito.Quadrature.tables_accurate
assert_standard_axioms Mito.Quadrature.segment1_accurate
assert_standard_axioms Mito.Quadrature.segment2_accurate
assert_standard_axioms Mito.Quadrature.triangle1_accurate
assert_standard_axioms Mito.Quadrature.triangle2_accurate
assert_standard_axioms Mito.Quadrature.triangle3_accurate
assert_standard_axioms Mito.Quadrature.triangle4_accurate
assert_standard_axioms Mito.Quadrature.tetrahedron1_accurate
assert_standard_axioms Mito.Quadrature.tetrahedron2_accurate
assert_standard_axioms Mito.Quadrature.not_more_accurate
assert_standard_axioms Mito.Quadrature.tables_inside
assert_standard_axioms Mito.Quadrature.weights_sum
assert_standard_axioms Mito.Quadrature.mass_tri1
assert_standard_axioms Mito.Tensor.oneForm_linear
assert_standard_axioms Mito.Tensor.wedge2_det
assert_standard_axioms Mito.Tensor.wedge3_det
assert_standard_axioms Mito.Tensor.wedge2_bilinear
assert_standard_axioms Mito.Tensor.wedge2_alternating
assert_standard_axioms Mito.Tensor.wedge3_trilinear
assert_standard_axioms Mito.Tensor.wedge3_alternating
assert_standard_axioms Mito.Tensor.wedge_swap
assert_standard_axioms Mito.Tensor.wedge3_tensor
assert_standard_axioms Mito.Tensor.wedge12_fails
assert_standard_axioms Mito.Tensor.wedge12_alternating_iff
assert_standard_axioms Mito.Tensor.wedge12_difference
assert_standard_axioms Mito.Tensor.wedge12_partial
assert_standard_axioms Mito.Tensor.wedge12_partial_swap
assert_standard_axioms Mito.Geometry.cartesian_affine
assert_standard_axioms Mito.Geometry.cartesian_midpoint
assert_standard_axioms Mito.Geometry.cartesian_distance
assert_standard_axioms Mito.Geometry.cartesian_barycenter
assert_standard_axioms Mito.Geometry.polar_algebra
assert_standard_axioms Mito.Geometry.polar_frame
assert_standard_axioms Mito.Geometry.polar_midpoint
assert_standard_axioms Mito.Geometry.polar_distance
assert_standard_axioms Mito.Geometry.polar_barycenter
assert_standard_axioms Mito.Geometry.polar_add_radius
assert_standard_axioms Mito.Geometry.spherical_algebra
assert_standard_axioms Mito.Geometry.spherical_frame
assert_standard_axioms Mito.Geometry.spherical_midpoint
assert_standard_axioms Mito.Geometry.spherical_distance
assert_standard_axioms Mito.Geometry.spherical_barycenter
assert_standard_axioms Mito.Geometry.spherical_add_range
assert_standard_axioms Mito.Geometry.cartesian_polar_cartesian
assert_standard_axioms Mito.Geometry.cartesian_spherical_cartesian
assert_standard_axioms Mito.Geometry.polar_cartesian_polar
assert_standard_axioms Mito.Geometry.polar_cartesian_polar_eq
assert_standard_axioms Mito.Geometry.spherical_cartesian_spherical
assert_standard_axioms Mito.Geometry.spherical_cartesian_spherical_eq
assert_standard_axioms Mito.Geometry.coordinateFunction_fails
assert_standard_axioms Mito.Geometry.coordinateFunction_partial
assert_standard_axioms Mito.Geometry.cartesian_dual
assert_standard_axioms Mito.Geometry.polar_dual
assert_standard_axioms Mito.Geometry.spherical_dual
assert_standard_axioms Mito.Geometry.cartesian_w
assert_standard_axioms Mito.Geometry.polar_w
assert_standard_axioms Mito.Geometry.spherical_w
assert_standard_axioms Mito.Geometry.volume_cartesian
assert_standard_axioms Mito.Geometry.volume_polar
assert_standard_axioms Mito.Geometry.volume_spherical
assert_standard_axioms Mito.Geometry.metric_equivalent_fails
assert_standard_axioms Mito.Geometry.metric_equivalent_partial_cartesian
assert_standard_axioms Mito.Geometry.metric_equivalent_partial_polar
assert_standard_axioms Mito.Geometry.metric_equivalent_partial_spherical
assert_standard_axioms Mito.Geometry.metric_equivalent_partial_form
assert_standard_axioms Mito.Geometry.volume_translation
assert_standard_axioms Mito.Geometry.volume_permutation
assert_standard_axioms Mito.Geometry.volume_swap
assert_standard_axioms Mito.Geometry.volume_zero
assert_standard_axioms Mito.Geometry.volume_linear
assert_standard_axioms Mito.Geometry.cartesian_basis
assert_standard_axioms Mito.Geometry.polar_basis
assert_standard_axioms Mito.Geometry.spherical_basis
assert_standard_axioms Mito.Geometry.gram_cartesian
assert_standard_axioms Mito.Geometry.gram_polar
assert_standard_axioms Mito.Geometry.gram_spherical
assert_standard_axioms Mito.Geometry.Chart.subVolume
assert_standard_axioms Mito.Geometry.subVolume_segment
assert_standard_axioms Mito.Geometry.subVolume_triangle
assert_standard_axioms Mito.Geometry.parallelotope_one
assert_standard_axioms Mito.Geometry.parallelotope_two
assert_standard_axioms Mito.Geometry.parametrization_barycentric
assert_standard_axioms Mito.Geometry.parametrization_vertex
assert_standard_axioms Mito.Geometry.parametrization_affine
assert_standard_axioms Mito.Geometry.parametrization_image
assert_standard_axioms Mito.Geometry.parametrization_unique
assert_standard_axioms Mito.Quadrature.integrate_value
assert_standard_axioms Mito.Quadrature.integrate_aborts
assert_standard_axioms Mito.Quadrature.integrate_release
assert_standard_axioms Mito.Quadrature.integrate_linear
assert_standard_axioms Mito.Quadrature.integrate_append
assert_standard_axioms Mito.Quadrature.integrate_perm
assert_standard_axioms Mito.Quadrature.integrate_const
assert_standard_axioms Mito.Quadrature.integrate_one
assert_standard_axioms Mito.Quadrature.integral_hull
assert_standard_axioms Mito.Quadrature.volume_hull
assert_standard_axioms Mito.Quadrature.volume_lebesgue
assert_standard_axioms Mito.Quadrature.integrate_accurate
assert_standard_axioms Mito.Quadrature.integrate_exact
assert_standard_axioms Mito.Quadrature.integrate_tables
assert_standard_axioms Mito.Quadrature.rules_accurate
assert_standard_axioms Mito.Geometry.placeAll_new
assert_standard_axioms Mito.Geometry.placeAll_coordinates
assert_standard_axioms Mito.Geometry.placeAll_strict
assert_standard_axioms Mito.Geometry.placeAll_release
assert_standard_axioms Mito.Geometry.change_eq
assert_standard_axioms Mito.Geometry.change_coordinates
assert_standard_axioms Mito.Geometry.change_round_trip
assert_standard_axioms Mito.Geometry.change_polar
assert_standard_axioms Mito.Geometry.change_spherical
assert_standard_axioms Mito.Geometry.points_placed
assert_standard_axioms Mito.Materials.LinearElastic.stress_consistent
assert_standard_axioms Mito.Materials.LinearElastic.tangents_consistent
assert_standard_axioms Mito.Materials.LinearElastic.tangents_apply
assert_standard_axioms Mito.Materials.LinearElastic.tangents_symmetric
assert_standard_axioms Mito.Materials.LinearElastic.stress_symmetric
assert_standard_axioms Mito.Materials.LinearElastic.rotation
assert_standard_axioms Mito.Materials.LinearElastic.undeformed
assert_standard_axioms Mito.Materials.LinearElastic.energy_pos
assert_standard_axioms Mito.Materials.stress_unique
assert_standard_axioms Mito.Materials.Gent.stress_consistent
assert_standard_axioms Mito.Materials.Gent.tangents_consistent
assert_standard_axioms Mito.Materials.Gent.tangents_symmetric
assert_standard_axioms Mito.Materials.Gent.undeformed
assert_standard_axioms Mito.Materials.Gent.tangents_undeformed
assert_standard_axioms Mito.Materials.Gent.frame_indifferent
assert_standard_axioms Mito.Options.prefix_words
assert_standard_axioms Mito.Options.prefix_read_back
assert_standard_axioms Mito.Options.prefix_empty
assert_standard_axioms Mito.Options.prefix_injective
assert_standard_axioms Mito.Options.prefix_keys_partial
assert_standard_axioms Mito.Options.prefix_corrupts_values
assert_standard_axioms Mito.Options.prefix_misses_tab
assert_standard_axioms Mito.SegVec.vector_destructor
assert_standard_axioms Mito.Repo.repository_destructor_destroys_twice
assert_standard_axioms Mito.Repo.repository_destructor_partial
assert_standard_axioms Mito.Alloc.destructor_frees_once
assert_standard_axioms Mito.Alloc.move_empties_source
assert_standard_axioms Mito.Materials.linearElastic_testStress
assert_standard_axioms Mito.Materials.linearElastic_testTangents
assert_standard_axioms Mito.Materials.linearElastic_wrong_passes
assert_standard_axioms Mito.Materials.testStress_vacuous
assert_standard_axioms Mito.Meshes.stokes_segments
assert_standard_axioms Mito.Meshes.stokes_triangles
assert_standard_axioms Mito.Meshes.stokes_tetrahedra
assert_standard_axioms Mito.Meshes.divergence_triangles
assert_standard_axioms Mito.Meshes.area_by_boundary
assert_standard_axioms Mito.Meshes.divergence_tetrahedra
assert_standard_axioms Mito.Meshes.volume_by_boundary
assert_standard_axioms Mito.Meshes.boundary_points_inwards
assert_standard_axioms Mito.DiscreteSystem.matrix_form
assert_standard_axioms Mito.DiscreteSystem.rhs_load
assert_standard_axioms Mito.DiscreteSystem.matrix_definite
assert_standard_axioms Mito.DiscreteSystem.matrix_isUnit
assert_standard_axioms Mito.DiscreteSystem.matrix_singular
assert_standard_axioms Mito.DiscreteSystem.wellposed_iff
assert_standard_axioms Mito.DiscreteSystem.solve_galerkin
assert_standard_axioms Mito.DiscreteSystem.galerkin_minimises
assert_standard_axioms Mito.Fem.stiff_seg1
assert_standard_axioms Mito.Fem.stiff_tri1
assert_standard_axioms Mito.Fem.stiff_tri2
assert_standard_axioms Mito.Fem.rules_collinear
assert_standard_axioms Mito.Fem.tri2_underintegrated
assert_standard_axioms Mito.Fem.elliptic_poisson
assert_standard_axioms Mito.Fem.poisson_wellposed
assert_standard_axioms Mito.Fem.poisson_solved
assert_standard_axioms Mito.Fem.nodal_galerkin
assert_standard_axioms Mito.Fem.nodal_solved
assert_standard_axioms Mito.Fem.nodal_exactness
assert_standard_axioms Mito.Fem.nodal_constant
assert_standard_axioms Mito.Fem.segment_rules
assert_standard_axioms Mito.Meshes.components_segments
assert_standard_axioms Mito.Meshes.components_triangles
assert_standard_axioms Mito.Meshes.components_tetrahedra
assert_standard_axioms Mito.Fem.dirichlet_seg1
assert_standard_axioms Mito.Fem.dirichlet_tri1
assert_standard_axioms Mito.Fem.dirichlet_tri2
assert_standard_axioms Mito.DiscreteSystem.nonneg_solution
assert_standard_axioms Mito.Fem.gradGrad_tri1
assert_standard_axioms Mito.Fem.offDiagonal_tri1
assert_standard_axioms Mito.Fem.offDiagonal_seg1
assert_standard_axioms Mito.Fem.load_tri1
assert_standard_axioms Mito.Fem.load_seg1
assert_standard_axioms Mito.Fem.poisson_nonneg
assert_standard_axioms Mito.Fem.patch_seg1
assert_standard_axioms Mito.Fem.patch_tri1
assert_standard_axioms Mito.Fem.patch_tri2
assert_standard_axioms Mito.Fem.rules_centred
assert_standard_axioms Mito.Topology.sanityCheck_iff
assert_standard_axioms Mito.Topology.sanityCheck_of_vertices
assert_standard_axioms Mito.Topology.sanityCheck_fails
assert_standard_axioms Mito.Topology.isValid_tetrahedron_iff
assert_standard_axioms Mito.Topology.sanityCheck_tetrahedron
assert_standard_axioms Mito.Meshes.flip_cell
assert_standard_axioms Mito.Meshes.flip_cell_defined
assert_standard_axioms Mito.Meshes.flip_cell_twice
assert_standard_axioms Mito.Meshes.mem_getNodes
assert_standard_axioms Mito.Quadrature.apply_renumber
assert_standard_axioms Mito.Quadrature.integrate_renumber
assert_standard_axioms Mito.Quadrature.integrate_flip
assert_standard_axioms Mito.Quadrature.volume_renumber
assert_standard_axioms Mito.Quadrature.subVolume_renumber
assert_standard_axioms Mito.Quadrature.subVolume_order_fails
assert_standard_axioms Mito.Quadrature.rules_symmetric
assert_standard_axioms Mito.Refine.refine_size
assert_standard_axioms Mito.Refine.refine_size_tetrahedra
assert_standard_axioms Mito.Refine.refine_size_tight
assert_standard_axioms Mito.Refine.refine_size_tends
assert_standard_axioms Mito.Refine.refine_similar
assert_standard_axioms Mito.Refine.refine_corners_partial
assert_standard_axioms Mito.Refine.refine_stretches
assert_standard_axioms Mito.Refine.refine_degenerates
assert_standard_axioms Mito.Quadrature.refine_integral_variation
assert_standard_axioms Mito.Quadrature.refine_integral_error
assert_standard_axioms Mito.Quadrature.refine_integral_error_tetrahedra
assert_standard_axioms Mito.Quadrature.refine_integral_order
assert_standard_axioms Mito.Quadrature.refine_integral_converges
assert_standard_axioms Mito.Quadrature.mesh_integral
assert_standard_axioms Mito.Quadrature.rules_converge
assert_standard_axioms Mito.Refine.refine_shape
assert_standard_axioms Mito.Refine.refine_steps
assert_standard_axioms Mito.Refine.refine_steps_count_partial
assert_standard_axioms Mito.Refine.refine_steps_fails
assert_standard_axioms Mito.Fem.poisson_error
assert_standard_axioms Mito.Fem.poisson_error_l2
assert_standard_axioms Mito.Fem.poisson_order
assert_standard_axioms Mito.Fem.poisson_order_l2
assert_standard_axioms Mito.Fem.poisson_converges
assert_standard_axioms Mito.Fem.exUnitFan_triangulates
assert_standard_axioms Mito.Summit.reader_valid
assert_standard_axioms Mito.Summit.summit_truncated
assert_standard_axioms Mito.Summit.summit_truncated_release
assert_standard_axioms Mito.Summit.summit_trailing
assert_standard_axioms Mito.Summit.summit_damaged_fails
assert_standard_axioms Mito.Fem.refined_all_on_boundary
assert_standard_axioms Mito.Fem.refined_segments
assert_standard_axioms Mito.Fem.refined_boundary
assert_standard_axioms Mito.Fem.poisson_refined_zero
assert_standard_axioms Mito.Fem.poisson_refined_error
assert_standard_axioms Mito.Fem.segments_error
assert_standard_axioms Mito.Fem.segments_error_l2
assert_standard_axioms Mito.Fem.segments_order
assert_standard_axioms Mito.Fem.segments_order_l2
assert_standard_axioms Mito.Fem.boundary_once
assert_standard_axioms Mito.Fem.segments_refined
assert_standard_axioms Mito.Fem.segments_refined_l2
assert_standard_axioms Mito.Fem.segments_rules
assert_standard_axioms Mito.Handles.no_misuse_iff
assert_standard_axioms Mito.Handles.released_iff_clean
assert_standard_axioms Mito.Handles.solve_current
assert_standard_axioms Mito.Handles.solvers_released
assert_standard_axioms Mito.Handles.handles_fail
assert_standard_axioms Mito.nearest_rounds
assert_standard_axioms Mito.Refine.refine_rounded
assert_standard_axioms Mito.Refine.tetraWith_midpoint
assert_standard_axioms Mito.Refine.midpoint_asymmetric
assert_standard_axioms Mito.Quadrature.integrate_rounded
assert_standard_axioms Mito.Quadrature.triangles_rounded
assert_standard_axioms Mito.Quadrature.divergence_theorem
assert_standard_axioms Mito.Quadrature.divergence_theorem_exact
assert_standard_axioms Mito.Quadrature.divergence_theorem_tetrahedra
assert_standard_axioms Mito.Quadrature.divergence_theorem_fails
assert_standard_axioms Mito.Quadrature.corner_normals_fail
assert_standard_axioms Mito.Fem.poisson_order_tri2
assert_standard_axioms Mito.Fem.poisson_order_tri2_l2
assert_standard_axioms Mito.Fem.rule_quadratic
assert_standard_axioms Mito.Fem.exUnitFan_quadratic
assert_standard_axioms Mito.Load.load_succeeds
assert_standard_axioms Mito.Load.load_triangulates
assert_standard_axioms Mito.Load.load_fine
assert_standard_axioms Mito.Load.load_vanishes
assert_standard_axioms Mito.Load.poisson_file
assert_standard_axioms Mito.Load.square_file
assert_standard_axioms Mito.Load.poisson_square
assert_standard_axioms Mito.Load.clockwise_accepted
assert_standard_axioms Mito.Fem.h1Norm_le_l2
assert_standard_axioms Mito.Fem.l2Norm_le_h1
assert_standard_axioms Mito.Fem.h1Norm_le_l2Norm_seg
assert_standard_axioms Mito.Fem.h1Norm_le_l2Norm_tri
assert_standard_axioms Mito.Fem.h1Norm_small
assert_standard_axioms Mito.Fem.h1Norm_no_bound
assert_standard_axioms Mito.Fem.h1Norm_not_equivalent
assert_standard_axioms Mito.Fem.poisson_conditioned
assert_standard_axioms Mito.Fem.poisson_inexact
assert_standard_axioms Mito.Fem.poisson_inexact_l2
assert_standard_axioms Mito.Fem.poisson_order_inexact
assert_standard_axioms Mito.Fem.poisson_stagnates
assert_standard_axioms Mito.DiscreteSystem.relative_zero
assert_standard_axioms Mito.DiscreteSystem.relative_energy
assert_standard_axioms Mito.Load.discontinuous_succeeds
assert_standard_axioms Mito.Load.discontinuous_poisson
assert_standard_axioms Mito.Load.square_discontinuous
assert_standard_axioms Mito.Fem.discontinuous_seg1
assert_standard_axioms Mito.Fem.discontinuous_tri1
assert_standard_axioms Mito.Fem.discontinuous_tri2
assert_standard_axioms Mito.Summit.write_points
assert_standard_axioms Mito.Topology.teardown_safe
assert_standard_axioms Mito.Topology.teardown_exact
assert_standard_axioms Mito.Topology.teardown_counts_wrong
assert_standard_axioms Mito.Topology.exit_safe_iff
assert_standard_axioms Mito.Topology.exit_safe_late
assert_standard_axioms Mito.Topology.slots_exist
assert_standard_axioms Mito.Parallel.tasks_agree
assert_standard_axioms Mito.Parallel.parts_fit
assert_standard_axioms Mito.Parallel.parallel_integral
assert_standard_axioms Mito.Parallel.label_dependent_lost
assert_standard_axioms Mito.Parallel.label_dependent_twice
assert_standard_axioms Mito.Parallel.local_iff
assert_standard_axioms Mito.Parallel.reduce_iff
assert_standard_axioms Mito.Session.process_iff
assert_standard_axioms Mito.Session.process_end
assert_standard_axioms Mito.Session.order_matters
assert_standard_axioms Mito.Cloud.run_points
assert_standard_axioms Mito.Cloud.writer_iff
assert_standard_axioms Mito.Cloud.writer_grid
assert_standard_axioms Mito.Cloud.writer_fails
assert_standard_axioms Mito.Cloud.record_iff
assert_standard_axioms Mito.Cloud.field_made
assert_standard_axioms Mito.FileNames.numbered_inj
assert_standard_axioms Mito.FileNames.dataFile_eq_iff
assert_standard_axioms Mito.FileNames.no_clash_iff
assert_standard_axioms Mito.FileNames.parallel_no_clash
assert_standard_axioms Mito.FileNames.summary_different
assert_standard_axioms Mito.FileNames.summary_name
assert_standard_axioms Mito.Fem.weakform_poisson
assert_standard_axioms Mito.Fem.weakform_wellposed_iff
assert_standard_axioms Mito.Fem.mass_wellposed
assert_standard_axioms Mito.Fem.reaction_wellposed
assert_standard_axioms Mito.Fem.mass_singular
assert_standard_axioms Mito.Fem.unisolvent_seg1
assert_standard_axioms Mito.Fem.unisolvent_tri1
assert_standard_axioms Mito.Fem.unisolvent_tri2
assert_standard_axioms Mito.Fem.mass_tri2
assert_standard_axioms Mito.Fem.reaction_tri1
assert_standard_axioms Mito.Fem.weakform_solved
assert_standard_axioms Mito.Fem.projection_pythagoras
assert_standard_axioms Mito.Fem.projection_best
assert_standard_axioms Mito.Fem.projection_exact
assert_standard_axioms Mito.Fem.represents_polynomials
assert_standard_axioms Mito.Fem.reaction_stable
assert_standard_axioms Mito.Lifetimes.supported_defined
assert_standard_axioms Mito.Lifetimes.scoped_defined
assert_standard_axioms Mito.Lifetimes.benchmark_defined
assert_standard_axioms Mito.Lifetimes.destroy_frame
assert_standard_axioms Mito.Lifetimes.solve_defined_iff
assert_standard_axioms Mito.Lifetimes.addBlock_adds
assert_standard_axioms Mito.Lifetimes.norm_defined_iff
assert_standard_axioms Mito.Lifetimes.setup_objects
assert_standard_axioms Mito.Lifetimes.integrate_defined_iff
assert_standard_axioms Mito.Lifetimes.solve_without_manifold
assert_standard_axioms Mito.Lifetimes.solve_without_mesh_iff
assert_standard_axioms Mito.Lifetimes.temporary_block
assert_standard_axioms Mito.Lifetimes.temporary_field
assert_standard_axioms Mito.Lifetimes.late_block
assert_standard_axioms Mito.Lifetimes.temporary_tolerance
assert_standard_axioms Mito.Lifetimes.local_mesh
assert_standard_axioms Mito.Snapshot.element_now
assert_standard_axioms Mito.Snapshot.element_kept
assert_standard_axioms Mito.Snapshot.monotone_kept
assert_standard_axioms Mito.Snapshot.exchange
assert_standard_axioms Mito.Snapshot.exchange_stale
assert_standard_axioms Mito.Snapshot.exchange_example
assert_standard_axioms Mito.Snapshot.elements_made
assert_standard_axioms Mito.Snapshot.hybrid_blocks
assert_standard_axioms Mito.Snapshot.hybrid_source_iff
assert_standard_axioms Mito.Snapshot.hybrid_self
assert_standard_axioms Mito.Snapshot.integrateLater_self
assert_standard_axioms Mito.Snapshot.integrateLater_throws
assert_standard_axioms Mito.Snapshot.integrateLater_value
assert_standard_axioms Mito.Snapshot.writeLater_self
assert_standard_axioms Mito.Snapshot.writeLater_isSome
assert_standard_axioms Mito.Snapshot.read_writeLater
assert_standard_axioms Mito.Snapshot.orphan_points
assert_standard_axioms Mito.Distributed.rows_split
assert_standard_axioms Mito.Distributed.getSolution_defined_iff
assert_standard_axioms Mito.Distributed.getSolution_last
assert_standard_axioms Mito.Distributed.matrix_sum
assert_standard_axioms Mito.Distributed.rhs_owner
assert_standard_axioms Mito.Distributed.assembled_rhs_sum
assert_standard_axioms Mito.Distributed.inserted_alike
assert_standard_axioms Mito.Distributed.tasks_matrix
assert_standard_axioms Mito.Distributed.solveTasks_cases
assert_standard_axioms Mito.Distributed.solveTasks_one
assert_standard_axioms Mito.Distributed.replicated_system
assert_standard_axioms Mito.Distributed.replicated_solution
assert_standard_axioms Mito.Distributed.replicated_inserts
assert_standard_axioms Mito.Distributed.numbering_mixes
assert_standard_axioms Mito.Distributed.parts_collide
assert_standard_axioms Mito.Functions.derivatives_perm
assert_standard_axioms Mito.Functions.derivatives_values
assert_standard_axioms Mito.Functions.gradientV_again
assert_standard_axioms Mito.Functions.divergence_again
assert_standard_axioms Mito.Functions.gradient_derivative
assert_standard_axioms Mito.Functions.gradientV_derivative
assert_standard_axioms Mito.Functions.divergence_derivative
assert_standard_axioms Mito.Functions.hessian_symmetric
assert_standard_axioms Mito.Functions.div_grad_transposed
assert_standard_axioms Mito.Functions.div_grad
assert_standard_axioms Mito.Functions.divergence_product
assert_standard_axioms Mito.Functions.divergence_linear
assert_standard_axioms Mito.Functions.gradient_comp
assert_standard_axioms Mito.Functions.laplacian_product
assert_standard_axioms Mito.Functions.jacobian_gradient
assert_standard_axioms Mito.Functions.divergence_trace
assert_standard_axioms Mito.Geometry.gradientForm_basis
assert_standard_axioms Mito.Geometry.gradientVector_formula
assert_standard_axioms Mito.Geometry.gradientVector_correct
assert_standard_axioms Mito.Geometry.fieldsGradient_iff
assert_standard_axioms Mito.Geometry.cartesian_gradient
assert_standard_axioms Mito.Geometry.polar_gradient
assert_standard_axioms Mito.Geometry.spherical_gradient
assert_standard_axioms Mito.Geometry.polar_fieldsGradient_iff
assert_standard_axioms Mito.Geometry.polar_divergence
assert_standard_axioms Mito.Geometry.polar_fieldsDivergence_iff
assert_standard_axioms Mito.Geometry.spherical_divergence
assert_standard_axioms Mito.Geometry.fieldsGradient_fails
assert_standard_axioms Mito.Geometry.fieldsDivergence_fails
assert_standard_axioms Mito.Load.load_simplices
assert_standard_axioms Mito.Load.load_boundary
assert_standard_axioms Mito.Load.load_tetrahedra
assert_standard_axioms Mito.Load.cube_file
assert_standard_axioms Mito.Load.cube_loaded
assert_standard_axioms Mito.Load.sphere_closed
assert_standard_axioms Mito.Load.disagreeing_triangles
assert_standard_axioms Mito.VTK.points_placed
assert_standard_axioms Mito.VTK.points_distance
assert_standard_axioms Mito.VTK.makeWriter_sound
assert_standard_axioms Mito.VTK.record_iff
assert_standard_axioms Mito.VTK.record_order
assert_standard_axioms Mito.VTK.run_sound
assert_standard_axioms Mito.VTK.run_shows
assert_standard_axioms Mito.VTK.run_origin
assert_standard_axioms Mito.VTK.run_keeps
assert_standard_axioms Mito.VTK.record_congr
assert_standard_axioms Mito.VTK.p2_midsides_hidden
assert_standard_axioms Mito.VTK.drawn_cell
assert_standard_axioms Mito.VTK.drawn_affine
assert_standard_axioms Mito.VTK.arrow_cartesian
assert_standard_axioms Mito.VTK.arrow_iff
assert_standard_axioms Mito.VTK.arrow_polar
assert_standard_axioms Mito.VTK.arrow_spherical
assert_standard_axioms Mito.VTK.same_name_lost
assert_standard_axioms Mito.VTK.recorded_again
assert_standard_axioms Mito.Topology.edges_triangle
assert_standard_axioms Mito.Topology.edges_flip
assert_standard_axioms Mito.Topology.edges_tetrahedron
assert_standard_axioms Mito.Topology.edges_tetrahedron_only
assert_standard_axioms Mito.Topology.edges_tetrahedron_both
assert_standard_axioms Mito.Topology.edges_tetrahedron_card
assert_standard_axioms Mito.Topology.edges_tetrahedron_new
assert_standard_axioms Mito.Topology.edges_run_backwards
assert_standard_axioms Mito.Topology.edges_depend_on_history
assert_standard_axioms Mito.Topology.runs_do_not_depend_on_addresses
assert_standard_axioms Mito.Topology.runs_end_for_all_addresses
assert_standard_axioms Mito.Topology.calls_want_arguments
assert_standard_axioms Mito.Topology.sample_runs
assert_standard_axioms Mito.Topology.answers_do_not_depend_on_addresses
assert_standard_axioms Mito.Topology.order_of_vertices_depends_on_addresses
assert_standard_axioms Mito.Topology.topology_tests_pass
assert_standard_axioms Mito.Topology.wrong_tests_fail
assert_standard_axioms Mito.Topology.topology_tests_end
assert_standard_axioms Mito.SegVec.vector_is_a_list_of_slots
assert_standard_axioms Mito.SegVec.vectors_do_not_depend_on_addresses
assert_standard_axioms Mito.SegVec.memory_exists
assert_standard_axioms Mito.SegVec.vector_tests_pass
assert_standard_axioms Mito.SegVec.wrong_vector_tests_fail
assert_standard_axioms Mito.SegVec.loop_over_indices_misses
assert_standard_axioms Mito.SharedPointer.shared_pointer_tests_pass
assert_standard_axioms Mito.SharedPointer.passes_iff
assert_standard_axioms Mito.Repo.repository_tests_pass
assert_standard_axioms Mito.Repo.rtest_undefined
assert_standard_axioms Mito.Repo.wrong_repository_test_fails
assert_standard_axioms Mito.Fem.mass_segment_close
assert_standard_axioms Mito.Fem.mass_linear_close
assert_standard_axioms Mito.Fem.mass_quadratic_close
assert_standard_axioms Mito.Fem.mass_quadratic_low_degree
assert_standard_axioms Mito.Fem.gradGrad_quadratic
assert_standard_axioms Mito.Fem.gradGrad_quadratic_close
assert_standard_axioms Mito.Fem.weights_close
assert_standard_axioms Mito.Fem.mass_tests_pass
assert_standard_axioms Mito.Fem.gradGrad_tests_pass
assert_standard_axioms Mito.MeshPrograms.careful_programs_keep_the_mesh
assert_standard_axioms Mito.MeshPrograms.careful_calls_stay
assert_standard_axioms Mito.MeshPrograms.erasing_never_fails
assert_standard_axioms Mito.MeshPrograms.is_on_boundary_iff
assert_standard_axioms Mito.MeshPrograms.boundary_size_eq
assert_standard_axioms Mito.MeshPrograms.mesh_runs_do_not_depend_on_addresses
assert_standard_axioms Mito.MeshPrograms.mesh_runs_end_for_all_addresses
assert_standard_axioms Mito.MeshPrograms.mesh_answers_do_not_depend_on_addresses
assert_standard_axioms Mito.MeshPrograms.mesh_tests_pass
assert_standard_axioms Mito.MeshPrograms.mesh_tests_end
assert_standard_axioms Mito.MeshPrograms.erased_simplex_breaks_the_mesh
assert_standard_axioms Mito.MeshPrograms.stale_orientations
assert_standard_axioms Mito.MeshPrograms.insert_of_erased_cell_fails
assert_standard_axioms Mito.MeshPrograms.erased_cell_keeps_its_simplex
assert_standard_axioms Mito.MeshPrograms.erase_through_another_handle
assert_standard_axioms Mito.Quadrature.rnd_rounds
assert_standard_axioms Mito.Quadrature.weights_checked
assert_standard_axioms Mito.Quadrature.checked_by_rounding
assert_standard_axioms Mito.Quadrature.check_depends_on_order
assert_standard_axioms Mito.Quadrature.check_is_sound
assert_standard_axioms Mito.Quadrature.parametric_tests_pass
assert_standard_axioms Mito.Quadrature.integrate_in_doubles
assert_standard_axioms Mito.Quadrature.square_test_passes
assert_standard_axioms Mito.Quadrature.comparisons
assert_standard_axioms Mito.Fem.arith_exact
assert_standard_axioms Mito.Fem.arith_in_doubles
assert_standard_axioms Mito.Fem.arith_error
assert_standard_axioms Mito.Fem.shapes_are_arith
assert_standard_axioms Mito.Fem.shape_tests_pass
assert_standard_axioms Mito.Fem.partition_fails
assert_standard_axioms Mito.Fem.partition_on_segments
assert_standard_axioms Mito.Fem.partition_on_triangles
assert_standard_axioms Mito.Functions.tensor_derivative_correct
assert_standard_axioms Mito.Functions.at_bijective
assert_standard_axioms Mito.Functions.at_mat
assert_standard_axioms Mito.Functions.tensor_derivative_again
assert_standard_axioms Mito.Functions.tensor_derivative_vectors
assert_standard_axioms Mito.Functions.tensor_derivative_twice
assert_standard_axioms Mito.Functions.quotient_error
assert_standard_axioms Mito.Functions.quotient_differs
assert_standard_axioms Mito.Functions.Tests.higher_order
assert_standard_axioms Mito.Functions.Tests.chain_rule_scalar
assert_standard_axioms Mito.Functions.Tests.chain_rule_vector
assert_standard_axioms Mito.Functions.Tests.constants
assert_standard_axioms Mito.Functions.Tests.inverse_functions
assert_standard_axioms Mito.Functions.Tests.product
assert_standard_axioms Mito.Functions.Tests.reciprocal
assert_standard_axioms Mito.Functions.Tests.powers
assert_standard_axioms Mito.Functions.Tests.scalar_product
assert_standard_axioms Mito.Functions.Tests.subscripts
assert_standard_axioms Mito.Functions.Tests.sums
assert_standard_axioms Mito.Functions.Tests.linear_combination
assert_standard_axioms Mito.Functions.Tests.components
assert_standard_axioms Mito.Functions.Tests.scalar_of_vector
assert_standard_axioms Mito.Functions.Tests.scalar_of_matrix
assert_standard_axioms Mito.Functions.Tests.vector_of_scalar
assert_standard_axioms Mito.Functions.Tests.vector_of_vector
assert_standard_axioms Mito.Functions.Tests.vector_of_matrix
assert_standard_axioms Mito.Functions.Tests.matrix_of_scalar
assert_standard_axioms Mito.Functions.Tests.matrix_of_vector
assert_standard_axioms Mito.Functions.Tests.matrix_of_matrix
assert_standard_axioms Mito.Functions.Tests.algebra
assert_standard_axioms Mito.Functions.Tests.algebra_at_the_point
assert_standard_axioms Mito.Functions.Tests.tensor_algebra
assert_standard_axioms Mito.Tensor.contraction_correct
assert_standard_axioms Mito.Tensor.contraction_compiles_iff
assert_standard_axioms Mito.Tensor.contraction_small
assert_standard_axioms Mito.Tensor.call_all
assert_standard_axioms Mito.Tensor.call_forms
assert_standard_axioms Mito.Tensor.contraction_steps
assert_standard_axioms Mito.Tensor.contraction_tests
assert_standard_axioms Mito.Tensor.contraction_fails
assert_standard_axioms Mito.Tensor.volume_contraction
assert_standard_axioms Mito.Functions.Tests.scalar_field
assert_standard_axioms Mito.Functions.Tests.vector_field
assert_standard_axioms Mito.Functions.Tests.identity_field
assert_standard_axioms Mito.Functions.Tests.fields_values
assert_standard_axioms Mito.Functions.Tests.non_square
assert_standard_axioms Mito.Functions.Tests.polar_fields
assert_standard_axioms Mito.Functions.Tests.spherical_fields
assert_standard_axioms Mito.Functions.Tests.polar_metric_field
assert_standard_axioms Mito.Functions.Tests.spherical_metric_field
assert_standard_axioms Mito.Functions.Tests.spherical_point_singular
assert_standard_axioms Mito.Functions.Tests.metrics
assert_standard_axioms Mito.Functions.Tests.transformation_midpoint
assert_standard_axioms Mito.Functions.Tests.transformation_partial
assert_standard_axioms Mito.Functions.Tests.transformation_fails
assert_standard_axioms Mito.Combinatorics.permutation_tests
assert_standard_axioms Mito.Python.getItem_defined
assert_standard_axioms Mito.Python.zip_first_defined
assert_standard_axioms Mito.Python.zip_second_defined
assert_standard_axioms Mito.Python.zip_second_value
assert_standard_axioms Mito.Python.zip_tests_undefined
assert_standard_axioms Mito.Python.zip_tests_exchanged
assert_standard_axioms Mito.Python.iterate_reads
assert_standard_axioms Mito.Python.iterate_undefined
assert_standard_axioms Mito.Python.lifetimes_fail
assert_standard_axioms Mito.Python.integrate_test
assert_standard_axioms Mito.Python.integrator_undefined_iff
assert_standard_axioms Mito.Python.integrate_undefined_iff
assert_standard_axioms Mito.Python.run_typed
assert_standard_axioms Mito.Python.simple_defined
assert_standard_axioms Mito.Python.kept_defined
assert_standard_axioms Mito.Python.kept_same
assert_standard_axioms Mito.Geometry.total_polar
assert_standard_axioms Mito.Geometry.total_of_polar
assert_standard_axioms Mito.Geometry.total_spherical
assert_standard_axioms Mito.Geometry.subTotal_spherical
assert_standard_axioms Mito.Geometry.spherical_singular
assert_standard_axioms Mito.Geometry.disk_area
assert_standard_axioms Mito.Geometry.halfBall_volume
assert_standard_axioms Mito.Geometry.halfBall_spherical
assert_standard_axioms Mito.Geometry.halfBall_fails
assert_standard_axioms Mito.Geometry.halfSphere_area
assert_standard_axioms Mito.Geometry.halfSphere_spherical
assert_standard_axioms Mito.Geometry.halfSphere_fails
assert_standard_axioms Mito.Geometry.determinantVolume_eq
assert_standard_axioms Mito.Geometry.cube_test
assert_standard_axioms Mito.Geometry.triangle_area
assert_standard_axioms Mito.Geometry.triangle_test
assert_standard_axioms Mito.Geometry.rebuilt_form_iff
assert_standard_axioms Mito.CosineTests.exact_value
assert_standard_axioms Mito.CosineTests.exact_wrong
assert_standard_axioms Mito.CosineTests.square_test
assert_standard_axioms Mito.CosineTests.parallel_test
assert_standard_axioms Mito.CosineTests.python_test
assert_standard_axioms Mito.CosineTests.four_test
assert_standard_axioms Mito.CosineTests.four_polynomials
assert_standard_axioms Mito.CosineTests.benchmark_error
assert_standard_axioms Mito.Benchmarks.arrayDet_eq
assert_standard_axioms Mito.Benchmarks.arrayInverse_eq
assert_standard_axioms Mito.Benchmarks.gent_eq
assert_standard_axioms Mito.Benchmarks.gent_benchmark
assert_standard_axioms Mito.Benchmarks.gent_defined
assert_standard_axioms Mito.Benchmarks.wedge_eq
assert_standard_axioms Mito.Benchmarks.laplacian_eq
assert_standard_axioms Mito.Benchmarks.laplacian_diagonal
assert_standard_axioms Mito.Meshes.filter_filter
assert_standard_axioms Mito.Meshes.filter_test
assert_standard_axioms Mito.Load.boundary_positive
assert_standard_axioms Mito.Load.load_boundary_closed
assert_standard_axioms Mito.Load.ball_test
assert_standard_axioms Mito.Load.fan_not_closed
assert_standard_axioms Mito.Fem.field_program
assert_standard_axioms Mito.Fem.affine_triangles
assert_standard_axioms Mito.Fem.affine_segments
assert_standard_axioms Mito.Fem.fem_field_test
assert_standard_axioms Mito.Fem.quadratic_program
assert_standard_axioms Mito.Fem.quadratic_test_fails
assert_standard_axioms Mito.Fem.quadratic_reproduced
assert_standard_axioms Mito.Fem.localize_gradient
assert_standard_axioms Mito.Fem.localize_field_test
assert_standard_axioms Mito.Load.boundary_nodes
assert_standard_axioms Mito.Load.dirichlet_test
assert_standard_axioms Mito.Load.disk_closed
assert_standard_axioms Mito.Load.load_repeated
assert_standard_axioms Mito.Load.load_isSome_iff
assert_standard_axioms Mito.Load.repeated_vertices
assert_standard_axioms Mito.Load.repeated_sign
assert_standard_axioms Mito.Load.repeated_simplex
assert_standard_axioms Mito.Load.repeated_boundary
assert_standard_axioms Mito.Load.twice_boundary
assert_standard_axioms Mito.Functions.sqrt_of_square
assert_standard_axioms Mito.Functions.functor_test
assert_standard_axioms Mito.Functions.square_of_sqrt_fails
assert_standard_axioms Mito.Functions.square_of_sqrt
assert_standard_axioms Mito.Printing.written_twice
assert_standard_axioms Mito.Printing.read_back_exactly
assert_standard_axioms Mito.Printing.read_back_error
assert_standard_axioms Mito.Printing.read_back_mono
assert_standard_axioms Mito.Printing.digits_lost
assert_standard_axioms Mito.Printing.segment_lost
assert_standard_axioms Mito.Printing.triangle_reversed
assert_standard_axioms Mito.Printing.number_read
assert_standard_axioms Mito.Printing.chars_tokens
assert_standard_axioms Mito.Printing.chars_twice
assert_standard_axioms Mito.Printing.chars_cut
assert_standard_axioms Mito.Printing.small_cut
assert_standard_axioms Mito.Printing.digit_lost
assert_standard_axioms Mito.Printing.reader_chars
assert_standard_axioms Mito.Printing.cut_chars
assert_standard_axioms Mito.Printing.readerChars_valid
assert_standard_axioms Mito.Printing.too_many
assert_standard_axioms Mito.Printing.signed_ints
assert_standard_axioms Mito.Printing.negative_nodes
assert_standard_axioms Mito.Printing.glued
assert_standard_axioms Mito.Printing.digit_lost_chars
assert_standard_axioms Mito.Printing.same_file
assert_standard_axioms Mito.Printing.galerkin_file
assert_standard_axioms Mito.Printing.galerkin_nodes
assert_standard_axioms Mito.Printing.read_write_read
assert_standard_axioms Mito.Printing.kept_iff
assert_standard_axioms Mito.Printing.nodes_lost
assert_standard_axioms Mito.Midpoints.barycenter_box
assert_standard_axioms Mito.Midpoints.barycenter_const
assert_standard_axioms Mito.Midpoints.refined_box
assert_standard_axioms Mito.Midpoints.midpoint_new
assert_standard_axioms Mito.Midpoints.midpoint_symm
assert_standard_axioms Mito.Midpoints.tests_pass
assert_standard_axioms Mito.Midpoints.order_matters
assert_standard_axioms Mito.Midpoints.no_midpoint
assert_standard_axioms Mito.RoundedBlocks.nearly_symmetric
assert_standard_axioms Mito.RoundedBlocks.symmetric_of_powers
assert_standard_axioms Mito.RoundedBlocks.diagonal_nonneg
assert_standard_axioms Mito.RoundedBlocks.not_symmetric
assert_standard_axioms Mito.RoundedBlocks.entry_not_symmetric
assert_standard_axioms Mito.Barycentric.parametric_round_trip
assert_standard_axioms Mito.Barycentric.barycentric_round_trip
assert_standard_axioms Mito.Barycentric.dN_eval
assert_standard_axioms Mito.Barycentric.dN_onPlane
assert_standard_axioms Mito.Barycentric.dN_correct
assert_standard_axioms Mito.Barycentric.same_shape
assert_standard_axioms Mito.Barycentric.same_gradient
assert_standard_axioms Mito.Barycentric.hard_coded_P1
assert_standard_axioms Mito.Barycentric.hard_coded_iff
assert_standard_axioms Mito.Barycentric.tests_pass
assert_standard_axioms Mito.Barycentric.test_misses
assert_standard_axioms Mito.Materials.Gent.neoHookean_le
assert_standard_axioms Mito.Materials.Gent.energy_nonneg
assert_standard_axioms Mito.Materials.Gent.energy_eq_zero_iff
assert_standard_axioms Mito.Materials.Gent.stress_rotation
assert_standard_axioms Mito.Materials.Gent.kirchhoff_symmetric
assert_standard_axioms Mito.Materials.Gent.energy_limit
assert_standard_axioms Mito.Materials.Gent.energy_collapse
assert_standard_axioms Mito.Materials.Gent.stress_beyond
assert_standard_axioms Mito.Materials.Gent.negative_Jm
assert_standard_axioms Mito.Materials.LinearElastic.elliptic_iff
assert_standard_axioms Mito.Materials.LinearElastic.elliptic_range
assert_standard_axioms Mito.Materials.LinearElastic.energy_nonneg_range
assert_standard_axioms Mito.Materials.LinearElastic.elliptic_unstable
assert_standard_axioms Mito.Materials.Gent.elliptic
assert_standard_axioms Mito.Materials.Gent.not_elliptic_beyond
assert_standard_axioms Mito.RoundedNorms.l2Sum_near
assert_standard_axioms Mito.RoundedNorms.h1Sum_near
assert_standard_axioms Mito.RoundedNorms.l2_near
assert_standard_axioms Mito.RoundedNorms.h1_near
assert_standard_axioms Mito.RoundedNorms.l2_zero_iff
assert_standard_axioms Mito.RoundedNorms.h1_zero_iff
assert_standard_axioms Mito.RoundedNorms.l2_double
assert_standard_axioms Mito.RoundedNorms.h1_double
assert_standard_axioms Mito.RoundedNorms.l2_inverted
assert_standard_axioms Mito.RoundedVolumes.triangle_swap
assert_standard_axioms Mito.RoundedVolumes.tetrahedron_swap
assert_standard_axioms Mito.RoundedVolumes.rnd_odd
assert_standard_axioms Mito.RoundedVolumes.triangle_error
assert_standard_axioms Mito.RoundedVolumes.triangle_sign
assert_standard_axioms Mito.RoundedVolumes.tetrahedron_error
assert_standard_axioms Mito.RoundedVolumes.triangle_exact
assert_standard_axioms Mito.RoundedVolumes.tetrahedron_grid
assert_standard_axioms Mito.RoundedVolumes.tetrahedron_accurate
assert_standard_axioms Mito.RoundedVolumes.rotation_matters
assert_standard_axioms Mito.RoundedVolumes.sign_wrong
assert_standard_axioms Mito.RoundedVolumes.director_zero
assert_standard_axioms Mito.RoundedVolumes.directors_test
assert_standard_axioms Mito.RoundedVolumes.directors_parallel
assert_standard_axioms Mito.Quadrature.plane_volume
assert_standard_axioms Mito.Quadrature.plane_length
assert_standard_axioms Mito.Quadrature.plane_programs
assert_standard_axioms Mito.Quadrature.plane_divergence_theorem
assert_standard_axioms Mito.Quadrature.tutorials_agree
assert_standard_axioms Mito.Quadrature.height_matters
assert_standard_axioms Mito.Meshes.flip_volumes
assert_standard_axioms Mito.Meshes.flip_around
assert_standard_axioms Mito.Meshes.flip_conserves
assert_standard_axioms Mito.Meshes.crossing_iff
assert_standard_axioms Mito.Meshes.flip_positive_iff
assert_standard_axioms Mito.Meshes.flip_square
assert_standard_axioms Mito.Meshes.flip_inverts
assert_standard_axioms Mito.Meshes.flip_negates
assert_standard_axioms Mito.Quadrature.cell_near
assert_standard_axioms Mito.Quadrature.segment2_cubic
assert_standard_axioms Mito.Quadrature.segment_fourth_order
assert_standard_axioms Mito.SegmentTest.decay_cubic
assert_standard_axioms Mito.SegmentTest.unit_integral
assert_standard_axioms Mito.SegmentTest.segment_error
assert_standard_axioms Mito.SegmentTest.segment_test
assert_standard_axioms Mito.SpaceTests.frame
assert_standard_axioms Mito.SpaceTests.length_segment
assert_standard_axioms Mito.SpaceTests.segment_cubic
assert_standard_axioms Mito.SpaceTests.flip_test
assert_standard_axioms Mito.SpaceTests.segment_test
assert_standard_axioms Mito.SpaceTests.square_normal
assert_standard_axioms Mito.SpaceTests.square_test
assert_standard_axioms Mito.NamedClass.name_given_iff
assert_standard_axioms Mito.NamedClass.name_lost
assert_standard_axioms Mito.NamedClass.default_name
assert_standard_axioms Mito.NamedClass.construct_sound
assert_standard_axioms Mito.NamedClass.construct_none_iff
assert_standard_axioms Mito.NamedClass.named_class_test
assert_standard_axioms Mito.NamedClass.name_fails
assert_standard_axioms Mito.StdSharedPointer.inv_step
assert_standard_axioms Mito.StdSharedPointer.eq_iff
assert_standard_axioms Mito.StdSharedPointer.kept
assert_standard_axioms Mito.StdSharedPointer.id_identifies
assert_standard_axioms Mito.StdSharedPointer.id_reused
assert_standard_axioms Mito.StdSharedPointer.no_null
assert_standard_axioms Mito.StdSharedPointer.copies_and_moves
assert_standard_axioms Mito.StdSharedPointer.moved_from
assert_standard_axioms Mito.Functions.term_exact
assert_standard_axioms Mito.Functions.constants_tests_pass
assert_standard_axioms Mito.Functions.divide_power_of_two
assert_standard_axioms Mito.Functions.divide_error
assert_standard_axioms Mito.Functions.pi_sixth
assert_standard_axioms Mito.Functions.sixth_nearest
assert_standard_axioms Mito.Functions.divide_test_passes
assert_standard_axioms Mito.Functions.divide_fails
assert_standard_axioms Mito.Functions.term_in_doubles
assert_standard_axioms Mito.RoundedMidpoint.rounded_exact
assert_standard_axioms Mito.RoundedMidpoint.midpoint_between
assert_standard_axioms Mito.RoundedMidpoint.sterbenz
assert_standard_axioms Mito.RoundedMidpoint.near_points
assert_standard_axioms Mito.RoundedMidpoint.zero_points
assert_standard_axioms Mito.RoundedMidpoint.coordinates_test
assert_standard_axioms Mito.RoundedMidpoint.rounded_fails
assert_standard_axioms Mito.RoundedMidpoint.midpoint_in_doubles
assert_standard_axioms Mito.RoundedMidpoint.refined_apart
assert_standard_axioms Mito.SegVec.moved_vectors_are_slots
assert_standard_axioms Mito.SegVec.moves_do_not_depend_on_addresses
assert_standard_axioms Mito.SegVec.memory_for_moves
assert_standard_axioms Mito.SegVec.move_test_passes
assert_standard_axioms Mito.SegVec.move_and_go_on
assert_standard_axioms Mito.SegVec.wrong_move_tests_fail
assert_standard_axioms Mito.SegVec.erased_through_source
assert_standard_axioms Mito.SegVec.erased_through_source_again
assert_standard_axioms Mito.SegVec.erased_through_source_runs
assert_standard_axioms Mito.RoundedForms.wedge2_swap
assert_standard_axioms Mito.RoundedForms.wedge2_forms
assert_standard_axioms Mito.RoundedForms.wedge3_swap
assert_standard_axioms Mito.RoundedForms.wedge_equal
assert_standard_axioms Mito.RoundedForms.basis_exact
assert_standard_axioms Mito.RoundedForms.doubles_meet
assert_standard_axioms Mito.RoundedForms.first_two_fail
assert_standard_axioms Mito.RoundedForms.computed_values
