{
 "claims": [
  {
   "property": "C01",
   "status": "proved",
   "theorems": [
    "NuTo.C01_group_refines_ordered_set",
    "NuTo.C01_group_contains_iff_mem",
    "NuTo.C01_unite_many"
   ],
   "note": ""
  },
  {
   "property": "C02",
   "status": "proved",
   "theorems": [
    "NuTo.C02_toEigen_concat",
    "NuTo.C02_toEigen_missing",
    "NuTo.C02_roundtrip",
    "NuTo.C02_roundtrip_back"
   ],
   "note": ""
  },
  {
   "property": "C03",
   "status": "proved",
   "theorems": [
    "NuTo.C03_add",
    "NuTo.C03_sub",
    "NuTo.C03_addScaled",
    "NuTo.C03_mul",
    "NuTo.C03_setZero",
    "NuTo.C03_size_mismatch",
    "NuTo.C03_sum_any_order"
   ],
   "note": "exact field arithmetic in place of double"
  },
  {
   "property": "C04",
   "status": "proved",
   "theorems": [
    "NuTo.C04_toEigen_blocks",
    "NuTo.C04_toEigen_product"
   ],
   "note": ""
  },
  {
   "property": "C05",
   "status": "proved",
   "theorems": [
    "NuTo.C05_numbering",
    "NuTo.C05_independent_count"
   ],
   "note": ""
  },
  {
   "property": "C06",
   "status": "proved",
   "theorems": [
    "NuTo.C06_throws_iff_foreign",
    "NuTo.C06_numbers_in_range"
   ],
   "note": ""
  },
  {
   "property": "C07",
   "status": "proved",
   "theorems": [
    "NuTo.C07_extract_after_merge",
    "NuTo.C07_merge_after_extract"
   ],
   "note": ""
  },
  {
   "property": "C08",
   "status": "partial",
   "theorems": [
    "NuTo.C08_resolvable_partial",
    "NuTo.C08_self_reference_counterexample",
    "NuTo.C08_resolvable_no_self_partial",
    "NuTo.C08_add_decision",
    "NuTo.C08_batch_prefix"
   ],
   "note": "an equation that uses its own dependent dof is accepted (counterexample proved); everything else of the claim is proved"
  },
  {
   "property": "C09",
   "status": "partial",
   "theorems": [
    "NuTo.C09_general_partial",
    "NuTo.C09_satisfies_constraints_partial",
    "NuTo.C09_float_counterexample",
    "NuTo.C09_tiny_coefficient_counterexample"
   ],
   "note": "right-hand side goes through single precision and coefficients up to 1e-18 are dropped (two counterexamples proved); exact law and exact case proved"
  },
  {
   "property": "C10",
   "status": "partial",
   "theorems": [
    "NuTo.C10_complete_partial",
    "NuTo.C10_float_counterexample"
   ],
   "note": "proved for right-hand sides representable as float and coefficients above the drop tolerance, like C09; false for other right-hand sides (C10_float_counterexample)"
  },
  {
   "property": "C11",
   "status": "proved",
   "theorems": [
    "NuTo.C11_jk_permutation",
    "NuTo.C11_jk_throws"
   ],
   "note": ""
  },
  {
   "property": "C12",
   "status": "partial",
   "theorems": [
    "NuTo.C12_component",
    "NuTo.C12_component_group",
    "NuTo.C12_value",
    "NuTo.C12_value_group",
    "NuTo.C12_direction_actual_partial",
    "NuTo.C12_direction_axis_partial",
    "NuTo.C12_direction_sign_counterexample",
    "NuTo.C12_direction_rejects",
    "NuTo.C12_direction_group_partial",
    "NuTo.C12_direction_group_rejects",
    "NuTo.C12_ramp"
   ],
   "note": "Direction has the wrong sign for oblique directions (counterexample proved); exact law, axis case, Component, Value, RhsRamp proved"
  },
  {
   "property": "C13",
   "status": "proved",
   "theorems": [
    "NuTo.C13_buildVector_general",
    "NuTo.C13_buildVector",
    "NuTo.C13_schedule_independent",
    "NuTo.C13_missing_numbering"
   ],
   "note": "exact field arithmetic in place of double; every dof type requested once (the general law with multiplicities is proved too)"
  },
  {
   "property": "C14",
   "status": "proved",
   "theorems": [
    "NuTo.C14_buildMatrix_general",
    "NuTo.C14_buildMatrix",
    "NuTo.C14_missing_numbering"
   ],
   "note": "exact field arithmetic in place of double; every dof type requested once"
  },
  {
   "property": "C15",
   "status": "partial",
   "theorems": [
    "NuTo.C15_lumped_block_partial",
    "NuTo.C15_scalar_mass_partial",
    "NuTo.C15_vector_dof_counterexample",
    "NuTo.C15_assembled_partial",
    "NuTo.C15_total_mass_partial",
    "NuTo.Mass.C15_mesh_counterexample"
   ],
   "note": "false for dof types with several components: the mass is divided by the number of components (counterexample proved); general law and scalar case proved"
  },
  {
   "property": "C16",
   "status": "partial",
   "theorems": [
    "NuTo.C16_matrix_history_partial",
    "NuTo.C16_matrix_clean_partial",
    "NuTo.C16_resize_after_finish",
    "NuTo.C16_finish_idempotent",
    "NuTo.C16_setZero_counterexample",
    "NuTo.C16_requested",
    "NuTo.C16_vector_history"
   ],
   "note": "SetZero/Resize before Finish does not forget pending contributions (counterexample proved); exact law for all histories, clean histories and VectorAssembler proved"
  },
  {
   "property": "C17",
   "status": "partial",
   "theorems": [
    "NuTo.C17_solve_partial",
    "NuTo.C17_trialState_partial",
    "NuTo.C17_solve_constraints_partial",
    "NuTo.C17_dof_order_counterexample"
   ],
   "note": "false if the dof types are passed in another order than f stores them (result blocks mislabelled, counterexample proved); proved for the stored order, for Solve, SolveTrialState and with the real constraint object; the inner linear solver is any function that returns only solutions"
  },
  {
   "property": "C18",
   "status": "partial",
   "theorems": [
    "NuTo.C18_norm_counterexample",
    "NuTo.C18_norm_single_partial"
   ],
   "note": "false for two active dof types: the projected residuals of the dof types are added (counterexample proved); proved for one dof type; squared norm instead of the norm"
  },
  {
   "property": "C19",
   "status": "partial",
   "theorems": [
    "NuTo.C19_failure_partial",
    "NuTo.C19_success",
    "NuTo.C19_failures_partial",
    "NuTo.C19_history_updates",
    "NuTo.C19_step_size_counterexample"
   ],
   "note": "a failed step changes the stored step size, which the next trial state uses (counterexample proved); solution, time and history data proved unchanged, history updated exactly once per successful step for all call sequences"
  },
  {
   "property": "C20",
   "status": "proved",
   "theorems": [
    "NuTo.C20_lineSearch",
    "NuTo.C20_newton"
   ],
   "note": "for arbitrary, possibly throwing residual, derivative, norm and solver; exact arithmetic"
  },
  {
   "property": "C21",
   "status": "partial",
   "theorems": [
    "NuTo.C21_safety_partial",
    "NuTo.C21_general_partial",
    "NuTo.C21_terminates",
    "NuTo.C21_first_step_counterexample"
   ],
   "note": "the first step is not shortened to the end time (counterexample proved); proved when the first step fits; termination proved without that condition; exact arithmetic"
  },
  {
   "property": "C22",
   "status": "proved",
   "theorems": [
    "NuTo.C22_findAt"
   ],
   "note": "points in the half-open domain, query point anywhere; exact arithmetic"
  },
  {
   "property": "C23",
   "status": "partial",
   "theorems": [
    "NuTo.C23_sharing_partial",
    "NuTo.C23_tolerance_partial",
    "NuTo.C23_curved_counterexample"
   ],
   "note": "false for curved coordinate elements: dof nodes outside the bounding box of the coordinate nodes are duplicated or throw (counterexample proved); proved when each requested node lies in the bounding box of its element's coordinate nodes (all straight elements)"
  },
  {
   "property": "C24",
   "status": "proved",
   "theorems": [
    "NuTo.C24_quads",
    "NuTo.C24_triangles",
    "NuTo.C24_lines",
    "NuTo.C24_bricks",
    "NuTo.C24_transform",
    "NuTo.C24_transform_unit"
   ],
   "note": "exact arithmetic; node grid, element counts, positive Jacobian determinant, exact tiling and measures for all positive division numbers; Transform moves every node exactly once"
  },
  {
   "property": "C25",
   "status": "partial",
   "theorems": [
    "NuTo.Gmsh.C25_node_order_partial",
    "NuTo.Gmsh.C25_geometry_partial",
    "NuTo.Gmsh.C25_orientation_partial",
    "NuTo.Gmsh.C25_pyramid_counterexample"
   ],
   "note": "Proved for the 13 supported types other than the pyramid, for all node tables, all node positions (geometry) and all affine images of the reference cell (acceptance iff positively oriented; embedded elements iff not degenerate; lines in space always rejected). For the pyramid the property is false: C25_pyramid_counterexample shows that exactly the negatively oriented gmsh pyramids are accepted. Orientation of non-affine elements is not covered beyond the node positions."
  },
  {
   "property": "C26",
   "status": "partial",
   "theorems": [
    "NuTo.Gmsh.C26_single_partial",
    "NuTo.Gmsh.C26_exact_iff_partial",
    "NuTo.Gmsh.C26_blocks_counterexample"
   ],
   "note": "False as stated: elemCount += indexH skips or overwrites elements. C26_exact_iff_partial: for well-formed files with distinct element numbers the elements are read back exactly iff no header is followed by more than one element; C26_blocks_counterexample gives a lost element and a write out of bounds."
  },
  {
   "property": "C27",
   "status": "partial",
   "theorems": [
    "NuTo.C27_sizes",
    "NuTo.C27_partition_of_unity_partial",
    "NuTo.C27_truss4_counterexample",
    "NuTo.C27_triangle4_counterexample",
    "NuTo.C27_truncated_partial",
    "NuTo.C27_lobatto"
   ],
   "note": "false for Truss4thOrder and Triangle4thOrder, whose coefficients are truncated decimals (counterexamples proved, error at most 1e-9 proved); exact for the other fifteen types at every coordinate and for the Lobatto types with any number of separated nodes"
  },
  {
   "property": "C28",
   "status": "partial",
   "theorems": [
    "NuTo.C28_nodal_partial",
    "NuTo.C28_truncated_counterexample",
    "NuTo.C28_truncated_partial",
    "NuTo.C28_lobatto"
   ],
   "note": "false for the two types with truncated decimals (counterexample, error at most 1e-9 proved); exact for all others and for the Lobatto types"
  },
  {
   "property": "C29",
   "status": "partial",
   "theorems": [
    "NuTo.C29_polynomial_partial",
    "NuTo.C29_pyramid_partial",
    "NuTo.C29_pyramid_counterexample",
    "NuTo.C29_truncated_partial",
    "NuTo.C29_truncated_counterexample",
    "NuTo.C29_lobatto_partial",
    "NuTo.C29_lobatto_polynomial_partial",
    "NuTo.C29_lobatto_counterexample"
   ],
   "note": "false for truncated decimals, for the pyramid in the plane of the apex outside the element, and at Lobatto nodes where the coded function is locally constant (counterexamples proved); proved for all polynomial types, the pyramid elsewhere, and the Lobatto types away from nodes"
  },
  {
   "property": "C30",
   "status": "partial",
   "theorems": [
    "NuTo.C30_reproduces_partial",
    "NuTo.C30_everywhere_partial",
    "NuTo.C30_tolerance_counterexample"
   ],
   "note": "inside a window of 1e-15 around a node the nodal value is returned (counterexample proved); proved exactly outside the window, and everywhere up to a shift of the coordinate below 1e-15; node positions are a parameter"
  },
  {
   "property": "C31",
   "status": "proved",
   "theorems": [
    "NuTo.C31_points",
    "NuTo.C31_product",
    "NuTo.C31_weights",
    "NuTo.C31_access",
    "NuTo.C31_access_throw"
   ],
   "note": "points, weights, products and access of the tensor product rule for all dimensions, numbers of points and one-dimensional rules"
  },
  {
   "property": "C32",
   "status": "partial",
   "theorems": [
    "NuTo.C32_derivative_partial",
    "NuTo.C32_overflow_counterexample"
   ],
   "note": "The recursion computes the k-th derivative of the Legendre polynomial (defined by the Rodrigues formula) for all degrees, points and k <= 6 or k > n, in exact arithmetic. For 7 <= k <= n the int factorial overflows: C32_overflow_counterexample. The Newton root finder is the subject of C115."
  },
  {
   "property": "C33",
   "status": "proved",
   "theorems": [
    "NuTo.C33_characteristic",
    "NuTo.C33_deviatoric",
    "NuTo.C33_J2",
    "NuTo.C33_J2_nonneg"
   ],
   "note": "all symmetric strains; exact arithmetic"
  },
  {
   "property": "C34",
   "status": "proved",
   "theorems": [
    "NuTo.C34_symmetric",
    "NuTo.C34_positive",
    "NuTo.C34_plane_strain",
    "NuTo.C34_plane_stress",
    "NuTo.C34_hooke"
   ],
   "note": "all admissible E, nu; exact arithmetic"
  },
  {
   "property": "C35",
   "status": "proved",
   "theorems": [
    "NuTo.C35_no_damage",
    "NuTo.C35_tangent",
    "NuTo.C35_tangent_exact",
    "NuTo.C35_affine",
    "NuTo.C35_full",
    "NuTo.C35_unilateral"
   ],
   "note": "all strains and damage values; derivative wrt damage and secant form exact"
  },
  {
   "property": "C36",
   "status": "proved",
   "theorems": [
    "NuTo.C36_maximum",
    "NuTo.C36_monotone",
    "NuTo.C36_idempotent",
    "NuTo.C36_damage",
    "NuTo.C36_out_of_range",
    "NuTo.C36_local"
   ],
   "note": "all update histories; access out of range is a distinct outcome"
  },
  {
   "property": "C37",
   "status": "proved",
   "theorems": [
    "NuTo.C37_exponential",
    "NuTo.C37_linear",
    "NuTo.C37_no_softening",
    "NuTo.C37_material",
    "NuTo.C37_softening_curve"
   ],
   "note": "exponential, linear and no softening laws; all parameters with 0 < k0 < kc; derivative wherever the damage is differentiable"
  },
  {
   "property": "C38",
   "status": "partial",
   "theorems": [
    "NuTo.C38_nonneg",
    "NuTo.C38_homogeneous",
    "NuTo.C38_calibrated",
    "NuTo.C38_derivative3",
    "NuTo.C38_derivative1",
    "NuTo.C38_derivative2",
    "NuTo.C38_singular",
    "NuTo.C38_plane_state_partial",
    "NuTo.C38_plane_state_counterexample"
   ],
   "note": "Non-negativity, homogeneity, calibration and the derivative off the singular points are proved for all admissible parameters. The plane state of a softening material is ignored by the constructor: C38_plane_state_counterexample; C38_plane_state_partial covers the case in which the plane states agree."
  },
  {
   "property": "C39",
   "status": "proved",
   "theorems": [
    "NuTo.C39_strain1",
    "NuTo.C39_strain2",
    "NuTo.C39_strain3",
    "NuTo.C39_dimension",
    "NuTo.C39_gradient",
    "NuTo.C39_N",
    "NuTo.C39_field",
    "NuTo.C39_patch",
    "NuTo.C39_rigid"
   ],
   "note": "all numbers of nodes, 1D, 2D and 3D; rigid body motions and linear fields (patch test) included"
  },
  {
   "property": "C40",
   "status": "proved",
   "theorems": [
    "NuTo.Jacobian.C40_entries",
    "NuTo.Jacobian.C40_square",
    "NuTo.Jacobian.C40_embedded",
    "NuTo.Jacobian.C40_chain_rule",
    "NuTo.Jacobian.C40_outcomes"
   ],
   "note": "exact arithmetic over the reals; entries, determinant, inverse, chain rule, embedded elements and outcomes of the constructor"
  },
  {
   "property": "C41",
   "status": "partial",
   "theorems": [
    "NuTo.LoadCurve.C41_constructor",
    "NuTo.LoadCurve.C41_raises",
    "NuTo.LoadCurve.C41_threshold_partial",
    "NuTo.LoadCurve.C41_threshold_counterexample",
    "NuTo.LoadCurve.C41_undefined",
    "NuTo.LoadCurve.C41_area",
    "NuTo.LoadCurve.C41_areaToThreshold"
   ],
   "note": "Without threshold the integral is proved to be the area for all curves. With threshold the segment before the last point above the threshold is extrapolated: C41_threshold_counterexample; C41_threshold_partial covers the case in which that segment and the crossing segment lie on one line; division by zero and index -1 are C41_undefined"
  },
  {
   "property": "C42",
   "status": "proved",
   "theorems": [
    "NuTo.Table.C42_constructor",
    "NuTo.Table.C42_chord",
    "NuTo.Table.C42_reproduces",
    "NuTo.Table.C42_between",
    "NuTo.Table.C42_outside",
    "NuTo.Table.C42_derivative"
   ],
   "note": "all tables with increasing abscissae; exact arithmetic; bisection proved to end in the containing segment"
  },
  {
   "property": "C43",
   "status": "partial",
   "theorems": [
    "NuTo.Morton.C43_decode_encode",
    "NuTo.Morton.C43_injective",
    "NuTo.Morton.C43_range",
    "NuTo.Morton.C43_encode_decode",
    "NuTo.Morton.C43_low_bits",
    "NuTo.Morton.C43_neighbor_partial",
    "NuTo.Morton.C43_neighbor_counterexample",
    "NuTo.Morton.C43_negNeighbor_partial",
    "NuTo.Morton.C43_decode2D"
   ],
   "note": "bijection, ranges and low bits proved for all 10-bit coordinates; neighbour codes wrap around at the border of the grid: C43_neighbor_counterexample, C43_neighbor_partial covers the interior"
  },
  {
   "property": "C44",
   "status": "partial",
   "theorems": [
    "NuTo.Serialize.C44_binary_partial",
    "NuTo.Serialize.C44_binary_separator_counterexample",
    "NuTo.Serialize.C44_binary_truncated",
    "NuTo.Serialize.C44_text",
    "NuTo.Serialize.C44_missing_separator",
    "NuTo.Serialize.C44_value_for_separator"
   ],
   "note": "text streams proved for all sequences given the number formatting laws of the C++ library; binary streams proved without separators; a binary separator is undefined behaviour: C44_binary_separator_counterexample"
  },
  {
   "property": "C45",
   "status": "partial",
   "theorems": [
    "NuTo.Nurbs.C45_inside",
    "NuTo.Nurbs.C45_right_end_partial",
    "NuTo.Nurbs.C45_right_end_counterexample",
    "NuTo.Nurbs.C45_outside"
   ],
   "note": "proved for all non-decreasing knot vectors: the span contains the parameter, no exception inside the domain, exception outside; at the right end the last span is returned even if it is empty (end knot repeated more than degree+1 times): C45_right_end_counterexample"
  },
  {
   "property": "C46",
   "status": "proved",
   "theorems": [
    "NuTo.Nurbs.C46_span",
    "NuTo.Nurbs.C46_values",
    "NuTo.Nurbs.C46_others_vanish",
    "NuTo.Nurbs.C46_partition",
    "NuTo.Nurbs.C46_rational",
    "NuTo.Nurbs.C46_equal_weights"
   ],
   "note": "all degrees, knot vectors and non-empty spans; independent of uninitialised matrix entries; exact arithmetic"
  },
  {
   "property": "C47",
   "status": "partial",
   "theorems": [
    "NuTo.C47_node_values",
    "NuTo.C47_references_partial",
    "NuTo.C47_references_counterexample",
    "NuTo.C47_N",
    "NuTo.C47_B_partial",
    "NuTo.C47_B_counterexample",
    "NuTo.C47_memoizer",
    "NuTo.C47_computed_once",
    "NuTo.C47_sizes_counterexample"
   ],
   "note": "Proved for node values, N matrices and the memoizer for all query sequences. The B matrix is memoised by dof type only: C47_B_counterexample, C47_B_partial covers one differential operator per dof type. References to cached node values dangle after the container grows: C47_references_counterexample, C47_references_partial. Coordinates of size other than one to three collide or read out of range: C47_sizes_counterexample. The data race of the memoizer under OpenMP is not modelled."
  },
  {
   "property": "C48",
   "status": "partial",
   "theorems": [
    "NuTo.Visualize.C48_offsets_partial",
    "NuTo.Visualize.C48_large_counterexample",
    "NuTo.Visualize.C48_file_partial",
    "NuTo.Visualize.C48_succeeds",
    "NuTo.Visualize.C48_empty_counterexample"
   ],
   "note": "Offsets, sizes and contents are proved for files below 2 GiB of appended data with non-empty containers; C48_large_counterexample shows the int offset wraps, C48_empty_counterexample shows the read of an empty container."
  },
  {
   "property": "C49",
   "status": "partial",
   "theorems": [
    "NuTo.Visualize.C49_pvd",
    "NuTo.Visualize.C49_names_differ",
    "NuTo.Visualize.C49_files_partial",
    "NuTo.Visualize.C49_files_counterexample",
    "NuTo.Visualize.C49_xml_partial",
    "NuTo.Visualize.C49_quote_counterexample"
   ],
   "note": "The collection file is well formed and lists every step; different steps of one visualizer never share a file. C49_files_counterexample: visualizers \"a\" (step 11) and \"a1\" (step 1) share a file, so the claim for several visualizers is proved only when no name is another name followed by digits only. C49_xml_partial: read by an xml reader, the file has exactly one DataSet per plot; needs names without quotes and markup, see C49_quote_counterexample."
  },
  {
   "property": "C50",
   "status": "proved",
   "theorems": [
    "NuTo.Collision.C50_equal",
    "NuTo.Collision.C50_irreflexive",
    "NuTo.Collision.C50_transitive",
    "NuTo.Collision.C50_asymmetric",
    "NuTo.Collision.C50_equivalent",
    "NuTo.Collision.C50_strict_weak",
    "NuTo.Collision.C50_time_first",
    "NuTo.Collision.C50_queue",
    "NuTo.Collision.C50_add",
    "NuTo.Collision.C50_barrier",
    "NuTo.Collision.C50_next"
   ],
   "note": ""
  },
  {
   "property": "C51",
   "status": "partial",
   "theorems": [
    "NuTo.Collision.C51_consistent",
    "NuTo.Collision.C51_wall_event",
    "NuTo.Collision.C51_sphere_event_counterexample",
    "NuTo.Collision.C51_reachable_counterexample",
    "NuTo.Collision.C51_empty_counterexample"
   ],
   "note": "The lists stay consistent in every run without undefined behaviour, and sphere-wall events access live events only; performing a sphere-sphere event always dereferences a destroyed event, performing on an empty queue dereferences end() (counterexamples)."
  },
  {
   "property": "C52",
   "status": "proved",
   "theorems": [
    "NuTo.Collision.C52_separate",
    "NuTo.Collision.C52_separate_fast",
    "NuTo.Collision.C52_momentum",
    "NuTo.Collision.C52_momentum_conserved",
    "NuTo.Collision.C52_energy_conserved",
    "NuTo.Collision.C52_symmetric",
    "NuTo.Collision.C52_only_velocity",
    "NuTo.Collision.C52_energy_counterexample",
    "NuTo.Collision.C52_wall",
    "NuTo.Collision.C52_wall_away",
    "NuTo.Collision.C52_wall_speed",
    "NuTo.Collision.C52_cylinder",
    "NuTo.Collision.C52_no_second_collision",
    "NuTo.Collision.C52_no_second_wall_collision"
   ],
   "note": "Energy for approaching partners; receding partners would lose energy (counterexample kept)."
  },
  {
   "property": "C53",
   "status": "partial",
   "theorems": [
    "NuTo.Collision.C53_synced_new",
    "NuTo.Collision.C53_synced_move",
    "NuTo.Collision.C53_synced_growth_partial",
    "NuTo.Collision.C53_growth",
    "NuTo.Collision.C53_synced_growth_counterexample",
    "NuTo.Collision.C53_synced_perform",
    "NuTo.Collision.C53_sphere_partial",
    "NuTo.Collision.C53_sphere_none",
    "NuTo.Collision.C53_grazing_counterexample",
    "NuTo.Collision.C53_event",
    "NuTo.Collision.C53_wall_partial",
    "NuTo.Collision.C53_wall_counterexample",
    "NuTo.Collision.C53_cylinder_partial",
    "NuTo.Collision.C53_cylinder_fits_partial",
    "NuTo.Collision.C53_cylinder_throws",
    "NuTo.Collision.C53_cylinder_too_large_counterexample",
    "NuTo.Collision.C53_cylinder_sliding_counterexample"
   ],
   "note": "First contact for spheres, plane walls and cylinders; false in the tolerance window of the discriminant (grazing passes), for wall directions like (1/2,1/2,0) taken for axis aligned, and after SetGrowthRate at a time that is not the last update (counterexamples). Overlap with a cylinder is reported exactly outside the tolerance (C53_cylinder_throws), which misses spheres larger than the cylinder (C53_cylinder_too_large_counterexample)."
  },
  {
   "property": "C54",
   "status": "partial",
   "theorems": [
    "NuTo.Placement.C54_insert_in_bounds",
    "NuTo.Placement.C54_placed_partial",
    "NuTo.Placement.C54_placed_no_distance",
    "NuTo.Placement.C54_all_placed_partial",
    "NuTo.Placement.C54_no_ub_partial",
    "NuTo.Placement.C54_terminates_partial",
    "NuTo.Placement.C54_distance_counterexample",
    "NuTo.Placement.C54_lost_counterexample",
    "NuTo.Placement.C54_too_large_counterexample",
    "NuTo.Placement.C54_created_partial",
    "NuTo.Placement.C54_boundary_counterexample",
    "NuTo.Placement.C54_cylinder_counterexample",
    "NuTo.TakePhase.C54_create_partial"
   ],
   "note": "Proved for every random sequence: a finished run keeps the requested distances (if these are at most a sub box), stays in the box or cylinder, reads no foreign memory (if the largest diameter fits) and ends in a box. Counterexamples: large absolute distances are not kept, particles are lost if consecutive diameters differ by more than a factor two, too large particles read outside of the boxes, boundary spheres are moved, a cylinder may loop for ever."
  },
  {
   "property": "C55",
   "status": "proved",
   "theorems": [
    "NuTo.C55_ids_unique"
   ],
   "note": "single thread; the counter does not overflow"
  },
  {
   "property": "C56",
   "status": "proved",
   "theorems": [
    "NuTo.C56_dofContainer_is_map"
   ],
   "note": ""
  },
  {
   "property": "C57",
   "status": "proved",
   "theorems": [
    "NuTo.C57_scalar",
    "NuTo.C57_linear",
    "NuTo.C57_constant",
    "NuTo.C57_vector",
    "NuTo.C57_matrix",
    "NuTo.C57_triangle",
    "NuTo.C57_tetrahedron",
    "NuTo.C57_quad",
    "NuTo.C57_line",
    "NuTo.C57_mesh",
    "NuTo.C57_unit_square",
    "NuTo.C57_shape",
    "NuTo.C57_eval"
   ],
   "note": "scalar, vector and matrix integrands; any rule; volumes of linear lines, triangles, tetrahedra and bilinear quads"
  },
  {
   "property": "C58",
   "status": "proved",
   "theorems": [
    "NuTo.Visualize.C58_geometry",
    "NuTo.Visualize.C58_point_data",
    "NuTo.Visualize.C58_dof_values",
    "NuTo.Visualize.C58_cell_average",
    "NuTo.Visualize.C58_cell_voronoi",
    "NuTo.Visualize.C58_cell_point",
    "NuTo.Visualize.C58_vtk_types",
    "NuTo.Visualize.C58_add_cell"
   ],
   "note": "all sequences of cells with any shapes, points and values, for the three handlers, construction followed by any data calls; for cells the handler can draw (the average handler throws for hexahedra and pyramids) and values of consistent length"
  },
  {
   "property": "C59",
   "status": "partial",
   "theorems": [
    "NuTo.Logging.C59_prefix_partial",
    "NuTo.Logging.C59_console",
    "NuTo.Logging.C59_quiet",
    "NuTo.Logging.C59_newline_counterexample"
   ],
   "note": "Every message is prefixed once per line when messages contain no inner newline and are not empty; C59_newline_counterexample shows the case of an inner newline."
  },
  {
   "property": "C60",
   "status": "proved",
   "theorems": [
    "NuTo.C60_gauss",
    "NuTo.C60_lobatto",
    "NuTo.C60_nodes_are_points",
    "NuTo.C60_tensor",
    "NuTo.C60_gauss_inside",
    "NuTo.C60_lobatto_inside",
    "NuTo.C60_gauss_exists",
    "NuTo.C60_lobatto_exists"
   ],
   "note": "exact arithmetic; for the exact roots as found by the root finder, all polynomials (integral of the real polynomial over [-1,1]); the roots exist, are inside (-1,1) and unique, the weights are positive"
  },
  {
   "property": "C61",
   "status": "proved",
   "theorems": [
    "NuTo.C61_exponential",
    "NuTo.C61_linear"
   ],
   "note": "exponential and linear laws, all positive parameters, real analysis"
  },
  {
   "property": "C62",
   "status": "proved",
   "theorems": [
    "NuTo.C62_local",
    "NuTo.C62_softening3D"
   ],
   "note": "any elastic damage law, damage law and norm meeting the differentiability conditions; C62_softening3D instantiates it for the 3D law built from a softening material"
  },
  {
   "property": "C63",
   "status": "proved",
   "theorems": [
    "NuTo.C63_order",
    "NuTo.C63_mismatch",
    "NuTo.C63_interpolate"
   ],
   "note": "all elements whose nodes keep the class invariant"
  },
  {
   "property": "C64",
   "status": "proved",
   "theorems": [
    "NuTo.Integrands.C64_virtual_work",
    "NuTo.Integrands.C64_momentum",
    "NuTo.Integrands.C64_momentum_symmetric",
    "NuTo.Integrands.C64_mass",
    "NuTo.Integrands.C64_mass_energy",
    "NuTo.Integrands.C64_neumann_work",
    "NuTo.Integrands.C64_neumann_total",
    "NuTo.Integrands.C64_mass_total",
    "NuTo.Integrands.C64_elastic",
    "NuTo.Integrands.C64_interaction",
    "NuTo.Integrands.C64_decreasing",
    "NuTo.Integrands.GradientDamage.C64_gradient_damage",
    "NuTo.Integrands.GradientDamage.C64_update",
    "NuTo.Integrands.GradientDamage.C64_history_needed",
    "NuTo.Integrands.GradientDamage.C64_gradient_damage3D"
   ],
   "note": "all element matrices, node values, laws and parameters; derivatives away from the loading threshold, the elastic limit and purely volumetric strains, where the residual has no derivative; the history has to be allocated by the caller (C64_history_needed)"
  },
  {
   "property": "C65",
   "status": "partial",
   "theorems": [
    "NuTo.SimplexRule.C65_triangle",
    "NuTo.SimplexRule.C65_triangle20_partial",
    "NuTo.SimplexRule.C65_triangle20_counterexample",
    "NuTo.SimplexRule.C65_tetrahedron",
    "NuTo.SimplexRule.C65_prism1",
    "NuTo.SimplexRule.C65_prism2",
    "NuTo.SimplexRule.C65_triangle_inside_partial",
    "NuTo.SimplexRule.C65_triangle_inside_counterexample",
    "NuTo.SimplexRule.C65_tetrahedron_inside_partial",
    "NuTo.SimplexRule.C65_tetrahedron_inside_counterexample",
    "NuTo.SimplexRule.C65_prism_inside",
    "NuTo.SimplexRule.C65_factory_triangle",
    "NuTo.SimplexRule.C65_factory_tetrahedron",
    "NuTo.SimplexRule.C65_factory_prism",
    "NuTo.SimplexRule.C65_unchecked_counterexample"
   ],
   "note": "All polynomials, against the integral over the reference element, with the tables as written: triangle orders 1-19, tetrahedron 0-21, prism 1-2. The triangle rule of order 20 has a wrong digit in its table and is off by 1.1e-10 already for x: C65_triangle20_counterexample (C65_triangle20_partial gives the bound it meets). Points lie outside the element for triangle orders 11, 15, 16, 18, 20 and tetrahedron order 9: C65_triangle_inside_counterexample, C65_tetrahedron_inside_counterexample; inside for all others."
  },
  {
   "property": "C66",
   "status": "partial",
   "theorems": [
    "NuTo.Table.C66_constructor_counterexample",
    "NuTo.Table.C66_moments",
    "NuTo.Table.C66_interpolates",
    "NuTo.Table.C66_value",
    "NuTo.Table.C66_reproduces",
    "NuTo.Table.C66_smooth",
    "NuTo.Table.C66_derivative_counterexample"
   ],
   "note": "the constructor writes into reserved but empty vectors: C66_constructor_counterexample; derivative returns the slope of the chord: C66_derivative_counterexample; the algorithm with usable memory is proved to give the natural twice differentiable interpolating spline"
  },
  {
   "property": "C67",
   "status": "partial",
   "theorems": [
    "NuTo.Nurbs.C67_derivatives",
    "NuTo.Nurbs.C67_curve_first",
    "NuTo.Nurbs.C67_curve_second",
    "NuTo.Nurbs.C67_surface_sum",
    "NuTo.Nurbs.C67_surface_first",
    "NuTo.Nurbs.C67_surface_xx",
    "NuTo.Nurbs.C67_surface_second_partial",
    "NuTo.Nurbs.C67_surface_second_counterexample"
   ],
   "note": "B-spline derivatives of all orders, curves up to second order, surfaces first order and second order in the first direction proved; the second derivative in the second direction and the mixed derivative of surfaces are wrong for unequal weights: C67_surface_second_counterexample; proved for equal weights"
  },
  {
   "property": "C68",
   "status": "partial",
   "theorems": [
    "NuTo.TakePhase.C68_diameter",
    "NuTo.TakePhase.C68_diameter_ends",
    "NuTo.TakePhase.C68_diameter_mono",
    "NuTo.TakePhase.C68_taken",
    "NuTo.TakePhase.C68_class_terminates",
    "NuTo.TakePhase.C68_terminates",
    "NuTo.TakePhase.C68_accepted",
    "NuTo.TakePhase.C68_zero_diameter_counterexample"
   ],
   "note": "Proved for smallest diameters > 0. Counterexample: a smallest diameter of 0 is accepted but the loop never ends."
  },
  {
   "property": "C69",
   "status": "proved",
   "theorems": [
    "NuTo.MeshFem.C69_coordinate_node",
    "NuTo.MeshFem.C69_dof_node",
    "NuTo.MeshFem.C69_unique_node",
    "NuTo.MeshFem.C69_axis",
    "NuTo.MeshFem.C69_dof_axis",
    "NuTo.MeshFem.C69_axis_direction",
    "NuTo.MeshFem.C69_total"
   ],
   "note": "A direction that the nodes do not have is undefined behaviour (C69_axis_direction)."
  },
  {
   "property": "C70",
   "status": "proved",
   "theorems": [
    "NuTo.SimpleNode.C70_call",
    "NuTo.SimpleNode.C70_history",
    "NuTo.SimpleNode.C70_constructors",
    "NuTo.SimpleNode.C70_allocate_all"
   ],
   "note": "Illegal calls are asserts; the constructor from a single number starts with dof number 0 instead of -1."
  },
  {
   "property": "C71",
   "status": "partial",
   "theorems": [
    "NuTo.Gmsh.C71_elements",
    "NuTo.Gmsh.C71_by_id",
    "NuTo.Gmsh.C71_by_name_sound",
    "NuTo.Gmsh.C71_by_name_partial",
    "NuTo.Gmsh.C71_name",
    "NuTo.Gmsh.C71_read_name_partial",
    "NuTo.Gmsh.C71_dimension_counterexample",
    "NuTo.Gmsh.C71_case_counterexample",
    "NuTo.Gmsh.C71_blank_counterexample",
    "NuTo.Gmsh.C71_dimension",
    "NuTo.Gmsh.C71_nodes"
   ],
   "note": "Groups by id are proved for all files. By name only if no two groups have the same name up to case and blanks; counterexamples: ids shared between dimensions are merged, names equal up to case hide each other, names are cut at blanks."
  },
  {
   "property": "C72",
   "status": "proved",
   "theorems": [
    "NuTo.Voronoi.C72_line",
    "NuTo.Voronoi.C72_quad",
    "NuTo.Voronoi.C72_brick",
    "NuTo.Voronoi.C72_tiling",
    "NuTo.Voronoi.C72_voronoi",
    "NuTo.Voronoi.C72_gauss",
    "NuTo.Voronoi.C72_lobatto",
    "NuTo.Voronoi.C72_equidistant",
    "NuTo.Voronoi.C72_errors"
   ],
   "note": "Exact arithmetic. Equidistant spacing with 0 cells divides by zero, 0 Gauss points are refused (C72_errors)."
  },
  {
   "property": "C73",
   "status": "partial",
   "theorems": [
    "NuTo.LeastSquares.C73_system",
    "NuTo.LeastSquares.C73_conditions",
    "NuTo.LeastSquares.C73_reproduces",
    "NuTo.LeastSquares.C73_least_squares",
    "NuTo.LeastSquares.C73_regular",
    "NuTo.LeastSquares.C73_fit",
    "NuTo.LeastSquares.C73_fit_partial",
    "NuTo.LeastSquares.C73_rejects",
    "NuTo.LeastSquares.C73_add_condition",
    "NuTo.LeastSquares.C73_constrained_counterexample",
    "NuTo.LeastSquares.C73_singular_counterexample",
    "NuTo.LeastSquares.C73_degree_counterexample",
    "NuTo.LeastSquares.C73_support_points"
   ],
   "note": "Proved without boundary conditions (unique least-squares polynomial) and for conditions alone; with both the result satisfies the conditions but is not the best such polynomial (C73_constrained_counterexample), the matrix may be singular although the best polynomial is unique, and lowering the degree after adding conditions writes out of range. C73_rejects: Build throws exactly if the output is not one-dimensional or no degree is set. Eigen SparseLU is trusted."
  },
  {
   "property": "C74",
   "status": "partial",
   "theorems": [
    "NuTo.Gmres.C74_converged_partial",
    "NuTo.Gmres.C74_monotone",
    "NuTo.Gmres.C74_minimal",
    "NuTo.Gmres.C74_defined",
    "NuTo.Gmres.C74_index_counterexample",
    "NuTo.Gmres.C74_scaling_counterexample"
   ],
   "note": "Proved for the preconditioned residual: accuracy, minimality over the Krylov space, monotonicity, and definedness for Krylov dimensions below the number of rows. Counterexamples: the preconditioned residual is compared with the unpreconditioned right-hand side, so the initial guess may be returned as a solution; a Krylov dimension not below the number of rows writes out of range."
  },
  {
   "property": "C75",
   "status": "partial",
   "theorems": [
    "NuTo.Completeness.C75_complete",
    "NuTo.Completeness.C75_sharp_counterexample",
    "NuTo.Completeness.C75_lagrange",
    "NuTo.Completeness.C75_lobatto_coords",
    "NuTo.Completeness.C75_lobatto_complete_partial",
    "NuTo.Completeness.C75_lobatto"
   ],
   "note": "Proved for all Lagrange types with exact decimals at every coordinate and for the Lobatto types at coordinates that are nodes or at least 1e-15 away from them; closer to a node the code returns the value at the node. The fourth order types with truncated decimals reproduce polynomials only approximately (C27) and are not created by the factory."
  },
  {
   "property": "C76",
   "status": "partial",
   "theorems": [
    "NuTo.Shapes.C76_accepts",
    "NuTo.Shapes.C76_close_partial",
    "NuTo.Shapes.C76_pyramid_counterexample",
    "NuTo.Shapes.C76_tolerance",
    "NuTo.Shapes.C76_nodes"
   ],
   "note": "Proved for all shapes but the pyramid, whose test has no condition for the base: points arbitrarily far below it are accepted (C76_pyramid_counterexample)."
  },
  {
   "property": "C77",
   "status": "proved",
   "theorems": [
    "NuTo.Balance.C77_points",
    "NuTo.Balance.C77_point",
    "NuTo.Balance.C77_virtual_work",
    "NuTo.Balance.C77_rigid_strains",
    "NuTo.Balance.C77_self_equilibrated",
    "NuTo.Balance.C77_resultant",
    "NuTo.Balance.C77_types"
   ],
   "note": "Exact arithmetic; one dof type per mesh. The moment part is for isoparametric elements, the force part for arbitrary pairs of interpolations and any Jacobian. The interpolation types with truncated decimals are excluded (C27)."
  },
  {
   "property": "C78",
   "status": "proved",
   "theorems": [
    "NuTo.Balance.C78_load_work",
    "NuTo.Balance.C78_load_total",
    "NuTo.Balance.C78_mass_form",
    "NuTo.Balance.C78_mass_total",
    "NuTo.Balance.C78_mass_nonneg"
   ],
   "note": "Exact arithmetic; one dof type per mesh; sizes of cells are those computed by integrating one with the same rule. The interpolation types with truncated decimals are excluded (C27)."
  },
  {
   "property": "C79",
   "status": "partial",
   "theorems": [
    "NuTo.Collision.C79_walls_enclose",
    "NuTo.Collision.C79_physical",
    "NuTo.Collision.C79_neighbours",
    "NuTo.Collision.C79_numbers",
    "NuTo.Collision.C79_register_partial",
    "NuTo.Collision.C79_common_partial",
    "NuTo.Collision.C79_touching_counterexample",
    "NuTo.Collision.C79_refused_counterexample",
    "NuTo.Collision.C79_outside_counterexample"
   ],
   "note": "Walls, numbers, neighbours and registration proved for every grid. The registration part is false in the code for particles that touch an upper side (registered one layer off, or refused with an exception) and undefined for particles reaching over a lower side; both shown by counterexamples, the proved theorem asks for particles not reaching the upper sides."
  },
  {
   "property": "C80",
   "status": "proved",
   "theorems": [
    "NuTo.Collision.C80_start",
    "NuTo.Collision.C80_inside",
    "NuTo.Collision.C80_no_overlap",
    "NuTo.Collision.C80_registered",
    "NuTo.Collision.C80_no_exception",
    "NuTo.Collision.C80_growth",
    "NuTo.Collision.C80_leave",
    "NuTo.Collision.C80_enter"
   ],
   "note": "Exact arithmetic, box specimens. The event queue is represented by what it stores: the next performed event is a minimum of the predictions for the pairs that share a sub box (the queue itself: C50, C51)."
  },
  {
   "property": "C81",
   "status": "partial",
   "theorems": [
    "NuTo.Collision.C81_result",
    "NuTo.Collision.C81_barrier",
    "NuTo.Collision.C81_end_time",
    "NuTo.Collision.C81_exception",
    "NuTo.Collision.C81_distance_partial",
    "NuTo.Collision.C81_volume_partial",
    "NuTo.Collision.C81_wall_time_counterexample",
    "NuTo.Collision.C81_undefined_counterexample",
    "NuTo.Collision.C81_overshoot_counterexample"
   ],
   "note": "Result and exception characterised for all runs. The distance and size guarantees are false when the wall time is used up (returns normally), the event list can be read when empty, and particles can get larger than requested: three counterexamples; the guarantees are proved for runs that are not cut off."
  },
  {
   "property": "C82",
   "status": "partial",
   "theorems": [
    "NuTo.Collision.C82_walls_partial",
    "NuTo.Collision.C82_inside_partial",
    "NuTo.Collision.C82_no_overlap_partial",
    "NuTo.Collision.C82_no_exception_partial",
    "NuTo.Collision.C82_growth_partial",
    "NuTo.Collision.C82_few_particles",
    "NuTo.Collision.C82_divided",
    "NuTo.Collision.C82_escape_counterexample",
    "NuTo.Collision.C82_growth_counterexample"
   ],
   "note": "False for a single lateral sub box, i.e. for few particles (C82_escape_counterexample), and a sliding particle may outgrow the cylinder unnoticed (C82_growth_counterexample). Proved for two or more equal lateral divisions while no particle outgrows the radius. Unequal lateral divisions are not covered."
  },
  {
   "property": "C83",
   "status": "partial",
   "theorems": [
    "NuTo.GeoFile.C83_box",
    "NuTo.GeoFile.C83_cylinder",
    "NuTo.GeoFile.C83_cylinder_orientation_counterexample",
    "NuTo.GeoFile.C83_plane",
    "NuTo.GeoFile.C83_printed",
    "NuTo.GeoFile.C83_margin",
    "NuTo.GeoFile.C83_inside_margin",
    "NuTo.GeoFile.C83_print_counterexample",
    "NuTo.GeoFile.C83_cylinder_place_partial",
    "NuTo.GeoFile.C83_cylinder_place_counterexample",
    "NuTo.GeoFile.C83_slice_counterexample",
    "NuTo.GeoFile.C83_slice",
    "NuTo.GeoFile.C83_interface_3D",
    "NuTo.GeoFile.C83_interface_2D_partial",
    "NuTo.GeoFile.C83_interface_counterexample"
   ],
   "note": "The correspondence of rows, aggregates and matrix volume is proved for every particle list, as are the rounding bound and the margin that keeps particles apart. Partial because parts of the claim are false in the code, each with a counterexample: touching particles overlap after rounding, a cylinder specimen is written around the origin with a radius and height taken from two entries of its bounds, its slice is written as the bounding rectangle, the cylinder surface is not consistently oriented, and interfaces in 2D and 3D are different shells."
  },
  {
   "property": "C84",
   "status": "partial",
   "theorems": [
    "NuTo.Collision.C84_sections",
    "NuTo.Collision.C84_points",
    "NuTo.Collision.C84_distance",
    "NuTo.Collision.C84_inside",
    "NuTo.Collision.C84_reported",
    "NuTo.Collision.C84_compared",
    "NuTo.Collision.C84_overlap_partial",
    "NuTo.Collision.C84_few_particles",
    "NuTo.Collision.C84_missed_counterexample"
   ],
   "note": "Sections are proved completely. The smallest distance is false in the code: only particles with corners in a common sub box are compared, with a counterexample of ten particles whose reported distance is 0.48 instead of 0.18. Proved instead: exactly which pairs are compared, that the value belongs to a pair and is right for fewer than ten particles, and that overlap is detected if no particle is larger than a sub box."
  },
  {
   "property": "C85",
   "status": "partial",
   "theorems": [
    "NuTo.TimeProblem.C85_renumber",
    "NuTo.TimeProblem.C85_solution_kept",
    "NuTo.TimeProblem.C85_rejected",
    "NuTo.TimeProblem.C85_mesh_counterexample",
    "NuTo.TimeProblem.C85_rejected_constraints_counterexample",
    "NuTo.TimeProblem.C85_set_constraints"
   ],
   "note": "Proved for an unchanged mesh (C85_renumber, C85_solution_kept, C85_set_constraints, C85_rejected). False if nodes were added to the mesh after the first numbering (C85_mesh_counterexample), and rejected constraints replace the accepted ones (C85_rejected_constraints_counterexample)."
  },
  {
   "property": "C86",
   "status": "partial",
   "theorems": [
    "NuTo.TimeProblem.C86_gradient",
    "NuTo.TimeProblem.C86_hessian",
    "NuTo.TimeProblem.C86_no_leftovers",
    "NuTo.TimeProblem.C86_no_functions",
    "NuTo.TimeProblem.C86_update",
    "NuTo.TimeProblem.C86_written_partial",
    "NuTo.TimeProblem.C86_written_time_counterexample",
    "NuTo.TimeProblem.C86_written_leftovers_counterexample"
   ],
   "note": "Gradient, Hessian0, UpdateHistory proved. The written residual is proved for functions that do not depend on t (C86_written_partial); false otherwise (C86_written_time_counterexample) and, with several dof types, after a failed step (C86_written_leftovers_counterexample). Exceptions of integrands are not modelled."
  },
  {
   "property": "C87",
   "status": "partial",
   "theorems": [
    "NuTo.EigenIO.C87_roundtrip",
    "NuTo.EigenIO.C87_read",
    "NuTo.EigenIO.C87_trailing_newline",
    "NuTo.EigenIO.C87_delimiter_counterexample",
    "NuTo.EigenIO.C87_empty_counterexample"
   ],
   "note": "Proved for matrices with at least one entry and delimiters of blanks and tabs (C87_roundtrip), and for arbitrary tables (C87_read, C87_trailing_newline). False for other delimiters (C87_delimiter_counterexample) and empty matrices (C87_empty_counterexample). Values are exact rationals; infinities and nans are not modelled."
  },
  {
   "property": "C88",
   "status": "proved",
   "theorems": [
    "NuTo.Balance.C88_strain",
    "NuTo.Balance.C88_forces",
    "NuTo.Balance.C88_flux_plane",
    "NuTo.Balance.C88_plane",
    "NuTo.Balance.C88_flux_space",
    "NuTo.Balance.C88_space",
    "NuTo.Balance.C88_flux_line",
    "NuTo.Balance.C88_line"
   ],
   "note": "C88_strain and C88_forces hold for all interpolation types with coded coefficients: the force at a node is the stress times the integral of the gradient of its shape function. C88_plane, C88_space, C88_line: the integral vanishes at inner nodes of linear elements. Exact arithmetic; rules enter through the sum of their weights (and first moments for quadrilaterals)."
  },
  {
   "property": "C89",
   "status": "partial",
   "theorems": [
    "NuTo.Specimens.C89_accepted",
    "NuTo.Specimens.C89_refused_partial",
    "NuTo.Specimens.C89_dimension_counterexample",
    "NuTo.Specimens.C89_box_volume",
    "NuTo.Specimens.C89_cylinder_volume",
    "NuTo.Specimens.C89_oval_cylinder",
    "NuTo.Specimens.C89_small_counterexample",
    "NuTo.Specimens.C89_dogbone_counterexample"
   ],
   "note": "Proved for 3x2 matrices: accepted iff extended (C89_accepted), box and cylinder volumes equal Lebesgue measure (C89_box_volume, C89_cylinder_volume), oval cylinders throw (C89_oval_cylinder). Wrong sizes are refused only if rows and columns are both wrong (C89_refused_partial); a 3x1 or 2x2 matrix is read out of range (C89_dimension_counterexample). Positive volumes below 1e-14 and every dog bone throw (C89_small_counterexample, C89_dogbone_counterexample)."
  },
  {
   "property": "C90",
   "status": "partial",
   "theorems": [
    "NuTo.Specimens.C90_grading",
    "NuTo.Specimens.C90_safe_partial",
    "NuTo.Specimens.C90_rates",
    "NuTo.Specimens.C90_rate_mismatch",
    "NuTo.Specimens.C90_no_leak_partial",
    "NuTo.Specimens.C90_dangling_counterexample",
    "NuTo.Specimens.C90_null_counterexample",
    "NuTo.Specimens.C90_specimen_leak_counterexample",
    "NuTo.Specimens.C90_particles_leak_counterexample"
   ],
   "note": "C90_grading in full. Safety proved if every SetSpecimenBox gets a box with extent and ExportGmshGeo after SetParticles comes after a specimen was set (C90_safe_partial); no leak if in addition cylinders are set before any other specimen and particles made once (C90_no_leak_partial). False otherwise: C90_dangling_counterexample, C90_null_counterexample, C90_specimen_leak_counterexample, C90_particles_leak_counterexample. Copies of the object, and the events and walls of a simulation, are not modelled here but for C111, where MaximizeParticleDistance is undefined if an event is left when the simulation ends."
  },
  {
   "property": "C91",
   "status": "partial",
   "theorems": [
    "NuTo.Delaunay.C91_triangulation_partial",
    "NuTo.Delaunay.C91_removal_counterexample",
    "NuTo.Delaunay.C91_line_counterexample",
    "NuTo.Delaunay.C91_empty_counterexample",
    "NuTo.Delaunay.C91_circumcentre",
    "NuTo.Delaunay.C91_circle",
    "NuTo.Delaunay.C91_hull_counterexample"
   ],
   "note": "Proved for every list of points that is not on a line parallel to an axis: the insertion loop gives an empty-circle triangulation of points and super points that covers the super box exactly once (C91_triangulation_partial); circumcentre and circle test (C91_circumcentre, C91_circle). False for the whole function: removing the super points dereferences a pointer to a removed list element for every such input (C91_removal_counterexample); points on a horizontal line, or none, fail too (C91_line_counterexample, C91_empty_counterexample); even a correct removal leaves part of the hull uncovered (C91_hull_counterexample)."
  },
  {
   "property": "C92",
   "status": "partial",
   "theorems": [
    "NuTo.C92_continuous_partial",
    "NuTo.C92_lobatto",
    "NuTo.C92_facets",
    "NuTo.C92_truncated_counterexample",
    "NuTo.C92_prism_brick_counterexample"
   ],
   "note": "C92_continuous_partial for every pair of the exactly coded classes, C92_lobatto for Lobatto classes of any order, C92_facets that the facets used are the boundary of the reference element. False for InterpolationTriangle4thOrder (C92_truncated_counterexample: truncated decimals make the function of node 0 non-zero on the opposite edge). C92_prism_brick_counterexample: the prism with 18 nodes and the brick with 20 nodes have different nodes on a common rectangular face, so a mesh mixing them is not conforming even if all common nodes are shared."
  },
  {
   "property": "C93",
   "status": "partial",
   "theorems": [
    "NuTo.GmshText.C93_read_partial",
    "NuTo.GmshText.C93_terminates",
    "NuTo.GmshText.C93_nodes_names_defined",
    "NuTo.GmshText.C93_end_marker",
    "NuTo.GmshText.C93_wrong_number",
    "NuTo.GmshText.C93_unknown_section",
    "NuTo.GmshText.C93_missing_elements_counterexample",
    "NuTo.GmshText.C93_type_counterexample",
    "NuTo.GmshText.C93_empty_counterexample"
   ],
   "note": "Proved: complete reading of every valid text file, termination for every sequence of characters, exceptions for wrong numbers of nodes and names and for too few announced elements, for unclosed and unknown sections, and that reading nodes and names is never undefined. False in the code, with counterexamples: fewer element lines than announced use an uninitialised number of tags, an element type above 31 reads the table of NumNodes out of range, an empty header uses uninitialised values. Names with blanks are not read completely (C71). The element blocks of binary files are C26. Doubles are exact."
  },
  {
   "property": "C94",
   "status": "partial",
   "theorems": [
    "NuTo.Nurbs.C94_evaluate",
    "NuTo.Nurbs.C94_outside",
    "NuTo.Nurbs.C94_hull",
    "NuTo.Nurbs.C94_affine",
    "NuTo.Nurbs.C94_interpolates",
    "NuTo.Nurbs.C94_end",
    "NuTo.Nurbs.C94_transformation",
    "NuTo.Nurbs.C94_element_partial",
    "NuTo.Nurbs.C94_element_end_counterexample",
    "NuTo.Nurbs.C94_derivative",
    "NuTo.Nurbs.C94_element_derivative_partial",
    "NuTo.Nurbs.C94_element_derivative_counterexample",
    "NuTo.Nurbs.C94_surface",
    "NuTo.Nurbs.C94_surface_outside",
    "NuTo.Nurbs.C94_surface_hull",
    "NuTo.Nurbs.C94_surface_derivative_partial"
   ],
   "note": "Evaluation, hull, affine invariance, end points and derivatives are proved for curves; values, hull and the first derivative for surfaces. False for elements: at the right end of an element followed by another one the shape functions belong to the next element and the nodes to this one (C94_element_end_counterexample), and the derivative shape functions lack half the length of the knot span (C94_element_derivative_counterexample). Surfaces return only the derivative in the first direction."
  },
  {
   "property": "C95",
   "status": "partial",
   "theorems": [
    "NuTo.Balance.C95_point",
    "NuTo.Balance.C95_form",
    "NuTo.Balance.C95_exists",
    "NuTo.Balance.C95_symmetric",
    "NuTo.Balance.C95_nonneg",
    "NuTo.Balance.C95_energy_zero",
    "NuTo.Balance.C95_unstrained",
    "NuTo.Balance.C95_rigid",
    "NuTo.Balance.C95_unique",
    "NuTo.Balance.C95_forces",
    "NuTo.Balance.C95_elastic",
    "NuTo.Balance.C95_triangleQuadratic_rigid",
    "NuTo.Balance.C95_tetrahedronQuadratic_rigid",
    "NuTo.Balance.C95_plane_unstrained_quadratic",
    "NuTo.Balance.C95_plane_kernel_quadratic",
    "NuTo.Balance.C95_plane_solvable_quadratic",
    "NuTo.Balance.C95_space_unstrained_quadratic",
    "NuTo.Balance.C95_space_kernel_quadratic",
    "NuTo.Balance.C95_space_solvable_quadratic",
    "NuTo.Balance.C95_brick_rigid",
    "NuTo.Balance.C95_space_rigid",
    "NuTo.Balance.C95_space_unstrained",
    "NuTo.Balance.C95_space_kernel",
    "NuTo.Balance.C95_space_solvable",
    "NuTo.Balance.C95_triangleCubic_rigid",
    "NuTo.Balance.C95_plane_unstrained_cubic",
    "NuTo.Balance.C95_plane_kernel_cubic",
    "NuTo.Balance.C95_plane_solvable_cubic",
    "NuTo.Balance.C95_simplex_rigid",
    "NuTo.Balance.C95_unstrained_rigid",
    "NuTo.Balance.C95_kernel",
    "NuTo.Balance.C95_truss_rigid",
    "NuTo.Balance.C95_line_unstrained",
    "NuTo.Balance.C95_line_kernel",
    "NuTo.Balance.C95_line_solvable",
    "NuTo.Balance.C95_prism_rigid",
    "NuTo.Balance.C95_space_unstrained_prism",
    "NuTo.Balance.C95_space_kernel_prism",
    "NuTo.Balance.C95_space_solvable_prism",
    "NuTo.Balance.C95_quad_rigid",
    "NuTo.Balance.C95_plane_rigid",
    "NuTo.Balance.C95_plane_unstrained",
    "NuTo.Balance.C95_plane_kernel",
    "NuTo.Balance.C95_plane_solvable",
    "NuTo.Balance.C95_reduced_counterexample",
    "NuTo.Balance.C95_serendipity_rigid",
    "NuTo.Balance.C95_plane_unstrained_serendipity",
    "NuTo.Balance.C95_plane_kernel_serendipity",
    "NuTo.Balance.C95_plane_solvable_serendipity",
    "NuTo.Balance.C95_tangent",
    "NuTo.Balance.C95_solvable",
    "NuTo.Balance.C95_hourglass_counterexample",
    "NuTo.Balance.C95_line_rigid",
    "NuTo.Balance.C95_trusses_unstrained",
    "NuTo.Balance.C95_trusses_kernel",
    "NuTo.Balance.C95_trusses_solvable"
   ],
   "note": "Everything but the kernel for general elements is proved in full. The kernel is proved to be the rigid motions for linear simplices (C95_kernel) and for plane meshes of linear triangles and bilinear quadrilaterals of any shape with integration points on a grid (C95_plane_kernel), and for meshes of linear tetrahedra and bricks that are parallelepipeds (C95_space_kernel); both also with quadratic triangles or tetrahedra with straight edges (C95_plane_kernel_quadratic, C95_space_kernel_quadratic), the plane ones also with eight-node parallelograms and nine points on a grid (C95_plane_kernel_serendipity) and cubic triangles with straight edges and points that are not on a conic (C95_plane_kernel_cubic), those in space also with linear prisms with parallel triangles and six points (C95_space_kernel_prism); and for linear, quadratic and cubic trusses on a line with inner nodes at any place (C95_line_kernel, C95_trusses_kernel); missing: the kernel of bricks of other shapes, of curved quadratic elements and of the other higher order elements. For bilinear quads with one integration point and for eight-node quads with four the claim is false (C95_hourglass_counterexample, C95_reduced_counterexample)."
  },
  {
   "property": "C96",
   "status": "partial",
   "theorems": [
    "NuTo.InputReader.C96_read_partial",
    "NuTo.InputReader.C96_checked",
    "NuTo.InputReader.C96_truncated",
    "NuTo.InputReader.C96_long_comment",
    "NuTo.InputReader.C96_comment_counterexample",
    "NuTo.InputReader.C96_hang",
    "NuTo.InputReader.C96_no_number",
    "NuTo.InputReader.C96_vector_at_end",
    "NuTo.InputReader.C96_end",
    "NuTo.InputReader.C96_no_comment_counterexample",
    "NuTo.InputReader.C96_negative_sieves_counterexample",
    "NuTo.InputReader.C96_line",
    "NuTo.InputReader.C96_remark_counterexample",
    "NuTo.InputReader.C96_directory_counterexample",
    "NuTo.InputReader.C96_empty_directory",
    "NuTo.InputReader.C96_documented_counterexample"
   ],
   "note": "Proved for all files of the grammar. False otherwise, with counterexamples for all inputs of a kind: longer comments (a number in the comment is taken for the value), longer directories (cut), remarks behind the directory (become part of it), empty directory (library exception), text that is no number in a vector or a vector at the end of the file (the loop never ends), files that end early (undefined values). The example in the documentation of the class itself never ends: it lacks the absolute growth rate. Fractions of integers are dropped."
  },
  {
   "property": "C97",
   "status": "partial",
   "theorems": [
    "NuTo.VoronoiTriangle.C97_cell",
    "NuTo.VoronoiTriangle.C97_region",
    "NuTo.VoronoiTriangle.C97_tiles_partial",
    "NuTo.VoronoiTriangle.C97_cover",
    "NuTo.VoronoiTriangle.C97_overlap",
    "NuTo.VoronoiTriangle.C97_own",
    "NuTo.VoronoiTriangle.C97_outside_counterexample",
    "NuTo.VoronoiTriangle.C97_order11_counterexample",
    "NuTo.VoronoiTriangle.C97_merged_counterexample",
    "NuTo.VoronoiTriangle.C97_rounded"
   ],
   "note": "Proved for every set of points strictly inside the triangle whose cell corners are at least 0.01 apart in the equilateral triangle (C97_cell for any hull, C97_region, C97_tiles_partial, C97_cover, C97_overlap, C97_own), with a bound for the effect of integer coordinates (C97_rounded). False for rules with points outside of the triangle (C97_outside_counterexample, C97_order11_counterexample) and for rules with closer corners (C97_merged_counterexample)."
  },
  {
   "property": "C98",
   "status": "partial",
   "theorems": [
    "NuTo.RuleFactory.C98_cube",
    "NuTo.RuleFactory.C98_gauss_cube",
    "NuTo.RuleFactory.C98_lobatto_cube",
    "NuTo.RuleFactory.C98_gauss",
    "NuTo.RuleFactory.C98_lobatto_partial",
    "NuTo.RuleFactory.C98_lobatto_counterexample"
   ],
   "note": "Gauss: proved for all shapes and orders, exactly for line, quadrilateral and hexahedron (even up to degree 2 order - 1 in each variable, C98_gauss_cube), within the rounding of the tables otherwise (C98_gauss). Lobatto: proved for every order but 2 (C98_lobatto_partial); with order 2 the rule has two points and is wrong for x^2 (C98_lobatto_counterexample). The rules are those of the exact roots; C115 bounds the distance of the computed roots."
  },
  {
   "property": "C99",
   "status": "proved",
   "theorems": [
    "NuTo.ValueVector.C99_defined",
    "NuTo.ValueVector.C99_invariant",
    "NuTo.ValueVector.C99_step",
    "NuTo.ValueVector.C99_reference",
    "NuTo.ValueVector.C99_order",
    "NuTo.ValueVector.C99_erase",
    "NuTo.ValueVector.C99_move",
    "NuTo.ValueVector.C99_iterator_counterexample",
    "NuTo.ValueVector.C99_iterator",
    "NuTo.ValueVector.C99_misuse_counterexample"
   ],
   "note": "C99_reference over whole programs, C99_step with the exact effect of every operation, C99_invariant (unique ownership, no leak, no double delete), C99_defined (defined iff used as documented), C99_order, C99_erase, C99_move. Iterators are weaker: C99_iterator and C99_iterator_counterexample."
  },
  {
   "property": "C100",
   "status": "partial",
   "theorems": [
    "NuTo.Particles.C100_from_matrix",
    "NuTo.Particles.C100_from_matrix_defined",
    "NuTo.Particles.C100_get_particles",
    "NuTo.Particles.C100_sync_sync",
    "NuTo.Particles.C100_sync",
    "NuTo.Particles.C100_reset",
    "NuTo.Particles.C100_volume",
    "NuTo.Particles.C100_from_random",
    "NuTo.Particles.C100_export_partial",
    "NuTo.Particles.C100_from_file_counterexample",
    "NuTo.Particles.C100_lost_counterexample",
    "NuTo.Particles.C100_grid",
    "NuTo.Particles.C100_exports",
    "NuTo.Particles.C100_first_step"
   ],
   "note": "False for the constructor that reads a file: it reads into a matrix without entries, so it never creates a particle and leaves the name of the visualisation files empty (proved for every file). Proved: everything about matrices and random particles, motion, growth, energy and volume, the exported file holds the particles (reading it into a matrix of the right size returns them), grid and collection of the visualisation."
  },
  {
   "property": "C101",
   "status": "proved",
   "theorems": [
    "NuTo.Statics.C101_minimum",
    "NuTo.Statics.C101_solvable",
    "NuTo.Statics.C101_step",
    "NuTo.Statics.C101_step_solvable",
    "NuTo.Statics.C101_held",
    "NuTo.Balance.C101_plane_held_quadratic",
    "NuTo.Balance.C101_space_held_quadratic",
    "NuTo.Balance.C101_space_held",
    "NuTo.Balance.C101_plane_held",
    "NuTo.Balance.C101_plane_held_serendipity"
   ],
   "note": "Exact real arithmetic; constraint coefficients are zero or above the drop tolerance, and right-hand sides at the two times survive the conversion to float (otherwise see the findings of C09)."
  },
  {
   "property": "C102",
   "status": "partial",
   "theorems": [
    "NuTo.Delaunay.C102_lineParameter",
    "NuTo.Delaunay.C102_segmentIntersects",
    "NuTo.Delaunay.C102_closest",
    "NuTo.Delaunay.C102_inside_edges",
    "NuTo.Delaunay.C102_pointIsInside_partial",
    "NuTo.Delaunay.C102_corners",
    "NuTo.Delaunay.C102_corners_exact",
    "NuTo.Delaunay.C102_order",
    "NuTo.Delaunay.C102_near",
    "NuTo.Delaunay.C102_edgeIndex",
    "NuTo.Delaunay.C102_pointOnBothEdges",
    "NuTo.Delaunay.C102_inside_counterexample",
    "NuTo.Delaunay.C102_boundary_counterexample",
    "NuTo.Delaunay.C102_segment_counterexample",
    "NuTo.Delaunay.C102_closest_counterexample",
    "NuTo.Delaunay.C102_edgeIndex_counterexample",
    "NuTo.Delaunay.C102_merge"
   ],
   "note": "Proved: the intersection parameter is exactly that of the point on the edge; SegmentIntersects and GetClosestIntersection return what they should for directions that are not parallel to an edge; for every strictly convex clockwise polygon and every point that has not the height of a corner, PointIsInside holds exactly for inner points and points on rising edges; corners are the given points sorted by angle, independent of their order, if their angles differ by more than 1e-6; GetEdgeIndex finds the first edge whose straight line is within 1e-8; GetPointOnBothEdges returns a common corner or throws. Fails: the centre of a square standing on a corner is reported outside; boundary points are inside or outside depending on the edge; segments in an edge do not intersect; a ray without intersection returns p + 1e10 n; GetEdgeIndex accepts points far away on the extension of an edge; of points in the same direction from the centre only one is kept."
  },
  {
   "property": "C103",
   "status": "proved",
   "theorems": [
    "NuTo.Statics.C103_strain",
    "NuTo.Statics.C103_general",
    "NuTo.Statics.C103_plane",
    "NuTo.Statics.C103_space",
    "NuTo.Statics.C103_line"
   ],
   "note": "Combines the models of C88, C95 and C101. General form C103_general for any mesh on which the gradients of the shape functions of inner nodes integrate to zero; C103_plane, C103_space and C103_line discharge this for triangles with quadrilaterals, tetrahedra and trusses. That no motion without strains is left is a hypothesis (Held); C101_held, C101_plane_held, C101_space_held and their versions with quadratic elements give it for face-connected meshes of triangles or tetrahedra, of triangles and quadrilaterals, and of tetrahedra and parallelepipeds. Exact arithmetic."
  },
  {
   "property": "C104",
   "status": "partial",
   "theorems": [
    "NuTo.EigenSolve.C104_names",
    "NuTo.EigenSolve.C104_only",
    "NuTo.EigenSolve.C104_missing_partial",
    "NuTo.EigenSolve.C104_spelling_counterexample",
    "NuTo.EigenSolve.C104_other_names",
    "NuTo.EigenSolve.C104_spd",
    "NuTo.EigenSolve.C104_general",
    "NuTo.EigenSolve.C104_patch",
    "NuTo.EigenSolve.C104_unsymmetric_counterexample",
    "NuTo.EigenSolve.C104_singular_counterexample"
   ],
   "note": "Proved: documented names select their solver iff the library is there, no other name does; all of them solve symmetric positive definite systems, those for general matrices solve all systems with exactly one solution; the reduced stiffness matrix of an elastic body is symmetric positive definite (Problem.reduced), so C101 and C103 hold with every documented solver (C104_patch). The factorisations are trusted (structure Library). False and shown: solvers that read one triangle silently return wrong vectors for matrices that are not symmetric; singular systems are not reported (info() is not read); MumpsLDLT without MUMPS is reported as unknown because the check spells it MUMPSLDLT."
  },
  {
   "property": "C105",
   "status": "partial",
   "theorems": [
    "NuTo.ElasticStep.C105_step_partial",
    "NuTo.ElasticStep.C105_run_partial",
    "NuTo.ElasticStep.C105_start_counterexample",
    "NuTo.ElasticStep.C105_large_counterexample"
   ],
   "note": "Proved from arbitrary first displacements: a step leads to the only vector with the least potential energy among those that change the left-hand sides of the constraints by the change of the prescribed values; sequences of steps are path independent. False as stated in two ways, with counterexamples: first displacements that violate the constraints (for example a prescribed value that is constant in time) keep their error although all steps converge, and exact solutions with free displacements above 1e10 are reported as not converged."
  },
  {
   "property": "C106",
   "status": "partial",
   "theorems": [
    "NuTo.Delaunay.C106_corner",
    "NuTo.Delaunay.C106_nearest_partial",
    "NuTo.Delaunay.C106_transform",
    "NuTo.Delaunay.C106_equilateral",
    "NuTo.Delaunay.C106_visualisation",
    "NuTo.Delaunay.C106_triangles",
    "NuTo.Delaunay.C106_stale_counterexample",
    "NuTo.Delaunay.C106_exception_counterexample",
    "NuTo.Delaunay.C106_retry_counterexample",
    "NuTo.Delaunay.C106_empty_counterexample",
    "NuTo.Delaunay.C106_right_counterexample",
    "NuTo.Delaunay.C106_outward",
    "NuTo.Delaunay.C106_nearest_hull_partial"
   ],
   "note": "C106_corner, C106_visualisation, C106_triangles and C106_transform hold for all inputs. The cells are not those of the Voronoi diagram in general: C106_right_counterexample, C106_exception_counterexample, C106_retry_counterexample, C106_empty_counterexample, C106_stale_counterexample; C106_nearest_partial covers inner points, C106_nearest_hull_partial also those at the hull if no circumcentre is on an edge of the hull (C106_outward: the direction there points away from the triangle)."
  },
  {
   "property": "C107",
   "status": "proved",
   "theorems": [
    "NuTo.DamageRun.C107_law",
    "NuTo.DamageRun.C107_step",
    "NuTo.DamageRun.C107_run",
    "NuTo.DamageRun.C107_energy",
    "NuTo.DamageRun.C107_from_rest",
    "NuTo.DamageRun.C107_delivered",
    "NuTo.DamageRun.C107_material",
    "NuTo.DamageRun.C107_update_needed"
   ],
   "note": "C107_law is the inequality at an integration point, C107_step and C107_energy the lift to assembled forces, C107_from_rest and C107_delivered the two bounds, C107_run that every sequence runs, C107_material that the laws of a softening material are admissible, C107_update_needed that the update is necessary."
  },
  {
   "property": "C108",
   "status": "proved",
   "theorems": [
    "NuTo.Frame.C108_damage",
    "NuTo.Frame.C108_elastic",
    "NuTo.Frame.C108_mises",
    "NuTo.Frame.C108_work",
    "NuTo.Frame.C108_forces",
    "NuTo.Frame.C108_history",
    "NuTo.Frame.C108_run",
    "NuTo.Frame.C108_elastic_forces"
   ],
   "note": "C108_work and C108_forces for any isotropic law, C108_elastic, C108_damage and C108_mises that the laws and the norm are isotropic, C108_elastic_forces, C108_history and C108_run (load steps with damage)."
  },
  {
   "property": "C109",
   "status": "proved",
   "theorems": [
    "NuTo.GradientMesh.C109_weak_form",
    "NuTo.GradientMesh.C109_total",
    "NuTo.GradientMesh.C109_conserved",
    "NuTo.GradientMesh.C109_bound",
    "NuTo.GradientMesh.C109_stable",
    "NuTo.GradientMesh.C109_unique",
    "NuTo.GradientMesh.C109_homogeneous",
    "NuTo.GradientMesh.C109_homogeneous_forces",
    "NuTo.GradientMesh.C109_homogeneous_plane",
    "NuTo.GradientMesh.C109_homogeneous_space",
    "NuTo.GradientMesh.C109_range_counterexample"
   ],
   "note": "C109_weak_form, C109_total, C109_conserved, C109_bound, C109_stable, C109_unique, C109_homogeneous, C109_homogeneous_forces, C109_homogeneous_plane, C109_homogeneous_space. The bound does not hold pointwise: C109_range_counterexample."
  },
  {
   "property": "C110",
   "status": "proved",
   "theorems": [
    "NuTo.GradientMesh.C110_tangent",
    "NuTo.GradientMesh.C110_softening3D"
   ],
   "note": "C110_tangent for all laws, norms and interactions that are differentiable at the points; C110_softening3D with explicit conditions for the material of the library. The conditions exclude the unstrained state (C38: the norm has no derivative there)."
  },
  {
   "property": "C111",
   "status": "partial",
   "theorems": [
    "NuTo.Ownership.C111_call_partial",
    "NuTo.Ownership.C111_session_partial",
    "NuTo.Ownership.C111_session_undefined",
    "NuTo.Ownership.C111_distance_counterexample",
    "NuTo.Ownership.C111_box_counterexample",
    "NuTo.Ownership.C111_lost_counterexample",
    "NuTo.Ownership.C111_export_counterexample",
    "NuTo.Ownership.C111_nothing_left",
    "NuTo.Ownership.C111_copy_counterexample",
    "NuTo.Ownership.C111_addSubBox_counterexample",
    "NuTo.Ownership.C111_grow_counterexample",
    "NuTo.Ownership.C111_subboxes",
    "NuTo.Ownership.C111_rates"
   ],
   "note": "False in the code. C111_session_partial and C111_session_undefined decide for every session whether it is defined, and count the objects left behind; C111_nothing_left gives the conditions under which none is. C111_subboxes: sub boxes release all their walls (all but one in a cylinder)."
  },
  {
   "property": "C112",
   "status": "partial",
   "theorems": [
    "NuTo.ResultFiles.C112_directory",
    "NuTo.ResultFiles.C112_directory_throws",
    "NuTo.ResultFiles.C112_members",
    "NuTo.ResultFiles.C112_throws",
    "NuTo.ResultFiles.C112_written",
    "NuTo.ResultFiles.C112_untouched",
    "NuTo.ResultFiles.C112_collection_partial",
    "NuTo.ResultFiles.C112_retry_counterexample",
    "NuTo.ResultFiles.C112_shared_counterexample"
   ],
   "note": "The collection is proved if no Plot is left by an exception after the directory was set (C112_collection_partial); the other parts hold without this condition. False otherwise: C112_retry_counterexample. Two objects with one directory: C112_shared_counterexample. C112_directory says what ResultDirectory removes."
  },
  {
   "property": "C113",
   "status": "proved",
   "theorems": [
    "NuTo.Mass.C113_exists",
    "NuTo.Mass.C113_symmetric",
    "NuTo.Mass.C113_nonneg",
    "NuTo.Mass.C113_energy_zero",
    "NuTo.Mass.C113_kernel",
    "NuTo.Mass.C113_definite",
    "NuTo.Mass.C113_trussLinear",
    "NuTo.Mass.C113_trussQuadratic",
    "NuTo.Mass.C113_triangleLinear",
    "NuTo.Mass.C113_quadLinear",
    "NuTo.Mass.C113_nodal",
    "NuTo.Mass.C113_few_points",
    "NuTo.Mass.C113_lumped",
    "NuTo.Mass.C113_lumped_positive",
    "NuTo.Mass.C113_lumped_total",
    "NuTo.Mass.C113_one_point"
   ],
   "note": "Singular matrices need no badly shaped element: C113_one_point is a triangle with one integration point. The total of the lumped entries (C113_lumped_total) is the mass divided by GetNum; C15 records this as a defect."
  },
  {
   "property": "C114",
   "status": "proved",
   "theorems": [
    "NuTo.Reactions.C114_reactions",
    "NuTo.Reactions.C114_balance",
    "NuTo.Reactions.C114_supports",
    "NuTo.Reactions.C114_work",
    "NuTo.Reactions.C114_reciprocal",
    "NuTo.Reactions.C114_reciprocal_loads",
    "NuTo.Reactions.C114_superposition",
    "NuTo.Reactions.C114_solve",
    "NuTo.Reactions.C114_maxwell",
    "NuTo.Reactions.C114_step"
   ],
   "note": "C114_reactions, C114_balance (any state), C114_supports, C114_work, C114_reciprocal, C114_reciprocal_loads, C114_superposition, C114_solve, C114_maxwell, C114_step. `Solve` treats all constraints as homogeneous (see C101), so the statements about prescribed values concern time steps."
  },
  {
   "property": "C115",
   "status": "proved",
   "theorems": [
    "NuTo.C115_roots",
    "NuTo.C115_deriv_roots"
   ],
   "note": "exact arithmetic: in doubles the last steps are rounded and the stopping rule 1e-15 is close to the unit roundoff, that is not modelled"
  },
  {
   "property": "C116",
   "status": "proved",
   "theorems": [
    "NuTo.MeshIntegral.C116_element",
    "NuTo.MeshIntegral.C116_cell",
    "NuTo.MeshIntegral.C116_domain",
    "NuTo.MeshIntegral.C116_affine",
    "NuTo.MeshIntegral.C116_clockwise",
    "NuTo.MeshIntegral.C116_injective",
    "NuTo.MeshIntegral.C116_triangle",
    "NuTo.MeshIntegral.C116_tetrahedron",
    "NuTo.MeshIntegral.C116_quad",
    "NuTo.MeshIntegral.C116_unit_lines",
    "NuTo.MeshIntegral.C116_unit_quads",
    "NuTo.MeshIntegral.C116_unit_bricks",
    "NuTo.MeshIntegral.C116_unit_triangles"
   ],
   "note": "Exact arithmetic and exact Gauss points; the loop over the cells is the code of the user. Curved elements: any function for which the rule is exact; the degree of the pulled back polynomial is worked out for straight sided simplices and bilinear quadrilaterals only. Injectivity from the Jacobian determinant for the types with shape functions of total degree two at most."
  },
  {
   "property": "C117",
   "status": "partial",
   "theorems": [
    "NuTo.Collision.C117_wall",
    "NuTo.Collision.C117_unset",
    "NuTo.Collision.C117_borders",
    "NuTo.Collision.C117_size_counterexample",
    "NuTo.Collision.C117_cylinder_partial",
    "NuTo.Collision.C117_axis_counterexample",
    "NuTo.Collision.C117_height_counterexample"
   ],
   "note": "False in the code: the squares have side 1 or 2 whatever the specimen (C117_size_counterexample), the cylinder of a specimen is drawn half a height too high (C117_height_counterexample), and a cylinder with axis -x is drawn as a line (C117_axis_counterexample). Proved: plane walls and the walls of box specimens, and cylinders with any other axis relative to their own position."
  },
  {
   "property": "C118",
   "status": "partial",
   "theorems": [
    "NuTo.Visualize.C118_ascii_partial",
    "NuTo.Visualize.C118_binary_partial",
    "NuTo.Visualize.C118_name_counterexample",
    "NuTo.Visualize.C118_empty_counterexample"
   ],
   "note": "Proved for names without \", < and &: the exported ascii text is parsed by an independent xml reader to exactly the tree with the grid's data; the binary text likewise, with the appended data replaced by a word. False otherwise: names are written without escaping, so a quote or < in a name makes the file unreadable; a defined field on a grid without points reads the first point of none. The printed form of float (six digits, so values are rounded) is a parameter."
  },
  {
   "property": "C119",
   "status": "proved",
   "theorems": [
    "NuTo.BestApproximation.C119_closest",
    "NuTo.BestApproximation.C119_solve",
    "NuTo.BestApproximation.C119_bodyLoad",
    "NuTo.BestApproximation.C119_richer",
    "NuTo.BestApproximation.C119_types"
   ],
   "note": "Props/BestApproximation, Props/RicherTypes, Props/RicherExample. The fine problem has to admit the sampled coarse displacements and its loads have to do the same work on them (C119_bodyLoad: body forces do)."
  },
  {
   "property": "C120",
   "status": "partial",
   "theorems": [
    "NuTo.CellStorage.C120_added",
    "NuTo.CellStorage.C120_refused",
    "NuTo.CellStorage.C120_distinct",
    "NuTo.CellStorage.C120_own_partial",
    "NuTo.CellStorage.C120_default_counterexample",
    "NuTo.CellStorage.C120_allocation"
   ],
   "note": "C120_added, C120_refused, C120_distinct and C120_own_partial; the default start id 0 of a second call makes the cells of two groups share history data (C120_default_counterexample), and history data that is too small is undefined (C120_allocation)"
  },
  {
   "property": "C121",
   "status": "proved",
   "theorems": [
    "NuTo.Water.C121_rising",
    "NuTo.Water.C121_falling",
    "NuTo.Water.C121_result",
    "NuTo.Water.C121_outside",
    "NuTo.Water.C121_bounds",
    "NuTo.Water.C121_anomaly"
   ],
   "note": "C121_result, C121_outside, C121_bounds, C121_anomaly for water; C121_rising and C121_falling for all tables"
  },
  {
   "property": "C122",
   "status": "proved",
   "theorems": [
    "NuTo.Renumbering.C122_constraints",
    "NuTo.Renumbering.C122_equilibrium",
    "NuTo.Renumbering.C122_stiffness",
    "NuTo.Renumbering.C122_held",
    "NuTo.Renumbering.C122_residual",
    "NuTo.Renumbering.C122_solve",
    "NuTo.Renumbering.C122_step"
   ],
   "note": "C122_constraints, C122_equilibrium, C122_stiffness, C122_held, C122_residual, C122_solve, C122_step. Exact arithmetic; the final acceptance test of a step (norm of the free dofs at most 1e10) is a hypothesis of the last part of C122_step, because the norm is over the independent dofs and does depend on the choice of the dependent ones."
  },
  {
   "property": "C123",
   "status": "partial",
   "theorems": [
    "NuTo.Scaling.C123_energy",
    "NuTo.Scaling.C123_constraints",
    "NuTo.Scaling.C123_equilibrium",
    "NuTo.Scaling.C123_stiffness",
    "NuTo.Scaling.C123_residual",
    "NuTo.Scaling.C123_held",
    "NuTo.Scaling.C123_solve",
    "NuTo.Scaling.C123_step_partial",
    "NuTo.Scaling.C123_units_counterexample"
   ],
   "note": "energy, stiffness, residual, constraints, equilibria and Solve proved; steps proved if the free displacements are at most 1e10 in both units; C123_units_counterexample shows a step that converges in metres and pascals and does not in millimetres and megapascals"
  },
  {
   "property": "C124",
   "status": "proved",
   "theorems": [
    "NuTo.Stiffening.C124_energy",
    "NuTo.Stiffening.C124_stiffness",
    "NuTo.Stiffening.C124_held",
    "NuTo.Stiffening.C124_compliance",
    "NuTo.Stiffening.C124_solve",
    "NuTo.Stiffening.C124_deflection",
    "NuTo.Stiffening.C124_prescribed",
    "NuTo.Stiffening.C124_step"
   ],
   "note": "C124_energy, C124_stiffness, C124_held, C124_compliance, C124_solve, C124_deflection, C124_prescribed, C124_step. Same Poisson ratio and same numbering of the dofs in both bodies (C122 for other numberings); exact arithmetic; acceptance of a step (free displacements at most 1e10) is a hypothesis of the last part of C124_step."
  },
  {
   "property": "C125",
   "status": "proved",
   "theorems": [
    "NuTo.Timing.C125_line",
    "NuTo.Timing.C125_phases",
    "NuTo.Timing.C125_silent",
    "NuTo.Timing.C125_total",
    "NuTo.Timing.C125_difference",
    "NuTo.Timing.C125_difference_counterexample",
    "NuTo.Timing.C125_logged"
   ],
   "note": "C125_line, C125_phases, C125_silent, C125_total, C125_difference, C125_logged; C125_difference_counterexample concerns the documentation of GetTimeDifference only. The clock readings and the texts of the numbers are arguments of the model."
  },
  {
   "property": "C126",
   "status": "proved",
   "theorems": [
    "NuTo.Objectivity.C126_constraints",
    "NuTo.Objectivity.C126_energy",
    "NuTo.Objectivity.C126_equilibrium",
    "NuTo.Objectivity.C126_held",
    "NuTo.Objectivity.C126_stiffness",
    "NuTo.Objectivity.C126_residual",
    "NuTo.Objectivity.C126_solve",
    "NuTo.Objectivity.C126_step",
    "NuTo.Objectivity.C126_symmetry"
   ],
   "note": "C126_energy, C126_equilibrium, C126_held, C126_constraints (when constraint equations are the turned ones), C126_stiffness, C126_residual, C126_solve, C126_step (the trial state without condition; accepted if the free part is at most 1e10), C126_symmetry. Exact arithmetic."
  },
  {
   "property": "C127",
   "status": "partial",
   "theorems": [
    "NuTo.GmshBytes.C127_read_partial",
    "NuTo.GmshBytes.C127_byte_order",
    "NuTo.GmshBytes.C127_text",
    "NuTo.GmshBytes.C127_end_marker",
    "NuTo.GmshBytes.C127_terminates",
    "NuTo.GmshBytes.C127_nodes_cut",
    "NuTo.GmshBytes.C127_nodes_defined",
    "NuTo.GmshBytes.C127_header_cut_counterexample",
    "NuTo.GmshBytes.C127_blocks_counterexample"
   ],
   "note": "Proved for all files in which every header of elements is followed by one element (C127_read_partial), plus C127_byte_order, C127_nodes_cut, C127_nodes_defined, C127_end_marker, C127_terminates and C127_text (agreement with the model of text files). False for headers with more elements (C127_blocks_counterexample, the defect of C26 seen on whole files) and undefined for a file that ends within the header (C127_header_cut_counterexample)."
  }
 ]
}